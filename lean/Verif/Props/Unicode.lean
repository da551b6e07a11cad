import Verif.Exact

/-!
# Properties of the Unicode encodings (C19–C24)
-/

namespace Reiconv

/-! ## Inverse functions -/

theorem utf8_exact : utf8_entry.Exact := by
  apply simple_exact
  · intro wc bs t _ h
    have h : (if Scalar wc then some (utf8Enc wc) else none) = some bs := h
    split at h
    · next hs => cases h; exact utf8Item_enc hs t
    · cases h
  · intro s wc n _ h
    obtain ⟨h1, _, h2⟩ := utf8Item_char_enc (h : utf8Item s = .char wc n)
    refine ⟨?_, by have := h1.lt; omega⟩
    show (if Scalar wc then some (utf8Enc wc) else none) = _
    rw [if_pos h1, h2]

/-- A way to write 16 bit units and to read them. -/
structure Unit16 (u : List Byte → Nat) (put : Nat → List Byte) : Prop where
  u_put : ∀ v t, v < 65536 → u (put v ++ t) = v
  put_u : ∀ s, 2 ≤ s.length → put (u s) = s.take 2
  len : ∀ v, (put v).length = 2
  lt : ∀ s, u s < 65536

theorem unit16be : Unit16 u16be b16 where
  u_put := fun _ _ h => u16be_b16 h _
  put_u := fun _ h => b16_u16be h
  len := fun _ => rfl
  lt := by
    intro s
    match s with
    | [] => simp [u16be]
    | [a] => simp [u16be]
    | a :: b :: t => have := byte_lt a; have := byte_lt b; simp only [u16be]; omega

theorem unit16le : Unit16 u16le l16 where
  u_put := fun _ _ h => u16le_l16 h _
  put_u := fun _ h => l16_u16le h
  len := fun _ => rfl
  lt := by
    intro s
    match s with
    | [] => simp [u16le]
    | [a] => simp [u16le]
    | a :: b :: t => have := byte_lt a; have := byte_lt b; simp only [u16le]; omega

/-- A way to write 32 bit units and to read them. -/
structure Unit32 (u : List Byte → Nat) (put : Nat → List Byte) : Prop where
  u_put : ∀ v t, v < 4294967296 → u (put v ++ t) = v
  put_u : ∀ s, 4 ≤ s.length → put (u s) = s.take 4
  len : ∀ v, (put v).length = 4
  lt : ∀ s, u s < 4294967296

theorem unit32be : Unit32 u32be b32 where
  u_put := fun _ _ h => u32be_b32 h _
  put_u := fun _ h => b32_u32be h
  len := fun _ => rfl
  lt := by
    intro s
    match s with
    | [] => simp [u32be]
    | [a] => simp [u32be]
    | [a, b] => simp [u32be]
    | [a, b, c] => simp [u32be]
    | a :: b :: c :: d :: t =>
      have := byte_lt a; have := byte_lt b; have := byte_lt c; have := byte_lt d
      simp only [u32be]; omega

theorem unit32le : Unit32 u32le l32 where
  u_put := fun _ _ h => u32le_l32 h _
  put_u := fun _ h => l32_u32le h
  len := fun _ => rfl
  lt := by
    intro s
    match s with
    | [] => simp [u32le]
    | [a] => simp [u32le]
    | [a, b] => simp [u32le]
    | [a, b, c] => simp [u32le]
    | a :: b :: c :: d :: t =>
      have := byte_lt a; have := byte_lt b; have := byte_lt c; have := byte_lt d
      simp only [u32le]; omega

theorem utf16Item_enc {u put} (h : Unit16 u put) {wc : Nat} (hs : Scalar wc) (t : List Byte) :
    utf16Item u (utf16Enc put wc ++ t) = .char wc (utf16Enc put wc).length := by
  have hs' := hs
  unfold Scalar at hs'
  unfold utf16Item utf16Enc
  by_cases h1 : wc < 0x10000
  · simp only [if_pos h1]
    rw [if_neg (by simp [h.len]), h.u_put _ _ (by omega), if_neg (by omega), if_neg (by omega), h.len]
  · simp only [if_neg h1]
    rw [if_neg (by simp only [List.length_append, h.len]; omega), List.append_assoc, h.u_put _ _ (by omega),
      if_pos (by omega), if_neg (by simp only [List.length_append, h.len]; omega), List.drop_left' (h.len _),
      h.u_put _ _ (by omega), if_pos (by omega)]
    simp only [List.length_append, h.len, MbRet.char.injEq, and_true]
    omega

theorem utf16Item_char_enc {u put} (h : Unit16 u put) {s : List Byte} {wc n : Nat}
    (hg : utf16Item u s = .char wc n) :
    Scalar wc ∧ n = (utf16Enc put wc).length ∧ s.take n = utf16Enc put wc := by
  unfold utf16Item at hg
  have hl1 := h.lt s
  have hl2 := h.lt (s.drop 2)
  split at hg
  · cases hg
  split at hg
  · next h1 =>
    split at hg
    · cases hg
    split at hg
    · next h2 h3 =>
      simp only [MbRet.char.injEq] at hg
      obtain ⟨rfl, rfl⟩ := hg
      unfold utf16Enc
      rw [if_neg (by omega)]
      refine ⟨by unfold Scalar; omega, by simp [h.len], ?_⟩
      rw [show 0xd800 + (0x10000 + (u s - 0xd800) * 1024 + (u (s.drop 2) - 0xdc00) - 0x10000) / 1024 = u s
        by omega, show 0xdc00 + (0x10000 + (u s - 0xd800) * 1024 + (u (s.drop 2) - 0xdc00) - 0x10000) % 1024
        = u (s.drop 2) by omega, h.put_u _ (by omega), h.put_u _ (by simp; omega)]
      exact List.take_add (i := 2) (j := 2)
    · cases hg
  split at hg
  · cases hg
  simp only [MbRet.char.injEq] at hg
  obtain ⟨rfl, rfl⟩ := hg
  unfold utf16Enc
  rw [if_pos (by omega)]
  exact ⟨by unfold Scalar; omega, by simp [h.len], (h.put_u _ (by omega)).symm⟩

theorem utf16be_exact : utf16be_entry.Exact := by
  apply simple_exact
  · intro wc bs t _ h
    have h : (if Scalar wc then some (utf16Enc b16 wc) else none) = some bs := h
    split at h
    · next hs => cases h; exact utf16Item_enc unit16be hs t
    · cases h
  · intro s wc n _ h
    obtain ⟨h1, _, h2⟩ := utf16Item_char_enc unit16be (h : utf16Item u16be s = .char wc n)
    refine ⟨?_, by have := h1.lt; omega⟩
    show (if Scalar wc then some (utf16Enc b16 wc) else none) = _
    rw [if_pos h1, h2]

theorem utf16le_exact : utf16le_entry.Exact := by
  apply simple_exact
  · intro wc bs t _ h
    have h : (if Scalar wc then some (utf16Enc l16 wc) else none) = some bs := h
    split at h
    · next hs => cases h; exact utf16Item_enc unit16le hs t
    · cases h
  · intro s wc n _ h
    obtain ⟨h1, _, h2⟩ := utf16Item_char_enc unit16le (h : utf16Item u16le s = .char wc n)
    refine ⟨?_, by have := h1.lt; omega⟩
    show (if Scalar wc then some (utf16Enc l16 wc) else none) = _
    rw [if_pos h1, h2]

/-- Decoder and encoder of fixed width units. -/
theorem fixed_exact {idx unit : Nat} {hu : unitOf idx = unit} {D : Decoder} {E : Encoder}
    {e : SimpleEnc E} {d : SimpleDec D unit} (w : Nat) (u : List Byte → Nat)
    (put : Nat → List Byte) (P : Nat → Prop) [DecidablePred P] {bound : Nat}
    (hb : bound ≤ 4294967296) (hP : ∀ wc, P wc → wc < 4294967296 → wc < bound)
    (h1 : ∀ v t, v < bound → u (put v ++ t) = v) (h2 : ∀ s, w ≤ s.length → put (u s) = s.take w)
    (hlen : ∀ v, (put v).length = w) (hlt : ∀ s, u s < bound)
    (hd : ∀ s, d.g s = if s.length < w then .toofew 0 else
      match (if P (u s) then some (u s) else none) with
      | some wc => .char wc w
      | none => .ilseq 0)
    (he : ∀ wc, wc < 4294967296 → e.enc wc = if P wc then some (put wc) else none) :
    (simpleEntry idx unit hu d e).Exact := by
  apply simple_exact
  · intro wc bs t hwc h
    rw [he _ hwc] at h
    split at h
    · next hp =>
      cases h
      rw [hd, if_neg (by simp [hlen]), h1 _ _ (hP _ hp hwc), if_pos hp]
      simp [hlen]
    · cases h
  · intro s wc n _ h
    rw [hd] at h
    split at h
    · cases h
    · next hl =>
      by_cases hp : P (u s)
      · rw [if_pos hp] at h
        simp only [MbRet.char.injEq] at h
        obtain ⟨rfl, rfl⟩ := h
        have := hlt s
        rw [he _ (by omega), if_pos hp, h2 _ (by omega)]
        exact ⟨rfl, by omega⟩
      · rw [if_neg hp] at h; cases h

theorem u32_put32 {u put} (h : Unit32 u put) {idx unit : Nat} {hu : unitOf idx = unit} {D : Decoder}
    {E : Encoder} {e : SimpleEnc E} {d : SimpleDec D unit} (P : Nat → Prop) [DecidablePred P]
    (hd : ∀ s, d.g s = if s.length < 4 then .toofew 0 else
      match (if P (u s) then some (u s) else none) with
      | some wc => .char wc 4
      | none => .ilseq 0)
    (he : ∀ wc, wc < 4294967296 → e.enc wc = if P wc then some (put wc) else none) :
    (simpleEntry idx unit hu d e).Exact :=
  fixed_exact 4 u put P (bound := 4294967296) (by omega) (fun _ _ h => h) h.u_put h.put_u
    h.len h.lt hd he

theorem u16_put16 {u put} (h : Unit16 u put) {idx unit : Nat} {hu : unitOf idx = unit} {D : Decoder}
    {E : Encoder} {e : SimpleEnc E} {d : SimpleDec D unit} (P : Nat → Prop) [DecidablePred P]
    (hP : ∀ wc, P wc → wc < 0x10000)
    (hd : ∀ s, d.g s = if s.length < 2 then .toofew 0 else
      match (if P (u s) then some (u s) else none) with
      | some wc => .char wc 2
      | none => .ilseq 0)
    (he : ∀ wc, wc < 4294967296 → e.enc wc = if P wc then some (put wc) else none) :
    (simpleEntry idx unit hu d e).Exact :=
  fixed_exact 2 u put P (bound := 65536) (by omega) (fun _ h _ => hP _ h) h.u_put h.put_u
    h.len h.lt hd he

/-- Code points that UCS-2 has: 16 bit and not a surrogate. -/
def Ucs2 (wc : Nat) : Prop := wc < 0x10000 ∧ ¬ (wc ≥ 0xd800 ∧ wc < 0xe000)

instance : DecidablePred Ucs2 := fun wc => by unfold Ucs2; infer_instance

theorem noSurr_ucs2 {v : Nat} (h : v < 65536) : noSurr v = if Ucs2 v then some v else none := by
  unfold noSurr
  by_cases hs : v ≥ 0xd800 ∧ v < 0xe000
  · rw [if_pos hs, if_neg (fun hc => hc.2 hs)]
  · rw [if_neg hs, if_pos ⟨h, hs⟩]

theorem ucs2be_exact : ucs2be_entry.Exact :=
  u16_put16 unit16be Ucs2 (fun _ h => h.1) (fun s => by rw [← noSurr_ucs2 (unit16be.lt s)]; rfl)
    (fun _ _ => rfl)
theorem ucs2le_exact : ucs2le_entry.Exact :=
  u16_put16 unit16le Ucs2 (fun _ h => h.1) (fun s => by rw [← noSurr_ucs2 (unit16le.lt s)]; rfl)
    (fun _ _ => rfl)
theorem ucs2internal_exact : ucs2internal_entry.Exact :=
  u16_put16 unit16le Ucs2 (fun _ h => h.1) (fun s => by rw [← noSurr_ucs2 (unit16le.lt s)]; rfl)
    (fun _ _ => rfl)
theorem ucs2swapped_exact : ucs2swapped_entry.Exact :=
  u16_put16 unit16be Ucs2 (fun _ h => h.1) (fun s => by rw [← noSurr_ucs2 (unit16be.lt s)]; rfl)
    (fun _ _ => rfl)
theorem ucs4be_exact : ucs4be_entry.Exact :=
  u32_put32 unit32be (fun _ => True) (fun _ => by rw [if_pos trivial]; rfl)
    (fun _ _ => by rw [if_pos trivial]; rfl)
theorem ucs4le_exact : ucs4le_entry.Exact :=
  u32_put32 unit32le (fun _ => True) (fun _ => by rw [if_pos trivial]; rfl)
    (fun _ _ => by rw [if_pos trivial]; rfl)
theorem ucs4internal_exact : ucs4internal_entry.Exact :=
  u32_put32 unit32le (fun _ => True) (fun _ => by rw [if_pos trivial]; rfl)
    (fun _ _ => by rw [if_pos trivial]; rfl)
theorem ucs4swapped_exact : ucs4swapped_entry.Exact :=
  u32_put32 unit32be (fun _ => True) (fun _ => by rw [if_pos trivial]; rfl)
    (fun wc h => by rw [if_pos trivial, ← l32_swap32 h]; rfl)
theorem utf32be_exact : utf32be_entry.Exact :=
  u32_put32 unit32be Scalar (fun _ => rfl) (fun _ _ => rfl)
theorem utf32le_exact : utf32le_entry.Exact :=
  u32_put32 unit32le Scalar (fun _ => rfl) (fun _ _ => rfl)

/-! ## C19, C20, C21: UTF-8 -/

/-- A concatenation of well-formed UTF-8 sequences. -/
def IsUtf8 (bs : List Byte) : Prop := ∃ cs : List Nat, (∀ c ∈ cs, Scalar c) ∧ bs = cs.flatMap utf8Enc

theorem utf8_encodes {cs : List Nat} {out : List Byte} :
    utf8_entry.Encodes cs out ↔ (∀ c ∈ cs, Scalar c) ∧ out = cs.flatMap utf8Enc :=
  simple_encodes.trans (utf8_senc.text_flatMap (P := Scalar) (f := utf8Enc) (fun _ => rfl))

/-- C19. In UTF-8 the bytes `inp` are a text with the characters `cs` iff all of `cs` are scalar values
and `inp` is the concatenation of their well-formed sequences. -/
theorem C19_utf8_decoding (inp : List Byte) (cs : List Nat) :
    utf8_entry.Text inp cs ↔ (∀ c ∈ cs, Scalar c) ∧ inp = cs.flatMap utf8Enc := by
  rw [utf8_exact, utf8_encodes]
  constructor
  · exact fun h => h.1
  · exact fun h => ⟨h, fun c hc => by have := (h.1 c hc).lt; omega⟩

theorem chars_of_text {A : Entry} {inp cs} (h : A.Text inp cs) (hf : A.dec.flushwc = none) :
    ∃ is, Chars A.atom IState.init inp cs is := by
  obtain ⟨cs0, is, h, rfl⟩ := h
  refine ⟨is, ?_⟩
  simpa [Decoder.kept, hf] using h

theorem utf8_valid {inp : List Byte} : Valid utf8_entry.atom IState.init inp ↔ IsUtf8 inp := by
  rw [valid_iff_chars]
  constructor
  · rintro ⟨cs, is, h⟩
    exact ⟨cs, (C19_utf8_decoding inp cs).1 ⟨cs, is, h, by simp [Decoder.kept, utf8_entry, simpleEntry,
      utf8_simple.flush]⟩⟩
  · rintro ⟨cs, h⟩
    obtain ⟨is, h⟩ := chars_of_text ((C19_utf8_decoding inp cs).2 h) rfl
    exact ⟨cs, is, h⟩

theorem ucs4be_encodes {cs : List Nat} : ucs4be_entry.Encodes cs (cs.flatMap b32) :=
  simple_encodes.2 ((ucs4be_senc.text_flatMap (P := fun _ => True) (f := b32)
    (fun _ => by rw [if_pos trivial]; rfl)).2 ⟨fun _ _ => trivial, rfl⟩)

/-- C19 at the API. Without the discard flag: `reiconv_convert` from UTF-8 to UCS-4BE (which has all
code points) returns 0 for well-formed input, with the code points the input stands for; and for
input that is not well-formed, `reiconv_result_size` and `reiconv_convert` from UTF-8 to any encoding
fail with `EILSEQ`. -/
theorem C19_utf8_convert (inp : List Byte) (alloc : Nat → List Byte)
    (hal : ∀ n, (alloc n).length = n) :
    (∀ cs : List Nat, (∀ c ∈ cs, Scalar c) → inp = cs.flatMap utf8Enc →
      ∃ r, convert (utf8_entry.conv ucs4be_entry false) St.init inp true true
          (fun n => some (alloc n)) = .ok r ∧
        r.ret = .ok () ∧ r.data = some (cs.flatMap b32)) ∧
    (¬ IsUtf8 inp → ∀ B : Entry,
      ∃ s1, resultSize (utf8_entry.conv B false) St.init inp = .ok (.error .EILSEQ, s1) ∧
        convert (utf8_entry.conv B false) St.init inp true true (fun n => some (alloc n)) =
          .ok ⟨.error .EILSEQ, s1, none, none⟩) := by
  constructor
  · intro cs h1 h2
    obtain ⟨r, h3, h4, _, h5⟩ := convert_text (A := utf8_entry) (B := ucs4be_entry) false simple_fixed
      ((C19_utf8_decoding inp cs).2 ⟨h1, h2⟩) ucs4be_encodes alloc hal
    exact ⟨r, h3, h4, h5⟩
  · intro h B
    obtain ⟨_, _, h3⟩ := C12_strict_rejects_invalid utf8_entry B St.init (.init _) inp
    obtain ⟨s1, h4, h5⟩ := h3 (fun hv => h (utf8_valid.1 hv))
    exact ⟨s1, h4, h5 _ _ _⟩

/-- Hypotheses of C19 are met: "a", U+E9, U+20AC, U+1F600. -/
example : (∀ c ∈ [0x61, 0xE9, 0x20AC, 0x1F600], Scalar c) ∧
    [0x61, 0xE9, 0x20AC, 0x1F600].flatMap utf8Enc =
      [0x61, 0xC3, 0xA9, 0xE2, 0x82, 0xAC, 0xF0, 0x9F, 0x98, 0x80] := by decide
/-- An overlong form, a surrogate and U+110000 are not well-formed. -/
example : ¬ IsUtf8 [0xC0, 0x80] ∧ ¬ IsUtf8 [0xED, 0xA0, 0x80] ∧ ¬ IsUtf8 [0xF4, 0x90, 0x80, 0x80] := by
  refine ⟨?_, ?_, ?_⟩ <;> intro h <;> rw [← utf8_valid] at h <;>
    cases h with
    | char _ ha _ => cases (show Atom.ilseq = _ from ha)
    | shift _ ha _ => cases (show Atom.ilseq = _ from ha)

theorem isUtf8_append {a b : List Byte} (ha : IsUtf8 a) (hb : IsUtf8 b) : IsUtf8 (a ++ b) := by
  obtain ⟨x, hx, rfl⟩ := ha
  obtain ⟨y, hy, rfl⟩ := hb
  refine ⟨x ++ y, ?_, by simp⟩
  intro c hc
  rcases List.mem_append.1 hc with h | h
  · exact hx c h
  · exact hy c h

theorem utf8_encChar {discard os wc bs os1 i} (h : encChar utf8_enc discard os wc = some (bs, os1, i)) :
    IsUtf8 bs := by
  have key : ∀ {os wc x}, utf8_enc.full os wc = some x → IsUtf8 x.1 := by
    intro os wc x hx
    rw [utf8_senc.full_eq] at hx
    have : utf8_senc.enc wc = if Scalar wc then some (utf8Enc wc) else none := rfl
    rw [this] at hx
    split at hx
    · next hs => cases hx; exact ⟨[wc], by simpa using hs, by simp⟩
    · cases hx
  have nil : IsUtf8 [] := ⟨[], by simp, rfl⟩
  unfold encChar at h
  split at h
  · next heq => cases h; exact key heq
  · split at h
    · cases h; exact nil
    · split at h
      · cases h; exact nil
      · split at h
        · next heq => cases h; exact key heq
        · cases h

theorem utf8_emits {A : Entry} {discard os e os'} (h : Emits (A.conv utf8_entry discard) os e os') :
    IsUtf8 e := by
  induction h with
  | nil => exact ⟨[], by simp, rfl⟩
  | char h _ ih => exact isUtf8_append (utf8_encChar h) ih
  | reset _ ih =>
    show IsUtf8 (utf8_enc.tail _ ++ _)
    rw [utf8_senc.tail_eq]; exact ih

/-- C20. Whatever the source encoding, flag, history of the descriptor, input and buffer: the bytes a
call of `reiconv_iconv` (conversion or flush) or `reiconv_convert_static_size` writes to a UTF-8
target are well-formed UTF-8, also if the call fails. For sources without byte order marks the
same holds for the buffer `reiconv_convert` returns. Missing: `reiconv_convert` from UTF-16,
UTF-32, UCS-2 and UCS-4, see `C20_uninitialised_output`. -/
theorem C20_utf8_output_partial (A : Entry) (discard : Bool) (s : St)
    (h : Reach (A.conv utf8_entry discard) s) :
    (∀ inp room r, iconv (A.conv utf8_entry discard) s inp (some ⟨false, [], room⟩) = .ok r →
      IsUtf8 r.buf.out) ∧
    (∀ inp room x, convertStatic (A.conv utf8_entry discard) s inp ⟨false, [], room⟩ = .ok x →
      IsUtf8 x.2.2.out) ∧
    (A.FixedOrder → ∀ (inp : List Byte) (alloc : Nat → List Byte), (∀ n, (alloc n).length = n) → ∀ r out,
      convert (A.conv utf8_entry discard) St.init inp true true (fun n => some (alloc n)) = .ok r →
      r.data = some out → IsUtf8 out) := by
  obtain ⟨hI, hO⟩ := Entry.inv A utf8_entry h
  refine ⟨?_, ?_, ?_⟩
  · intro inp room r hr
    obtain ⟨e, h1, h2⟩ := iconv_emits (c := A.conv utf8_entry discard) A.decOK utf8_entry.encOK hI hO
      rfl hr
    rw [h1]; exact utf8_emits h2
  · intro inp room x hx
    obtain ⟨e, os', h1, h2⟩ := staticLoop_emits (c := A.conv utf8_entry discard) A.decOK
      utf8_entry.encOK _ _ _ _ _ hI hO rfl hx
    rw [h1]; exact utf8_emits h2
  · intro hA inp alloc hal r out hr hout
    obtain ⟨r', h1, h2, _⟩ := C09_convert_whole_partial A utf8_entry discard hA inp alloc hal
    rw [hr] at h1; cases h1
    rcases h2 with ⟨_, o, irr, hw, _, hd⟩ | ⟨_, hd⟩
    · rw [hout] at hd; cases hd
      obtain ⟨o1, i1, s1, fo, fi, g1, g2, rfl, _⟩ := hw
      obtain ⟨os', g3, _⟩ := runs_wrote g1
      refine isUtf8_append (utf8_emits g3.emits) ?_
      unfold finish at g2
      have ht : ∀ os, (A.conv utf8_entry discard).enc.tail os = [] := utf8_senc.tail_eq
      split at g2
      · cases g2; rw [ht]; exact ⟨[], by simp, rfl⟩
      · split at g2
        · next heq => cases g2; rw [ht, List.append_nil]; exact utf8_encChar heq
        · cases g2
    · rw [hout] at hd; cases hd

/-- C20 and C09 fail: UTF-16 to UTF-8. The input `41 00 FF FE` is U+4100 followed by a byte order mark;
the first pass of `reiconv_convert` computes the length 3, the second pass reads in the other byte
order and writes 1 byte. `reiconv_convert` returns 0 with length 3; the last two bytes are whatever
`malloc` left there, here `FF FF`. -/
theorem C20_uninitialised_output :
    convert (utf16_entry.conv utf8_entry false) St.init [0x41, 0x00, 0xFF, 0xFE] true true
      (fun n => some (List.replicate n 0xFF)) =
      .ok ⟨.ok (), ⟨⟨1, 0⟩, 0⟩, some 3, some [0x41, 0xFF, 0xFF]⟩ ∧ ¬ IsUtf8 [0x41, 0xFF, 0xFF] := by
  refine ⟨by decide +kernel, ?_⟩
  intro h
  rw [← utf8_valid] at h
  cases h with
  | shift _ ha _ => cases (show Atom.char 0x41 1 IState.init = _ from ha)
  | char _ ha h =>
    cases (show Atom.char 0x41 1 IState.init = _ from ha)
    cases h with
    | char _ ha _ => cases (show Atom.ilseq = _ from ha)
    | shift _ ha _ => cases (show Atom.ilseq = _ from ha)

/-- C21. UTF-8: every scalar value is encoded by its standard sequence and that decodes to it; every
valid text is the encoding of its characters; nothing that is not a scalar value is encoded. -/
theorem C21_utf8_round_trip :
    (∀ wc, Scalar wc → utf8_entry.Encodes [wc] (utf8Enc wc) ∧ utf8_entry.Text (utf8Enc wc) [wc]) ∧
    (∀ cs out, utf8_entry.Encodes cs out → utf8_entry.Text out cs) ∧
    (∀ inp cs, utf8_entry.Text inp cs → utf8_entry.Encodes cs inp) ∧
    (∀ cs out wc, wc ∈ cs → ¬ Scalar wc → ¬ utf8_entry.Encodes cs out) := by
  refine ⟨fun wc h => ⟨utf8_encodes.2 ⟨by simpa using h, by simp⟩,
    (C19_utf8_decoding _ _).2 ⟨by simpa using h, by simp⟩⟩, ?_, ?_, ?_⟩
  · intro cs out h
    exact (C19_utf8_decoding _ _).2 (utf8_encodes.1 h)
  · intro inp cs h
    exact ((utf8_exact _ _).1 h).1
  · intro cs out wc h1 h2 h3
    exact h2 ((utf8_encodes.1 h3).1 wc h1)

/-! ## C22, C23: encodings with 16 and 32 bit units -/

/-- C22, encodings with fixed byte order: the bytes `inp` are a UTF-16BE (UTF-16LE) text with the
characters `cs` iff all of `cs` are scalar values and `inp` is the concatenation of their UTF-16
forms, surrogate pairs above U+FFFF; the encoder writes exactly this and rejects everything else. -/
theorem C22_utf16be_le (inp : List Byte) (cs : List Nat) :
    (utf16be_entry.Text inp cs ↔ (∀ c ∈ cs, Scalar c) ∧ inp = cs.flatMap (utf16Enc b16)) ∧
    (utf16be_entry.Encodes cs inp ↔ (∀ c ∈ cs, Scalar c) ∧ inp = cs.flatMap (utf16Enc b16)) ∧
    (utf16le_entry.Text inp cs ↔ (∀ c ∈ cs, Scalar c) ∧ inp = cs.flatMap (utf16Enc l16)) ∧
    (utf16le_entry.Encodes cs inp ↔ (∀ c ∈ cs, Scalar c) ∧ inp = cs.flatMap (utf16Enc l16)) := by
  have e1 : utf16be_entry.Encodes cs inp ↔ (∀ c ∈ cs, Scalar c) ∧ inp = cs.flatMap (utf16Enc b16) :=
    simple_encodes.trans (utf16be_senc.text_flatMap (P := Scalar) (fun _ => rfl))
  have e2 : utf16le_entry.Encodes cs inp ↔ (∀ c ∈ cs, Scalar c) ∧ inp = cs.flatMap (utf16Enc l16) :=
    simple_encodes.trans (utf16le_senc.text_flatMap (P := Scalar) (fun _ => rfl))
  refine ⟨?_, e1, ?_, e2⟩
  · rw [utf16be_exact, e1]
    exact ⟨fun h => h.1, fun h => ⟨h, fun c hc => by have := (h.1 c hc).lt; omega⟩⟩
  · rw [utf16le_exact, e2]
    exact ⟨fun h => h.1, fun h => ⟨h, fun c hc => by have := (h.1 c hc).lt; omega⟩⟩

/-- U+1F600 is written as a surrogate pair. -/
example : (∀ c ∈ [0x61, 0x1F600], Scalar c) ∧
    [0x61, 0x1F600].flatMap (utf16Enc b16) = [0x00, 0x61, 0xD8, 0x3D, 0xDE, 0x00] ∧
    [0x61, 0x1F600].flatMap (utf16Enc l16) = [0x61, 0x00, 0x3D, 0xD8, 0x00, 0xDE] := by decide

/-- An encoding with units of fixed size and fixed byte order: the characters it has, and the bytes of
each. -/
structure FixedForm where
  entry : Entry
  has : Nat → Prop
  bytes : Nat → List Byte

/-- The encodings of the family: UTF-32 has the scalar values, UCS-2 the 16 bit code points without
surrogates, UCS-4 all 32 bit values. -/
def fixedForms : List FixedForm :=
  [⟨utf32be_entry, Scalar, b32⟩, ⟨utf32le_entry, Scalar, l32⟩,
   ⟨ucs2be_entry, Ucs2, b16⟩, ⟨ucs2le_entry, Ucs2, l16⟩,
   ⟨ucs2internal_entry, Ucs2, l16⟩, ⟨ucs2swapped_entry, Ucs2, b16⟩,
   ⟨ucs4be_entry, (· < 4294967296), b32⟩, ⟨ucs4le_entry, (· < 4294967296), l32⟩,
   ⟨ucs4internal_entry, (· < 4294967296), l32⟩, ⟨ucs4swapped_entry, (· < 4294967296), b32⟩]

theorem flatMap_congr {α β : Type} {f g : α → List β} : ∀ {l : List α}, (∀ x ∈ l, f x = g x) →
    l.flatMap f = l.flatMap g
  | [], _ => rfl
  | a :: l, h => by
    rw [List.flatMap_cons, List.flatMap_cons, h a (by simp),
      flatMap_congr (fun x hx => h x (by simp [hx]))]

theorem fixedForm_ok {idx unit : Nat} {hu : unitOf idx = unit} {D : Decoder} {E : Encoder}
    {e : SimpleEnc E} {d : SimpleDec D unit} (hx : (simpleEntry idx unit hu d e).Exact)
    (P Q : Nat → Prop) [DecidablePred Q] (f g : Nat → List Byte)
    (he : ∀ wc, e.enc wc = if Q wc then some (g wc) else none)
    (hPQ : ∀ wc, P wc ↔ (Q wc ∧ wc < 4294967296)) (hfg : ∀ wc, P wc → f wc = g wc)
    (inp : List Byte) (cs : List Nat) :
    ((simpleEntry idx unit hu d e).Text inp cs ↔ (∀ c ∈ cs, P c) ∧ inp = cs.flatMap f) ∧
    ((∀ c ∈ cs, c < 4294967296) →
      ((simpleEntry idx unit hu d e).Encodes cs inp ↔ (∀ c ∈ cs, P c) ∧ inp = cs.flatMap f)) := by
  have key : (∀ c ∈ cs, c < 4294967296) →
      ((simpleEntry idx unit hu d e).Encodes cs inp ↔ (∀ c ∈ cs, P c) ∧ inp = cs.flatMap f) := by
    intro hlt
    rw [simple_encodes, e.text_flatMap he]
    constructor
    · rintro ⟨h1, rfl⟩
      have h2 : ∀ c ∈ cs, P c := fun c hc => (hPQ c).2 ⟨h1 c hc, hlt c hc⟩
      exact ⟨h2, (flatMap_congr fun c hc => hfg c (h2 c hc)).symm⟩
    · rintro ⟨h1, rfl⟩
      exact ⟨fun c hc => ((hPQ c).1 (h1 c hc)).1, flatMap_congr fun c hc => hfg c (h1 c hc)⟩
  refine ⟨?_, key⟩
  rw [hx]
  constructor
  · rintro ⟨h1, h2⟩; exact (key h2).1 h1
  · intro h
    have hlt : ∀ c ∈ cs, c < 4294967296 := fun c hc => ((hPQ c).1 (h.1 c hc)).2
    exact ⟨(key hlt).2 h, hlt⟩

/-- C23, encodings with fixed byte order: the texts with the characters `cs` are exactly the
concatenations of their units in the right byte order, all characters being in the range of the
encoding; and the encoder writes exactly these. -/
theorem C23_fixed_units : ∀ S ∈ fixedForms, ∀ (inp : List Byte) (cs : List Nat),
    (S.entry.Text inp cs ↔ (∀ c ∈ cs, S.has c) ∧ inp = cs.flatMap S.bytes) ∧
    ((∀ c ∈ cs, c < 4294967296) →
      (S.entry.Encodes cs inp ↔ (∀ c ∈ cs, S.has c) ∧ inp = cs.flatMap S.bytes)) := by
  have hs : ∀ wc, Scalar wc ↔ (Scalar wc ∧ wc < 4294967296) :=
    fun wc => ⟨fun h => ⟨h, by have := h.lt; omega⟩, fun h => h.1⟩
  have hu : ∀ wc, Ucs2 wc ↔ (Ucs2 wc ∧ wc < 4294967296) :=
    fun wc => ⟨fun h => ⟨h, by have := h.1; omega⟩, fun h => h.1⟩
  have ht : ∀ wc, wc < 4294967296 ↔ (True ∧ wc < 4294967296) := fun wc => by simp
  simp only [fixedForms, List.forall_mem_cons, List.not_mem_nil, false_implies, implies_true, and_true]
  refine ⟨?_, ?_, ?_, ?_, ?_, ?_, ?_, ?_, ?_, ?_⟩
  · exact fixedForm_ok utf32be_exact Scalar Scalar b32 b32 (fun _ => rfl) hs (fun _ _ => rfl)
  · exact fixedForm_ok utf32le_exact Scalar Scalar l32 l32 (fun _ => rfl) hs (fun _ _ => rfl)
  · exact fixedForm_ok ucs2be_exact Ucs2 Ucs2 b16 b16 (fun _ => rfl) hu (fun _ _ => rfl)
  · exact fixedForm_ok ucs2le_exact Ucs2 Ucs2 l16 l16 (fun _ => rfl) hu (fun _ _ => rfl)
  · exact fixedForm_ok ucs2internal_exact Ucs2 Ucs2 l16 l16 (fun _ => rfl) hu (fun _ _ => rfl)
  · exact fixedForm_ok ucs2swapped_exact Ucs2 Ucs2 b16 b16 (fun _ => rfl) hu (fun _ _ => rfl)
  · exact fixedForm_ok ucs4be_exact _ (fun _ => True) b32 b32 (fun _ => by rw [if_pos trivial]; rfl) ht
      (fun _ _ => rfl)
  · exact fixedForm_ok ucs4le_exact _ (fun _ => True) l32 l32 (fun _ => by rw [if_pos trivial]; rfl) ht
      (fun _ _ => rfl)
  · exact fixedForm_ok ucs4internal_exact _ (fun _ => True) l32 l32
      (fun _ => by rw [if_pos trivial]; rfl) ht (fun _ _ => rfl)
  · exact fixedForm_ok ucs4swapped_exact _ (fun _ => True) b32 (fun wc => l32 (swap32 wc))
      (fun _ => by rw [if_pos trivial]; rfl) ht (fun _ h => (l32_swap32 h).symm)

/-- U+1F600 in UTF-32LE. -/
example : Scalar 0x1F600 ∧ [0x1F600].flatMap l32 = [0x00, 0xF6, 0x01, 0x00] := by decide

end Reiconv
