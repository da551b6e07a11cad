import Verif.Props.Bom
import Verif.Gen.SbEntries

/-!
# Single-byte encodings: C27, C28 (single-byte part), C29 (single-byte part)

`sbRows` lists the 135 single-byte encodings with the mapping tables published in `tests/data`; ASCII
and ISO-8859-1 are added here. The tables in the statements are data files, not the tables of the
converters.
-/

namespace Reiconv

/-- `R` holds between the elements of two lists, position by position. -/
inductive AllPairs {α β : Type} (R : α → β → Prop) : List α → List β → Prop
  | nil : AllPairs R [] []
  | cons {a b as bs} : R a b → AllPairs R as bs → AllPairs R (a :: as) (b :: bs)

theorem AllPairs.append {α β : Type} {R : α → β → Prop} {a a' : List α} {b b' : List β}
    (h : AllPairs R a b) (h' : AllPairs R a' b') : AllPairs R (a ++ a') (b ++ b') := by
  induction h with
  | nil => exact h'
  | cons h1 _ ih => exact .cons h1 ih

theorem AllPairs.imp {α β : Type} {R S : α → β → Prop} {a : List α} {b : List β}
    (h : AllPairs R a b) (hi : ∀ x y, R x y → S x y) : AllPairs S a b := by
  induction h with
  | nil => exact .nil
  | cons h1 _ ih => exact .cons (hi _ _ h1) ih

theorem AllPairs.flip {α β : Type} {R : α → β → Prop} {a : List α} {b : List β}
    (h : AllPairs R a b) : AllPairs (fun y x => R x y) b a := by
  induction h with
  | nil => exact .nil
  | cons h1 _ ih => exact .cons h1 ih

/-- An encoding with one byte per character, given by two partial functions. -/
structure ByteMap (A : Entry) (dec enc : Nat → Option Nat) : Prop where
  text : ∀ inp cs, A.Text inp cs ↔ AllPairs (fun b w => dec b.toNat = some w) inp cs
  encodes : ∀ cs out, A.Encodes cs out ↔ AllPairs (fun w b => enc w = some b.toNat) cs out

theorem byteMap_simple {idx unit : Nat} {hu : unitOf idx = unit} {D : Decoder} {E : Encoder}
    {d : SimpleDec D unit} {e : SimpleEnc E} {dec enc : Nat → Option Nat}
    (hg : ∀ b t, d.g (b :: t) = match dec b.toNat with | some wc => .char wc 1 | none => .ilseq 0)
    (he : ∀ wc, e.enc wc = (enc wc).map fun b => [u8 b]) (hlt : ∀ wc b, enc wc = some b → b < 256) :
    ByteMap (simpleEntry idx unit hu d e) dec enc where
  text := by
    intro inp cs
    rw [simple_text]
    constructor
    · generalize IState.init = is0
      have key : ∀ {is is' inp cs}, Chars (atomOf d.g) is inp cs is' →
          AllPairs (fun (b : Byte) w => dec b.toNat = some w) inp cs := by
        intro is is' inp cs h
        induction h with
        | nil => exact .nil
        | shift _ ha _ _ => exact absurd ha atomOf_shift
        | @char is inp wc n is' cs is'' hne ha _ ih =>
          obtain ⟨b, t, rfl⟩ := List.exists_cons_of_ne_nil hne
          unfold atomOf at ha
          rw [hg] at ha
          cases hd : dec b.toNat with
          | none => rw [hd] at ha; cases ha
          | some w => rw [hd] at ha; cases ha; exact .cons hd ih
      exact key
    · intro h
      induction h with
      | nil => exact .nil _
      | @cons b w bs ws h1 _ ih =>
        have h1 : dec b.toNat = some w := h1
        exact .char (n := 1) (is' := IState.init) (by simp) (by unfold atomOf; rw [hg, h1]) ih
  encodes := by
    intro cs out
    rw [simple_encodes]
    induction cs generalizing out with
    | nil =>
      constructor
      · intro h; cases h; exact .nil
      · intro h; cases h; rfl
    | cons c cs ih =>
      rw [e.text_cons]
      constructor
      · rintro ⟨bs, r, h1, h2, rfl⟩
        rw [he] at h1
        cases hc : enc c with
        | none => rw [hc] at h1; cases h1
        | some b =>
          rw [hc] at h1
          cases h1
          refine .cons ?_ ((ih r).1 h2)
          rw [hc, u8_toNat, Nat.mod_eq_of_lt (hlt _ _ hc)]
      · intro h
        cases h with
        | @cons _ b _ bs h1 h2 =>
          refine ⟨[u8 b.toNat], bs, by rw [he, h1]; rfl, (ih bs).2 h2, ?_⟩
          simp [u8]

theorem sb_byteMap (e : SB) (h : e.safe = true) (hu : unitOf e.index = 1) :
    ByteMap (sbEntry e h hu) e.decode e.encode :=
  byteMap_simple (fun _ _ => rfl) (fun _ => rfl) (fun _ _ hh => e.encode_lt h hh)

/-- The pairs (b, b) for b below `n`. -/
def identity (n : Nat) : List (Nat × Nat) := (List.range n).map fun b => (b, b)

theorem mem_identity {n b w : Nat} : (b, w) ∈ identity n ↔ b < n ∧ b = w := by
  simp only [identity, List.mem_map, List.mem_range, Prod.mk.injEq]
  constructor
  · rintro ⟨x, h1, rfl, rfl⟩; exact ⟨h1, rfl⟩
  · rintro ⟨h1, rfl⟩; exact ⟨b, h1, rfl, rfl⟩

/-- ASCII and ISO-8859-1, whose files `ASCII.TXT` and `ISO-8859-1.TXT` list (b, b) for the bytes below
0x80 and for all bytes. -/
def plainRows : List SbRow :=
  [⟨"ASCII", ascii_entry, identity 128, []⟩, ⟨"ISO-8859-1", iso8859_1_entry, identity 256, []⟩]

/-- All single-byte encodings. -/
def singleRows : List SbRow := plainRows ++ sbRows

theorem ascii_byteMap : ByteMap ascii_entry (fun b => if b < 128 then some b else none)
    (fun w => if w < 128 then some w else none) :=
  byteMap_simple
    (by intro b t; show (if b.toNat < 0x80 then _ else _) = _; split <;> rfl)
    (by intro w; show (if w < 0x80 then _ else _) = _; split <;> rfl)
    (by intro w b h; split at h <;> cases h; omega)

theorem iso8859_1_byteMap : ByteMap iso8859_1_entry some (fun w => if w < 256 then some w else none) :=
  byteMap_simple (fun _ _ => rfl)
    (by intro w; show (if w < 0x100 then _ else _) = _; split <;> rfl)
    (by intro w b h; split at h <;> cases h; omega)

/-- What the checks establish: the decoding is the table, the encoding is its inverse up to the
irreversible pairs. -/
structure RowOK (r : SbRow) (dec enc : Nat → Option Nat) : Prop where
  map : ByteMap r.entry dec enc
  dec_iff : ∀ b w, b < 256 → (dec b = some w ↔ (b, w) ∈ r.table)
  enc_iff : ∀ b w, b < 256 → (enc w = some b ↔
    ((b, w) ∈ r.table ∧ (b, w) ∉ r.irr) ∨ ((b, w) ∉ r.table ∧ (b, w) ∈ r.irr))

theorem singleRows_ok : ∀ r ∈ singleRows, ∃ dec enc, RowOK r dec enc := by
  unfold singleRows plainRows
  simp only [List.cons_append, List.nil_append, List.forall_mem_cons]
  refine ⟨⟨_, _, ascii_byteMap, ?_, ?_⟩, ⟨_, _, iso8859_1_byteMap, ?_, ?_⟩, ?_⟩
  · intro b w hb
    simp only [mem_identity]
    split <;> simp [*]
  · intro b w hb
    simp only [mem_identity, List.not_mem_nil, not_false_eq_true, and_true, and_false, or_false]
    split
    · simp only [Option.some.injEq]; omega
    · simp only [reduceCtorEq, false_iff]; omega
  · intro b w hb
    simp only [mem_identity, Option.some.injEq]; omega
  · intro b w hb
    simp only [mem_identity, List.not_mem_nil, not_false_eq_true, and_true, and_false, or_false]
    split
    · simp only [Option.some.injEq]; omega
    · simp only [reduceCtorEq, false_iff]; omega
  · intro r hr
    obtain ⟨e, h, hu, he, hd, hi⟩ := sbRows_ok r hr
    refine ⟨e.decode, e.encode, by rw [he]; exact sb_byteMap e h hu, fun b w hb => e.dec_sound h hd b w hb,
      fun b w hb => ?_⟩
    rw [e.inv_sound h hi b w hb]
    simp only [Ne, e.dec_sound h hd b w hb]

/-- C29 for single-byte encodings: a byte string is a text of the encoding, with the characters `cs`,
exactly if every byte is listed in the published table with the corresponding character. -/
theorem C29_single_byte : ∀ r ∈ singleRows, ∀ (inp : List Byte) (cs : List Nat),
    r.entry.Text inp cs ↔ AllPairs (fun b w => (b.toNat, w) ∈ r.table) inp cs := by
  intro r hr inp cs
  obtain ⟨dec, enc, h⟩ := singleRows_ok r hr
  rw [h.map.text]
  constructor
  · intro hh; exact hh.imp fun b w hb => (h.dec_iff _ _ b.toNat_lt).1 hb
  · intro hh; exact hh.imp fun b w hb => (h.dec_iff _ _ b.toNat_lt).2 hb

theorem valid_iff_text {A : Entry} {inp : List Byte} :
    Valid A.atom IState.init inp ↔ ∃ cs, A.Text inp cs := by
  rw [valid_iff_chars]
  constructor
  · rintro ⟨cs, is, h⟩; exact ⟨_, cs, is, h, rfl⟩
  · rintro ⟨_, cs, is, h, rfl⟩; exact ⟨cs, is, h⟩

/-- What `Text` means at the API, for any encoding without byte order marks: `reiconv_convert` to
UCS-4BE, which has all code points, gives the characters of a text; on input that is not a text,
`reiconv_result_size` and `reiconv_convert` to any encoding fail with `EILSEQ`. -/
theorem decode_api {A : Entry} (hA : A.FixedOrder) (inp : List Byte) (alloc : Nat → List Byte)
    (hal : ∀ n, (alloc n).length = n) :
    (∀ cs : List Nat, A.Text inp cs → ∃ r, convert (A.conv ucs4be_entry false) St.init inp true true
      (fun n => some (alloc n)) = .ok r ∧ r.ret = .ok () ∧ r.data = some (cs.flatMap b32)) ∧
    ((¬ ∃ cs, A.Text inp cs) → ∀ B : Entry,
      ∃ s1, resultSize (A.conv B false) St.init inp = .ok (.error .EILSEQ, s1) ∧
        convert (A.conv B false) St.init inp true true (fun n => some (alloc n)) =
          .ok ⟨.error .EILSEQ, s1, none, none⟩) := by
  constructor
  · intro cs h
    obtain ⟨r, h3, h4, _, h5⟩ := convert_text (A := A) (B := ucs4be_entry) false hA h ucs4be_encodes
      alloc hal
    exact ⟨r, h3, h4, h5⟩
  · intro h B
    obtain ⟨_, _, h3⟩ := C12_strict_rejects_invalid A B St.init (.init _) inp
    obtain ⟨s1, h4, h5⟩ := h3 (fun hv => h (valid_iff_text.1 hv))
    exact ⟨s1, h4, h5 _ _ _⟩

theorem singleRows_fixed : ∀ r ∈ singleRows, r.entry.FixedOrder := by
  unfold singleRows plainRows
  simp only [List.cons_append, List.nil_append, List.forall_mem_cons]
  refine ⟨simple_fixed, simple_fixed, ?_⟩
  intro r hr
  obtain ⟨e, h, hu, he, _⟩ := sbRows_ok r hr
  rw [he]; exact simple_fixed

/-- C29 for single-byte encodings at the API: converting to UCS-4BE gives the characters the published
table lists for the bytes; a byte that is not listed makes every conversion fail with `EILSEQ`. -/
theorem C29_single_byte_convert : ∀ r ∈ singleRows, ∀ (inp : List Byte) (alloc : Nat → List Byte),
    (∀ n, (alloc n).length = n) →
    (∀ cs : List Nat, AllPairs (fun b w => (b.toNat, w) ∈ r.table) inp cs →
      ∃ x, convert (r.entry.conv ucs4be_entry false) St.init inp true true
        (fun n => some (alloc n)) = .ok x ∧ x.ret = .ok () ∧ x.data = some (cs.flatMap b32)) ∧
    ((∃ b ∈ inp, ∀ w, (b.toNat, w) ∉ r.table) → ∀ B : Entry,
      ∃ s1, resultSize (r.entry.conv B false) St.init inp = .ok (.error .EILSEQ, s1) ∧
        convert (r.entry.conv B false) St.init inp true true (fun n => some (alloc n)) =
          .ok ⟨.error .EILSEQ, s1, none, none⟩) := by
  intro r hr inp alloc hal
  obtain ⟨h1, h2⟩ := decode_api (singleRows_fixed r hr) inp alloc hal
  refine ⟨fun cs h => h1 cs ((C29_single_byte r hr inp cs).2 h), ?_⟩
  rintro ⟨b, hb, hw⟩ B
  refine h2 ?_ B
  rintro ⟨cs, hc⟩
  have := (C29_single_byte r hr inp cs).1 hc
  clear hc h1 h2
  induction this with
  | nil => cases hb
  | cons h3 _ ih =>
    rcases List.mem_cons.1 hb with rfl | hb
    · exact hw _ h3
    · exact ih hb

/-- The euro sign of CP1252, and the unassigned byte 0x81. -/
example : (0x80, 0x20AC) ∈ cp1252_from ∧ ∀ w, (0x81, w) ∉ cp1252_from := by
  refine ⟨by decide, ?_⟩
  intro w h
  have : (cp1252_from.map Prod.fst).contains 0x81 = true := by
    simp only [List.contains_eq_mem, decide_eq_true_eq, List.mem_map]
    exact ⟨_, h, rfl⟩
  revert this; decide +kernel

theorem ByteMap.text_one {A dec enc} (h : ByteMap A dec enc) (b : Byte) (w : Nat) :
    A.Text [b] [w] ↔ dec b.toNat = some w := by
  rw [h.text]
  constructor
  · intro hh; cases hh; assumption
  · intro hh; exact .cons hh .nil

theorem ByteMap.encodes_one {A dec enc} (h : ByteMap A dec enc) (b : Byte) (w : Nat) :
    A.Encodes [w] [b] ↔ enc w = some b.toNat := by
  rw [h.encodes]
  constructor
  · intro hh; cases hh; assumption
  · intro hh; exact .cons hh .nil

/-- The first components of irreversible pairs have another, reversible, character. -/
theorem irr_fixed : ∀ r ∈ singleRows, ∀ p ∈ r.irr, p ∉ r.table →
    ∃ q ∈ r.table, q.1 = p.1 ∧ q ∉ r.irr := by
  unfold singleRows plainRows
  simp only [List.cons_append, List.nil_append, List.forall_mem_cons]
  refine ⟨by simp, by simp, ?_⟩
  decide +kernel

/-- C27: in every single-byte encoding, for every byte `b` and every character `w` (any natural
number): (1) a character is encoded as one byte or not at all; (2) if `w` is encoded as `b` then `b` decodes to a character that
is encoded as `b`; (3) if `b` decodes to `w` and the pair is not listed as irreversible, `w` is encoded
as `b`; (4) if `w` is encoded as `b` then `b` decodes to `w` unless the pair is listed as irreversible. -/
theorem C27_single_byte_inverse : ∀ r ∈ singleRows, ∀ (b : Byte) (w : Nat),
    (∀ out, r.entry.Encodes [w] out → ∃ b, out = [b]) ∧
    (r.entry.Encodes [w] [b] → ∃ w', r.entry.Text [b] [w'] ∧ r.entry.Encodes [w'] [b]) ∧
    (r.entry.Text [b] [w] → (b.toNat, w) ∉ r.irr → r.entry.Encodes [w] [b]) ∧
    (r.entry.Encodes [w] [b] → r.entry.Text [b] [w] ∨ (b.toNat, w) ∈ r.irr) := by
  intro r hr b w
  obtain ⟨dec, enc, h⟩ := singleRows_ok r hr
  have hd := h.dec_iff b.toNat w b.toNat_lt
  have he := h.enc_iff b.toNat w b.toNat_lt
  simp only [h.map.text_one, h.map.encodes_one, hd, he]
  refine ⟨?_, ?_, ?_, ?_⟩
  · intro out ho
    rw [h.map.encodes] at ho
    cases ho with
    | cons _ h2 => cases h2; exact ⟨_, rfl⟩
  · rintro (⟨h1, h2⟩ | ⟨h1, h2⟩)
    · exact ⟨w, hd.2 h1, he.2 (.inl ⟨h1, h2⟩)⟩
    · obtain ⟨⟨b', w'⟩, h3, h4, h5⟩ := irr_fixed r hr _ h2 h1
      simp only at h4; subst h4
      exact ⟨w', (h.dec_iff _ _ b.toNat_lt).2 h3, (h.enc_iff _ _ b.toNat_lt).2 (.inl ⟨h3, h5⟩)⟩
  · intro h1 h2; exact .inl ⟨h1, h2⟩
  · rintro (⟨h1, h2⟩ | ⟨h1, h2⟩)
    · exact .inl h1
    · exact .inr h2

/-- C27 for texts: encodings without irreversible pairs encode exactly the characters of a text as
that text. -/
theorem C27_single_byte_exact : ∀ r ∈ singleRows, r.irr = [] → ∀ inp cs,
    r.entry.Text inp cs ↔ r.entry.Encodes cs inp := by
  intro r hr hi inp cs
  obtain ⟨dec, enc, h⟩ := singleRows_ok r hr
  rw [h.map.text, h.map.encodes]
  have key : ∀ (b : Byte) (w : Nat), dec b.toNat = some w ↔ enc w = some b.toNat := by
    intro b w
    rw [h.dec_iff _ _ b.toNat_lt, h.enc_iff _ _ b.toNat_lt, hi]
    simp
  constructor
  · intro hh; exact hh.flip.imp fun w b hb => (key b w).1 hb
  · intro hh; exact hh.flip.imp fun b w hb => (key b w).2 hb

example : (singleRows.filter fun r => r.irr.isEmpty).length = 132 := by decide +kernel
example : (singleRows.filter fun r => !r.irr.isEmpty).map SbRow.name =
    ["ARMSCII-8", "CP1161", "CP1163", "IBM-1160", "IBM-838"] := by decide +kernel
example : singleRows.length = 137 := by decide +kernel

theorem singleRows_range : ∀ r ∈ singleRows, ∀ p ∈ r.table, p.2 < 0x10000 := by
  unfold singleRows plainRows
  simp only [List.cons_append, List.nil_append, List.forall_mem_cons]
  refine ⟨?_, ?_, ?_⟩
  · rintro ⟨b, w⟩ h; rw [mem_identity] at h; simp only; omega
  · rintro ⟨b, w⟩ h; rw [mem_identity] at h; simp only; omega
  · decide +kernel

theorem singleRows_exact : ∀ r ∈ singleRows, r.irr = [] → r.entry.Exact := by
  intro r hr hi inp cs
  rw [C27_single_byte_exact r hr hi]
  refine ⟨fun h => ⟨h, ?_⟩, fun h => h.1⟩
  have := (C29_single_byte r hr inp cs).1 ((C27_single_byte_exact r hr hi inp cs).2 h)
  clear h
  induction this with
  | nil => simp
  | cons h1 _ ih =>
    simp only [List.mem_cons, forall_eq_or_imp]
    have := singleRows_range r hr _ h1
    exact ⟨by simp only at this; omega, ih⟩

/-! ## ASCII transparency -/

/-- ASCII text after any text of the encoding, and before it, stands for itself, both when decoding and
when encoding. -/
def Entry.AsciiTransparent (A : Entry) : Prop :=
  ∀ asc : List Byte, (∀ b ∈ asc, b.toNat < 128) →
    (∀ inp cs, A.Text inp cs → A.Text (inp ++ asc) (cs ++ asc.map UInt8.toNat) ∧
      A.Text (asc ++ inp) (asc.map UInt8.toNat ++ cs)) ∧
    (∀ cs out, A.Encodes cs out → A.Encodes (cs ++ asc.map UInt8.toNat) (out ++ asc) ∧
      A.Encodes (asc.map UInt8.toNat ++ cs) (asc ++ out))

theorem ByteMap.ascii {A dec enc} (h : ByteMap A dec enc) (hd : ∀ b, b < 128 → dec b = some b)
    (he : ∀ b, b < 128 → enc b = some b) : A.AsciiTransparent := by
  intro asc hasc
  have h1 : AllPairs (fun (b : Byte) w => dec b.toNat = some w) asc (asc.map UInt8.toNat) := by
    induction asc with
    | nil => exact .nil
    | cons b bs ih =>
      simp only [List.mem_cons, forall_eq_or_imp] at hasc
      exact .cons (hd _ hasc.1) (ih hasc.2)
  have h2 : AllPairs (fun w (b : Byte) => enc w = some b.toNat) (asc.map UInt8.toNat) asc := by
    induction asc with
    | nil => exact .nil
    | cons b bs ih =>
      simp only [List.mem_cons, forall_eq_or_imp] at hasc
      refine .cons (he _ hasc.1) (ih hasc.2 ?_)
      cases h1; assumption
  simp only [h.text, h.encodes]
  exact ⟨fun inp cs hh => ⟨hh.append h1, h1.append hh⟩, fun cs out hh => ⟨hh.append h2, h2.append hh⟩⟩

/-- The single-byte encodings that are not supersets of ASCII: the national variants of ISO 646,
JIS X 0201, TDS565, VISCII (which replaces control characters), CP864 (percent sign) and the EBCDIC code pages. -/
def notAscii : List String :=
  ["ARMSCII-8", "CP864", "ISO646-CN", "ISO646-JP", "JIS_X0201", "TDS565", "VISCII", "IBM-037", "IBM-1025", "IBM-1026",
    "IBM-1047", "IBM-1097", "IBM-1112", "IBM-1122", "IBM-1123", "IBM-1130", "IBM-1132", "IBM-1137",
    "IBM-1140", "IBM-1141", "IBM-1142", "IBM-1143", "IBM-1144", "IBM-1145", "IBM-1146", "IBM-1147",
    "IBM-1148", "IBM-1149", "IBM-1153", "IBM-1154", "IBM-1155", "IBM-1156", "IBM-1157", "IBM-1158",
    "IBM-1160", "IBM-1164", "IBM-1165", "IBM-1166", "IBM-12712", "IBM-16804", "IBM-273", "IBM-277",
    "IBM-278", "IBM-280", "IBM-282", "IBM-284", "IBM-285", "IBM-297", "IBM-423", "IBM-424",
    "IBM-425", "IBM-4971", "IBM-500", "IBM-838", "IBM-870", "IBM-871", "IBM-875", "IBM-880",
    "IBM-905", "IBM-924"]

theorem ascii_rows : ∀ r ∈ singleRows, r.name ∉ notAscii →
    r.table.take 128 = identity 128 ∧ ∀ p ∈ r.irr, 128 ≤ p.1 := by
  decide +kernel

/-- C28 for single-byte encodings. ARMSCII-8 has the bytes but not the characters of ASCII, see
`C28_armscii`. -/
theorem C28_single_byte : ∀ r ∈ singleRows, r.name ∉ notAscii → r.entry.AsciiTransparent := by
  intro r hr hn
  obtain ⟨dec, enc, h⟩ := singleRows_ok r hr
  obtain ⟨h1, h2⟩ := ascii_rows r hr hn
  have key : ∀ b, b < 128 → (b, b) ∈ r.table ∧ (b, b) ∉ r.irr := by
    intro b hb
    refine ⟨List.mem_of_mem_take (i := 128) (by rw [h1, mem_identity]; exact ⟨hb, rfl⟩), fun hi => ?_⟩
    have := h2 _ hi; simp only at this; omega
  exact h.map.ascii (fun b hb => (h.dec_iff b b (by omega)).2 (key b hb).1)
    (fun b hb => (h.enc_iff b b (by omega)).2 (.inl (key b hb)))

example : (singleRows.filter fun r => decide (r.name ∉ notAscii)).length = 77 := by decide +kernel

/-- ARMSCII-8 decodes the byte of "(" to "(", but encodes "(" as 0xA5. -/
theorem C28_armscii : armscii_8_entry.Text [0x28] [0x28] ∧ armscii_8_entry.Encodes [0x28] [0xA5] ∧
    ¬ armscii_8_entry.AsciiTransparent := by
  have h := sb_byteMap armscii_8_sb armscii_8_safe (by decide)
  have h1 : armscii_8_entry.Encodes [0x28] [0xA5] := (h.encodes_one _ _).2 (by decide +kernel)
  refine ⟨(h.text_one _ _).2 (by decide +kernel), h1, fun ha => ?_⟩
  have h2 := ((ha [0x28] (by decide)).2 [] [] ⟨[], 0, rfl, rfl⟩).1
  have h3 : armscii_8_sb.encode 0x28 = some 0x28 := (h.encodes_one 0x28 0x28).1 h2
  revert h3; decide +kernel

/-- C28 for UTF-8. -/
theorem C28_utf8 : utf8_entry.AsciiTransparent := by
  intro asc hasc
  have h1 : ∀ c ∈ asc.map UInt8.toNat, Scalar c := by
    intro c hc
    obtain ⟨b, hb, rfl⟩ := List.mem_map.1 hc
    have := hasc b hb
    unfold Scalar; omega
  have h2 : (asc.map UInt8.toNat).flatMap utf8Enc = asc := by
    clear h1
    induction asc with
    | nil => rfl
    | cons b bs ih =>
      simp only [List.mem_cons, forall_eq_or_imp] at hasc
      rw [List.map_cons, List.flatMap_cons, ih hasc.2]
      unfold utf8Enc
      rw [if_pos hasc.1]
      simp [u8]
  have key : ∀ {a b : List Nat}, (∀ c ∈ a, Scalar c) → (∀ c ∈ b, Scalar c) → ∀ c ∈ a ++ b, Scalar c := by
    intro a b ha hb c hc
    rcases List.mem_append.1 hc with h | h
    · exact ha c h
    · exact hb c h
  simp only [C19_utf8_decoding, utf8_encodes]
  constructor
  · rintro inp cs ⟨h3, rfl⟩
    exact ⟨⟨key h3 h1, by rw [List.flatMap_append, h2]⟩, ⟨key h1 h3, by rw [List.flatMap_append, h2]⟩⟩
  · rintro cs out ⟨h3, rfl⟩
    exact ⟨⟨key h3 h1, by rw [List.flatMap_append, h2]⟩, ⟨key h1 h3, by rw [List.flatMap_append, h2]⟩⟩

end Reiconv
