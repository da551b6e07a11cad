import Verif.Props.Bom
import Verif.Props.Single

/-!
# C56: which texts the encodings with byte order marks read
-/

namespace Reiconv

/-! ## Specification -/

/-- The two byte orders. -/
inductive Order
  | big
  | little

/-- The bytes of a character in a byte order. -/
def BomForm.put (S : BomForm) : Order → Nat → List Byte
  | .big, c => S.be c
  | .little, c => S.le c

/-- The mark that announces a byte order. -/
def BomForm.mark (S : BomForm) : Order → List Byte
  | .big => S.bomBE
  | .little => S.bomLE

/-- Texts as RFC 2781 section 4.3 reads them: an optional mark, without which the order is big endian, then
characters in that order. The RFC also allows U+FEFF as a character after the start; `S.has` leaves it out, as no
converter here reads it (`C56_inner_violation`). -/
def BomForm.Documented (S : BomForm) (s : List Byte) (w : List Nat) : Prop :=
  (∀ c ∈ w, S.has c) ∧ (s = w.flatMap (S.put .big) ∨ ∃ o, s = S.mark o ++ w.flatMap (S.put o))

/-- `s` is a text with the characters `w` for the converter, read on in byte order `o`: characters in the current
order, and anywhere marks, which are dropped and set the order. -/
inductive MarkReads (S : BomForm) : Order → List Byte → List Nat → Prop
  | nil {o} : MarkReads S o [] []
  | char {o c s w} : S.has c → MarkReads S o s w → MarkReads S o (S.put o c ++ s) (c :: w)
  | mark {o s w} (o' : Order) : MarkReads S o' s w → MarkReads S o (S.mark o' ++ s) w

/-! ## Proofs -/

/-- `conv->ibyteorder` for a byte order. -/
def Order.bo : Order → Nat
  | .big => 0
  | .little => 1

/-- What is missing in `BomOK` to read the bytes off an item. -/
structure BomInv (S : BomForm) : Prop where
  char : ∀ (o : Order) s wc n is', S.entry.atom ⟨o.bo, 0⟩ s = .char wc n is' →
    is' = ⟨o.bo, 0⟩ ∧ s.take n = S.put o wc
  shift : ∀ (o : Order) s n is', S.entry.atom ⟨o.bo, 0⟩ s = .shift n is' →
    ∃ o' : Order, is' = ⟨o'.bo, 0⟩ ∧ s.take n = S.mark o'

theorem mark_shift {unit kind is s n is'} (h : markAtom unit kind is s = .shift n is') :
    unit ≤ s.length ∧ n = unit ∧
      ((kind is.bo s = .keep ∧ is' = is) ∨ (kind is.bo s = .flip ∧ is' = { is with bo := is.bo ^^^ 1 })) := by
  unfold markAtom at h
  split at h
  · cases h
  · split at h <;> cases h
    · exact ⟨by omega, rfl, .inl ⟨by assumption, rfl⟩⟩
    · exact ⟨by omega, rfl, .inr ⟨by assumption, rfl⟩⟩

theorem mark_char_is {unit kind is s wc n is'} (h : markAtom unit kind is s = .char wc n is') : is' = is := by
  unfold markAtom at h
  split at h
  · cases h
  · split at h <;> cases h
    rfl

/-- The items of UTF-16 that are characters are those of UTF-16 without marks. -/
theorem utf16Kind_char {st : Nat} {s : List Byte} {wc n : Nat} (hl : 2 ≤ s.length)
    (h : utf16Kind st s = .char wc n) : utf16Item (u16 st) s = .char wc n := by
  unfold utf16Kind at h
  unfold utf16Item
  rw [if_neg (by omega)]
  split at h
  · cases h
  split at h
  · cases h
  split at h
  · next h1 =>
    rw [if_pos h1]
    split at h
    · cases h
    · next h2 =>
      rw [if_neg h2]
      split at h
      · next h3 =>
        rw [if_pos h3]
        simp only [MarkItem.char.injEq] at h
        rw [h.1, ← h.2]
      · cases h
  · next h1 =>
    rw [if_neg h1]
    split at h
    · cases h
    · next h2 => rw [if_neg h2]; cases h; rfl

theorem unit16_order (o : Order) : Unit16 (u16 o.bo) (match o with | .big => b16 | .little => l16) := by
  cases o
  · exact unit16be
  · exact unit16le

theorem unit32_order (o : Order) : Unit32 (u32 o.bo) (match o with | .big => b32 | .little => l32) := by
  cases o
  · exact unit32be
  · exact unit32le

theorem take16 (o : Order) {s : List Byte} (h : 2 ≤ s.length) :
    s.take 2 = (match o with | .big => b16 | .little => l16) (u16 o.bo s) := ((unit16_order o).put_u s h).symm

theorem take32 (o : Order) {s : List Byte} (h : 4 ≤ s.length) :
    s.take 4 = (match o with | .big => b32 | .little => l32) (u32 o.bo s) := ((unit32_order o).put_u s h).symm

/-- Marks of 16 bits. -/
theorem mark16 (o : Order) {s : List Byte} {n is'} {kind : Nat → List Byte → MarkItem}
    (hk : kind o.bo s = .keep → u16 o.bo s = 0xfeff) (hf : kind o.bo s = .flip → u16 o.bo s = 0xfffe)
    (h : markAtom 2 kind ⟨o.bo, 0⟩ s = .shift n is') :
    ∃ o' : Order, is' = ⟨o'.bo, 0⟩ ∧ s.take n = (match o' with | .big => [0xFE, 0xFF] | .little => [0xFF, 0xFE]) := by
  obtain ⟨hl, rfl, ⟨h1, rfl⟩ | ⟨h1, rfl⟩⟩ := mark_shift h
  · refine ⟨o, rfl, ?_⟩
    rw [take16 o hl, hk h1]
    cases o <;> rfl
  · refine ⟨match o with | .big => .little | .little => .big, by cases o <;> rfl, ?_⟩
    rw [take16 o hl, hf h1]
    cases o <;> rfl

/-- Marks of 32 bits. -/
theorem mark32 (o : Order) {s : List Byte} {n is'} {kind : Nat → List Byte → MarkItem}
    (hk : kind o.bo s = .keep → u32 o.bo s = 0xfeff) (hf : kind o.bo s = .flip → u32 o.bo s = 0xfffe0000)
    (h : markAtom 4 kind ⟨o.bo, 0⟩ s = .shift n is') :
    ∃ o' : Order, is' = ⟨o'.bo, 0⟩ ∧
      s.take n = (match o' with | .big => [0x00, 0x00, 0xFE, 0xFF] | .little => [0xFF, 0xFE, 0x00, 0x00]) := by
  obtain ⟨hl, rfl, ⟨h1, rfl⟩ | ⟨h1, rfl⟩⟩ := mark_shift h
  · refine ⟨o, rfl, ?_⟩
    rw [take32 o hl, hk h1]
    cases o <;> rfl
  · refine ⟨match o with | .big => .little | .little => .big, by cases o <;> rfl, ?_⟩
    rw [take32 o hl, hf h1]
    cases o <;> rfl

theorem kind_keep {a b v : Nat} {x : MarkItem} (hx : x ≠ .keep) (hx' : x ≠ .flip)
    : ((if v = a then MarkItem.keep else if v = b then .flip else x) = .keep → v = a) ∧
      ((if v = a then MarkItem.keep else if v = b then .flip else x) = .flip → v = b) := by
  constructor
  · intro h
    split at h
    · assumption
    split at h
    · cases h
    · exact absurd h hx
  · intro h
    split at h
    · cases h
    split at h
    · assumption
    · exact absurd h hx'

/-- The proof that an if-then-else chain is not a given constructor. -/
macro "not_mark" : tactic => `(tactic| (intro hc; (repeat' split at hc) <;> cases hc))

theorem utf16_keep (st : Nat) (s : List Byte) : (utf16Kind st s = .keep → u16 st s = 0xfeff) ∧
    (utf16Kind st s = .flip → u16 st s = 0xfffe) := by
  unfold utf16Kind; exact kind_keep (by not_mark) (by not_mark)
theorem ucs2_keep (st : Nat) (s : List Byte) : (ucs2Kind st s = .keep → u16 st s = 0xfeff) ∧
    (ucs2Kind st s = .flip → u16 st s = 0xfffe) := by
  unfold ucs2Kind; exact kind_keep (by not_mark) (by not_mark)
theorem utf32_keep (st : Nat) (s : List Byte) : (utf32Kind st s = .keep → u32 st s = 0xfeff) ∧
    (utf32Kind st s = .flip → u32 st s = 0xfffe0000) := by
  unfold utf32Kind; exact kind_keep (by not_mark) (by not_mark)
theorem ucs4_keep (st : Nat) (s : List Byte) : (ucs4Kind st s = .keep → u32 st s = 0xfeff) ∧
    (ucs4Kind st s = .flip → u32 st s = 0xfffe0000) := by
  unfold ucs4Kind; exact kind_keep (by not_mark) (by not_mark)

theorem ucs2_char {st : Nat} {s : List Byte} {wc n : Nat} (h : ucs2Kind st s = .char wc n) :
    wc = u16 st s ∧ n = 2 := by
  unfold ucs2Kind at h
  (repeat' split at h) <;> cases h
  exact ⟨rfl, rfl⟩
theorem utf32_char {st : Nat} {s : List Byte} {wc n : Nat} (h : utf32Kind st s = .char wc n) :
    wc = u32 st s ∧ n = 4 := by
  unfold utf32Kind at h
  (repeat' split at h) <;> cases h
  exact ⟨rfl, rfl⟩
theorem ucs4_char {st : Nat} {s : List Byte} {wc n : Nat} (h : ucs4Kind st s = .char wc n) :
    wc = u32 st s ∧ n = 4 := by
  unfold ucs4Kind at h
  (repeat' split at h) <;> cases h
  exact ⟨rfl, rfl⟩

theorem bomForms_inv : ∀ S ∈ bomForms, BomInv S := by
  simp only [bomForms, List.forall_mem_cons, List.not_mem_nil, false_implies, implies_true, and_true]
  refine ⟨⟨?_, ?_⟩, ⟨?_, ?_⟩, ⟨?_, ?_⟩, ⟨?_, ?_⟩⟩
  · intro o s wc n is' h
    simp only [utf16_atom] at h
    obtain ⟨h1, h2⟩ := mark_char h
    refine ⟨mark_char_is h, ?_⟩
    rw [(utf16Item_char_enc (unit16_order o) (utf16Kind_char h1 h2)).2.2]
    cases o <;> rfl
  · intro o s n is' h
    simp only [utf16_atom] at h
    obtain ⟨o', h1, h2⟩ := mark16 o (utf16_keep _ s).1 (utf16_keep _ s).2 h
    exact ⟨o', h1, by rw [h2]; cases o' <;> rfl⟩
  · intro o s wc n is' h
    simp only [utf32_atom] at h
    obtain ⟨h1, h2⟩ := mark_char h
    obtain ⟨rfl, rfl⟩ := utf32_char h2
    refine ⟨mark_char_is h, ?_⟩
    rw [take32 o h1]
    cases o <;> rfl
  · intro o s n is' h
    simp only [utf32_atom] at h
    obtain ⟨o', h1, h2⟩ := mark32 o (utf32_keep _ s).1 (utf32_keep _ s).2 h
    exact ⟨o', h1, by rw [h2]; cases o' <;> rfl⟩
  · intro o s wc n is' h
    simp only [ucs2_atom] at h
    obtain ⟨h1, h2⟩ := mark_char h
    obtain ⟨rfl, rfl⟩ := ucs2_char h2
    refine ⟨mark_char_is h, ?_⟩
    rw [take16 o h1]
    cases o <;> rfl
  · intro o s n is' h
    simp only [ucs2_atom] at h
    obtain ⟨o', h1, h2⟩ := mark16 o (ucs2_keep _ s).1 (ucs2_keep _ s).2 h
    exact ⟨o', h1, by rw [h2]; cases o' <;> rfl⟩
  · intro o s wc n is' h
    simp only [ucs4_atom] at h
    obtain ⟨h1, h2⟩ := mark_char h
    obtain ⟨rfl, rfl⟩ := ucs4_char h2
    refine ⟨mark_char_is h, ?_⟩
    rw [take32 o h1]
    cases o <;> rfl
  · intro o s n is' h
    simp only [ucs4_atom] at h
    obtain ⟨o', h1, h2⟩ := mark32 o (ucs4_keep _ s).1 (ucs4_keep _ s).2 h
    exact ⟨o', h1, by rw [h2]; cases o' <;> rfl⟩

theorem BomOK.put {S : BomForm} (h : BomOK S) (o : Order) {c : Nat} (t : List Byte) (hc : S.has c) :
    S.put o c ≠ [] ∧ S.entry.atom ⟨o.bo, 0⟩ (S.put o c ++ t) = .char c (S.put o c).length ⟨o.bo, 0⟩ := by
  cases o
  · exact h.be c t hc
  · exact h.le c t hc

theorem BomOK.mark {S : BomForm} (h : BomOK S) (o o' : Order) (t : List Byte) :
    S.mark o' ≠ [] ∧ S.entry.atom ⟨o.bo, 0⟩ (S.mark o' ++ t) = .shift (S.mark o').length ⟨o'.bo, 0⟩ := by
  cases o <;> cases o'
  · exact h.be0 t
  · exact h.le0 t
  · exact ⟨(h.be0 t).1, h.be1 t⟩
  · exact ⟨(h.le0 t).1, h.le1 t⟩

theorem chars_mark {S : BomForm} (h : BomOK S) {o : Order} {s : List Byte} {w : List Nat}
    (hr : MarkReads S o s w) : ∃ is, Chars S.entry.atom ⟨o.bo, 0⟩ s w is := by
  induction hr with
  | nil => exact ⟨_, .nil _⟩
  | @char o c s w hc _ ih =>
    obtain ⟨is, ih⟩ := ih
    obtain ⟨h1, h2⟩ := h.put o s hc
    refine ⟨is, .char (by simp [h1]) h2 ?_⟩
    rwa [List.drop_left]
  | @mark o s w o' _ ih =>
    obtain ⟨is, ih⟩ := ih
    obtain ⟨h1, h2⟩ := h.mark o o' s
    refine ⟨is, .shift (by simp [h1]) h2 ?_⟩
    rwa [List.drop_left]

theorem mark_chars {S : BomForm} (h : BomOK S) (hi : BomInv S) {is : IState} {s : List Byte} {w : List Nat} {is'}
    (hr : Chars S.entry.atom is s w is') : ∀ o : Order, is = ⟨o.bo, 0⟩ → MarkReads S o s w := by
  induction hr with
  | nil is => intro o _; exact .nil
  | @char is s wc n is1 w is2 _ ha _ ih =>
    rintro o rfl
    obtain ⟨h1, h2⟩ := hi.char o s wc n is1 ha
    have := MarkReads.char (o := o) (h.range _ _ _ _ _ ha) (ih o h1)
    rwa [← h2, List.take_append_drop] at this
  | @shift is s n is1 w is2 _ ha _ ih =>
    rintro o rfl
    obtain ⟨o', h1, h2⟩ := hi.shift o s n is1 ha
    have := MarkReads.mark (o := o) o' (ih o' h1)
    rwa [← h2, List.take_append_drop] at this

/-! ## C56 -/

/-- C56 (exactly what is read). UTF-16, UTF-32, UCS-2 and UCS-4 read exactly these texts, from a big endian start. -/
theorem C56_reads : ∀ S ∈ bomForms, ∀ (s : List Byte) (w : List Nat), S.entry.Text s w ↔ MarkReads S .big s w := by
  intro S hS s w
  have h := bomForms_ok S hS
  have hk : ∀ is, S.entry.dec.kept is = [] := by intro is; unfold Decoder.kept; rw [h.flush]
  constructor
  · rintro ⟨w, is, hc, rfl⟩
    rw [hk, List.append_nil]
    exact mark_chars h (bomForms_inv S hS) hc .big rfl
  · intro hr
    obtain ⟨is, hc⟩ := chars_mark h hr
    exact ⟨w, is, hc, by rw [hk, List.append_nil]⟩

theorem MarkReads.chars {S : BomForm} {o : Order} {w : List Nat} (h : ∀ c ∈ w, S.has c) :
    MarkReads S o (w.flatMap (S.put o)) w := by
  induction w with
  | nil => exact .nil
  | cons c w ih =>
    rw [List.flatMap_cons]
    exact .char (h c (by simp)) (ih fun c hc => h c (by simp [hc]))

/-- C56 (what RFC 2781 defines). With or without a mark, the texts the RFC defines are read. -/
theorem C56_accepts : ∀ S ∈ bomForms, ∀ (s : List Byte) (w : List Nat), S.Documented s w → S.entry.Text s w := by
  rintro S hS s w ⟨h1, rfl | ⟨o, rfl⟩⟩
  · exact (C56_reads S hS _ _).2 (.chars h1)
  · exact (C56_reads S hS _ _).2 (.mark o (.chars h1))

/-- The mark `m` occurs only at the start of `s`, counted in bytes. -/
def OnlyAtStart (m s : List Byte) : Prop := ∀ a b, s = a ++ m ++ b → a = []

theorem MarkReads.plain {S : BomForm} {o : Order} {s : List Byte} {w : List Nat} (h : MarkReads S o s w) :
    ∀ p : List Byte, p ≠ [] → OnlyAtStart S.bomBE (p ++ s) → OnlyAtStart S.bomLE (p ++ s) →
      (∀ c ∈ w, S.has c) ∧ s = w.flatMap (S.put o) := by
  induction h with
  | nil => intro _ _ _ _; simp
  | @char o c s w hc _ ih =>
    intro p hp h1 h2
    obtain ⟨h3, h4⟩ := ih (p ++ S.put o c) (by simp [hp]) (by rwa [List.append_assoc]) (by rwa [List.append_assoc])
    refine ⟨?_, by rw [List.flatMap_cons, ← h4]⟩
    intro x hx
    rcases List.mem_cons.1 hx with rfl | hx
    · exact hc
    · exact h3 x hx
  | @mark o s w o' _ _ =>
    intro p hp h1 h2
    cases o'
    · exact absurd (h1 p s (by simp [BomForm.mark])) hp
    · exact absurd (h2 p s (by simp [BomForm.mark])) hp

/-- C56, the part that holds of the other direction: a text with no mark except at the start is read as RFC 2781
says. What is missing: marks further on, which the RFC makes characters U+FEFF or errors, are dropped and change the
byte order (`C56_inner_violation`). -/
theorem C56_partial : ∀ S ∈ bomForms, ∀ (s : List Byte) (w : List Nat), OnlyAtStart S.bomBE s →
    OnlyAtStart S.bomLE s → (S.entry.Text s w ↔ S.Documented s w) := by
  intro S hS s w h1 h2
  refine ⟨fun h => ?_, C56_accepts S hS s w⟩
  have hr := (C56_reads S hS s w).1 h
  have hn : ∀ o c t, S.has c → S.put o c ++ t ≠ [] := by
    intro o c t hc he
    exact ((bomForms_ok S hS).put o t hc).1 (List.append_eq_nil_iff.1 he).1
  cases hr with
  | nil => exact ⟨by simp, .inl rfl⟩
  | @char _ c s w hc hr =>
    obtain ⟨h3, h4⟩ := hr.plain (S.put .big c) ((bomForms_ok S hS).put .big [] hc).1 h1 h2
    refine ⟨?_, .inl (by rw [List.flatMap_cons, ← h4])⟩
    intro x hx
    rcases List.mem_cons.1 hx with rfl | hx
    · exact hc
    · exact h3 x hx
  | @mark _ s w o' hr =>
    obtain ⟨h3, h4⟩ := hr.plain (S.mark o') ((bomForms_ok S hS).mark .big o' []).1 h1 h2
    exact ⟨h3, .inr ⟨o', by rw [← h4]⟩⟩

/-- C56 at the API: input that is not one of these texts makes every conversion fail with `EILSEQ`; a text as RFC
2781 defines it is converted to UCS-4BE as it should be. -/
theorem C56_convert : ∀ S ∈ bomForms, ∀ (inp : List Byte) (alloc : Nat → List Byte), (∀ n, (alloc n).length = n) →
    (∀ w, S.Documented inp w → ∃ y, convert (S.entry.conv ucs4be_entry false) St.init inp true true
      (fun n => some (alloc n)) = .ok y ∧ y.ret = .ok () ∧ y.data = some (w.flatMap b32)) ∧
    ((¬ ∃ w, MarkReads S .big inp w) → ∀ B : Entry,
      ∃ s1, resultSize (S.entry.conv B false) St.init inp = .ok (.error .EILSEQ, s1) ∧
        convert (S.entry.conv B false) St.init inp true true (fun n => some (alloc n)) = .ok ⟨.error .EILSEQ, s1, none, none⟩) := by
  intro S hS inp alloc hal
  refine ⟨?_, ?_⟩
  · rintro w ⟨h1, h2⟩
    refine (C24_byte_order_marks S hS ucs4be_entry false w h1 (w.flatMap b32) ucs4be_encodes inp ?_).1 alloc hal
    simp only [BomForm.forms, List.mem_cons, List.not_mem_nil, or_false]
    rcases h2 with rfl | ⟨o, rfl⟩
    · exact .inr (.inr rfl)
    · cases o
      · exact .inl rfl
      · exact .inr (.inl rfl)
  · intro hn B
    obtain ⟨_, _, h3⟩ := C12_strict_rejects_invalid S.entry B St.init (.init _) inp
    obtain ⟨s1, h4, h5⟩ := h3 (fun hv => hn (by obtain ⟨w, h⟩ := valid_iff_text.1 hv; exact ⟨w, (C56_reads S hS inp w).1 h⟩))
    exact ⟨s1, h4, h5 _ _ _⟩

/-- C56 fails for marks inside a text: in UTF-16 "a", U+FEFF, "b" is converted as "ab"; after the bytes FF FE
further on `reiconv_iconv` reads the rest in the other byte order, and `reiconv_convert`, which keeps that order
for its second pass, fails with `E2BIG`. -/
theorem C56_inner_violation :
    convert (utf16_entry.conv utf8_entry false) St.init [0, 0x61, 0xFE, 0xFF, 0, 0x62] true true
      (fun n => some (List.replicate n 0)) = .ok ⟨.ok (), St.init, some 2, some [0x61, 0x62]⟩ ∧
    (∃ r, iconv (utf16_entry.conv utf8_entry false) St.init (some [0, 0x61, 0xFF, 0xFE, 0x62, 0])
      (some ⟨false, [], List.replicate 8 0⟩) = .ok r ∧ r.ret = .ok 0 ∧ r.buf.out = [0x61, 0x62]) ∧
    (∃ r, convert (utf16_entry.conv utf8_entry false) St.init [0, 0x61, 0xFF, 0xFE, 0x62, 0] true true
      (fun n => some (List.replicate n 0)) = .ok r ∧ r.ret = .error .E2BIG ∧ r.data = none) ∧
    ¬ ∃ w, (BomForm.Documented ⟨utf16_entry, fun c => Scalar c ∧ c ≠ 0xFEFF ∧ c ≠ 0xFFFE, utf16Enc b16, utf16Enc l16,
      [0xFE, 0xFF], [0xFF, 0xFE]⟩ [0, 0x61, 0xFF, 0xFE, 0x62, 0] w) := by
  refine ⟨by decide +kernel, ⟨_, by rfl, by rfl, by rfl⟩, ⟨⟨.error .E2BIG, ⟨⟨1, 0⟩, 0⟩, some 2, none⟩, by decide +kernel, rfl, rfl⟩, ?_⟩
  rintro ⟨w, h⟩
  have hm := List.mem_of_getElem? (l := bomForms) (i := 0) rfl
  have h1 := C56_accepts _ hm _ _ h
  have h2 := (C56_reads _ hm [0, 0x61, 0xFF, 0xFE, 0x62, 0] [0x61, 0x62]).2
    (.char (c := 0x61) (by decide) (.mark .little (.char (o := .little) (c := 0x62) (by decide) .nil)))
  obtain ⟨a, is1, h1, rfl⟩ := h1
  obtain ⟨b, is2, h2, e⟩ := h2
  obtain ⟨rfl, rfl⟩ := h1.det h2
  rw [← e] at h
  rcases h.2 with h | ⟨o, h⟩
  · revert h; decide
  · revert h; cases o <;> decide

/-- The hypotheses of `C56_partial` are met by "a" in little endian UTF-16 with its mark. -/
example : OnlyAtStart [0xFE, 0xFF] ([0xFF, 0xFE, 0x61, 0] : List Byte) ∧ OnlyAtStart [0xFF, 0xFE] ([0xFF, 0xFE, 0x61, 0] : List Byte) := by
  constructor <;>
  · intro a b h
    match a with
    | [] => rfl
    | [_] => simp at h
    | [_, _] => simp at h
    | [_, _, _] => simp at h
    | _ :: _ :: _ :: _ :: _ => simp at h

end Reiconv
