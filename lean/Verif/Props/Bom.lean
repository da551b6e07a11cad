import Verif.Props.Unicode

/-!
# Byte order marks: C22 and C23 for UTF-16, UTF-32, UCS-2 and UCS-4, and C24
-/

namespace Reiconv

/-- An encoding with byte order marks: the characters it has, their bytes in big and in little endian
order, and the two marks. -/
structure BomForm where
  entry : Entry
  has : Nat → Prop
  be : Nat → List Byte
  le : Nat → List Byte
  bomBE : List Byte
  bomLE : List Byte

/-- The four encodings. The characters exclude U+FEFF, which as a mark is not text, and its mirror image
U+FFFE in 16 bit units. -/
def bomForms : List BomForm :=
  [⟨utf16_entry, fun c => Scalar c ∧ c ≠ 0xFEFF ∧ c ≠ 0xFFFE, utf16Enc b16, utf16Enc l16,
      [0xFE, 0xFF], [0xFF, 0xFE]⟩,
   ⟨utf32_entry, fun c => Scalar c ∧ c ≠ 0xFEFF, b32, l32,
      [0x00, 0x00, 0xFE, 0xFF], [0xFF, 0xFE, 0x00, 0x00]⟩,
   ⟨ucs2_entry, fun c => Ucs2 c ∧ c ≠ 0xFEFF ∧ c ≠ 0xFFFE, b16, l16, [0xFE, 0xFF], [0xFF, 0xFE]⟩,
   ⟨ucs4_entry, fun c => c ≤ 0x7FFFFFFF ∧ c ≠ 0xFEFF, b32, l32,
      [0x00, 0x00, 0xFE, 0xFF], [0xFF, 0xFE, 0x00, 0x00]⟩]

/-- What the proofs below need to know about the items of such an encoding. -/
structure BomOK (S : BomForm) : Prop where
  inv : ∀ bo, bo ≤ 1 → S.entry.decOK.Inv ⟨bo, 0⟩
  flush : S.entry.dec.flushwc = none
  be : ∀ wc t, S.has wc → S.be wc ≠ [] ∧
    S.entry.atom ⟨0, 0⟩ (S.be wc ++ t) = .char wc (S.be wc).length ⟨0, 0⟩
  le : ∀ wc t, S.has wc → S.le wc ≠ [] ∧
    S.entry.atom ⟨1, 0⟩ (S.le wc ++ t) = .char wc (S.le wc).length ⟨1, 0⟩
  be0 : ∀ t, S.bomBE ≠ [] ∧ S.entry.atom ⟨0, 0⟩ (S.bomBE ++ t) = .shift S.bomBE.length ⟨0, 0⟩
  be1 : ∀ t, S.entry.atom ⟨1, 0⟩ (S.bomBE ++ t) = .shift S.bomBE.length ⟨0, 0⟩
  le0 : ∀ t, S.bomLE ≠ [] ∧ S.entry.atom ⟨0, 0⟩ (S.bomLE ++ t) = .shift S.bomLE.length ⟨1, 0⟩
  le1 : ∀ t, S.entry.atom ⟨1, 0⟩ (S.bomLE ++ t) = .shift S.bomLE.length ⟨1, 0⟩
  range : ∀ is s wc n is', S.entry.atom is s = .char wc n is' → S.has wc

theorem mark_char {unit kind is s wc n is'} (h : markAtom unit kind is s = .char wc n is') :
    unit ≤ s.length ∧ kind is.bo s = .char wc n := by
  unfold markAtom at h
  split at h
  · cases h
  · split at h <;> cases h
    exact ⟨by omega, by assumption⟩

theorem mark_keep {unit kind bo s t} (h : unit = s.length) (hk : kind bo (s ++ t) = .keep) :
    markAtom unit kind ⟨bo, 0⟩ (s ++ t) = .shift unit ⟨bo, 0⟩ := by
  unfold markAtom
  rw [if_neg (by simp; omega), hk]

theorem mark_flip {unit kind bo s t} (h : unit = s.length) (hk : kind bo (s ++ t) = .flip) :
    markAtom unit kind ⟨bo, 0⟩ (s ++ t) = .shift unit ⟨bo ^^^ 1, 0⟩ := by
  unfold markAtom
  rw [if_neg (by simp; omega), hk]

theorem mark_one {unit kind bo s t wc} (h : unit = s.length) (hk : kind bo (s ++ t) = .char wc unit) :
    markAtom unit kind ⟨bo, 0⟩ (s ++ t) = .char wc unit ⟨bo, 0⟩ := by
  unfold markAtom
  rw [if_neg (by simp; omega), hk]

theorem u16_be {v : Nat} (h : v < 65536) (t : List Byte) : u16 0 (b16 v ++ t) = v := u16be_b16 h t
theorem u16_le {v : Nat} (h : v < 65536) (t : List Byte) : u16 1 (l16 v ++ t) = v := u16le_l16 h t
theorem u32_be {v : Nat} (h : v < 4294967296) (t : List Byte) : u32 0 (b32 v ++ t) = v := u32be_b32 h t
theorem u32_le {v : Nat} (h : v < 4294967296) (t : List Byte) : u32 1 (l32 v ++ t) = v := u32le_l32 h t

theorem u16_lt (st : Nat) (s : List Byte) : u16 st s < 65536 := by
  unfold u16; split
  · exact unit16le.lt s
  · exact unit16be.lt s

theorem bom16 (t : List Byte) : u16 0 ([0xFE, 0xFF] ++ t) = 0xfeff ∧ u16 1 ([0xFE, 0xFF] ++ t) = 0xfffe ∧
    u16 0 ([0xFF, 0xFE] ++ t) = 0xfffe ∧ u16 1 ([0xFF, 0xFE] ++ t) = 0xfeff :=
  ⟨u16be_b16 (v := 0xfeff) (by decide) t, u16le_l16 (v := 0xfffe) (by decide) t,
    u16be_b16 (v := 0xfffe) (by decide) t, u16le_l16 (v := 0xfeff) (by decide) t⟩

theorem bom32 (t : List Byte) : u32 0 ([0x00, 0x00, 0xFE, 0xFF] ++ t) = 0xfeff ∧
    u32 1 ([0x00, 0x00, 0xFE, 0xFF] ++ t) = 0xfffe0000 ∧
    u32 0 ([0xFF, 0xFE, 0x00, 0x00] ++ t) = 0xfffe0000 ∧
    u32 1 ([0xFF, 0xFE, 0x00, 0x00] ++ t) = 0xfeff :=
  ⟨u32be_b32 (v := 0xfeff) (by decide) t, u32le_l32 (v := 0xfffe0000) (by decide) t,
    u32be_b32 (v := 0xfffe0000) (by decide) t, u32le_l32 (v := 0xfeff) (by decide) t⟩

theorem utf16_atom : utf16_entry.atom = markAtom 2 utf16Kind := rfl
theorem utf32_atom : utf32_entry.atom = markAtom 4 utf32Kind := rfl
theorem ucs2_atom : ucs2_entry.atom = markAtom 2 ucs2Kind := rfl
theorem ucs4_atom : ucs4_entry.atom = markAtom 4 ucs4Kind := rfl

/-- The loop body of UTF-16 is the UTF-16 item apart from the marks. -/
theorem utf16Kind_item {st : Nat} {s : List Byte} {wc n : Nat}
    (h : utf16Item (u16 st) s = .char wc n) (h1 : wc ≠ 0xfeff) (h2 : wc ≠ 0xfffe) :
    utf16Kind st s = .char wc n := by
  unfold utf16Item at h
  unfold utf16Kind
  split at h
  · cases h
  split at h
  · next hs =>
    rw [if_neg (by omega), if_neg (by omega), if_pos hs]
    split at h
    · cases h
    · next h4 =>
      rw [if_neg h4]
      split at h
      · next h5 =>
        simp only [MbRet.char.injEq] at h
        rw [if_pos h5, h.1, ← h.2]
      · cases h
  split at h
  · cases h
  · next hs hl =>
    simp only [MbRet.char.injEq] at h
    obtain ⟨rfl, rfl⟩ := h
    rw [if_neg h1, if_neg h2, if_neg hs, if_neg hl]

theorem utf16_bomOK : BomOK ⟨utf16_entry, fun c => Scalar c ∧ c ≠ 0xFEFF ∧ c ≠ 0xFFFE, utf16Enc b16,
    utf16Enc l16, [0xFE, 0xFF], [0xFF, 0xFE]⟩ where
  inv := fun bo h => h
  flush := rfl
  be := by
    intro wc t h
    have hl : 2 ≤ (utf16Enc b16 wc).length := by unfold utf16Enc; split <;> simp [b16]
    refine ⟨by intro hc; simp only at hc; rw [hc] at hl; simp at hl, ?_⟩
    show markAtom 2 utf16Kind ⟨0, 0⟩ (utf16Enc b16 wc ++ t) = _
    unfold markAtom
    rw [if_neg (by simp; omega), utf16Kind_item (utf16Item_enc (u := u16 0) unit16be h.1 t) h.2.1 h.2.2]
  le := by
    intro wc t h
    have hl : 2 ≤ (utf16Enc l16 wc).length := by unfold utf16Enc; split <;> simp [l16]
    refine ⟨by intro hc; simp only at hc; rw [hc] at hl; simp at hl, ?_⟩
    show markAtom 2 utf16Kind ⟨1, 0⟩ (utf16Enc l16 wc ++ t) = _
    unfold markAtom
    rw [if_neg (by simp; omega), utf16Kind_item (utf16Item_enc (u := u16 1) unit16le h.1 t) h.2.1 h.2.2]
  be0 := fun t => ⟨by simp, by
    simp only [utf16_atom]
    exact mark_keep (unit := 2) (kind := utf16Kind) (bo := 0) (s := [0xFE, 0xFF]) (t := t) rfl
      (by unfold utf16Kind; rw [if_pos (bom16 t).1])⟩
  be1 := fun t => by
    simp only [utf16_atom]
    exact mark_flip (unit := 2) (kind := utf16Kind) (bo := 1) (s := [0xFE, 0xFF]) (t := t) rfl
      (by unfold utf16Kind; rw [if_neg (by rw [(bom16 t).2.1]; decide), if_pos (bom16 t).2.1])
  le0 := fun t => ⟨by simp, by
    simp only [utf16_atom]
    exact mark_flip (unit := 2) (kind := utf16Kind) (bo := 0) (s := [0xFF, 0xFE]) (t := t) rfl
      (by unfold utf16Kind; rw [if_neg (by rw [(bom16 t).2.2.1]; decide), if_pos (bom16 t).2.2.1])⟩
  le1 := fun t => by
    simp only [utf16_atom]
    exact mark_keep (unit := 2) (kind := utf16Kind) (bo := 1) (s := [0xFF, 0xFE]) (t := t) rfl
      (by unfold utf16Kind; rw [if_pos (bom16 t).2.2.2])
  range := by
    intro is s wc n is' h
    obtain ⟨h1, h2⟩ := mark_char (kind := utf16Kind) h
    have hl1 := u16_lt is.bo s
    have hl2 := u16_lt is.bo (s.drop 2)
    unfold utf16Kind at h2
    show Scalar wc ∧ _
    unfold Scalar
    repeat' split at h2
    all_goals simp only [MarkItem.char.injEq, reduceCtorEq] at h2
    · omega
    · omega

theorem ucs2_bomOK : BomOK ⟨ucs2_entry, fun c => Ucs2 c ∧ c ≠ 0xFEFF ∧ c ≠ 0xFFFE, b16, l16,
    [0xFE, 0xFF], [0xFF, 0xFE]⟩ where
  inv := fun bo h => h
  flush := rfl
  be := by
    rintro wc t ⟨h1, h2, h3⟩
    refine ⟨by simp [b16], ?_⟩
    show markAtom 2 ucs2Kind ⟨0, 0⟩ (b16 wc ++ t) = _
    unfold markAtom ucs2Kind
    rw [if_neg (by simp [b16])]
    simp only [u16_be h1.1, if_neg h2, if_neg h3, if_neg h1.2]
    rfl
  le := by
    rintro wc t ⟨h1, h2, h3⟩
    refine ⟨by simp [l16], ?_⟩
    show markAtom 2 ucs2Kind ⟨1, 0⟩ (l16 wc ++ t) = _
    unfold markAtom ucs2Kind
    rw [if_neg (by simp [l16])]
    simp only [u16_le h1.1, if_neg h2, if_neg h3, if_neg h1.2]
    rfl
  be0 := fun t => ⟨by simp, by
    simp only [ucs2_atom]
    exact mark_keep (unit := 2) (kind := ucs2Kind) (bo := 0) (s := [0xFE, 0xFF]) (t := t) rfl
      (by unfold ucs2Kind; rw [if_pos (bom16 t).1])⟩
  be1 := fun t => by
    simp only [ucs2_atom]
    exact mark_flip (unit := 2) (kind := ucs2Kind) (bo := 1) (s := [0xFE, 0xFF]) (t := t) rfl
      (by unfold ucs2Kind; rw [if_neg (by rw [(bom16 t).2.1]; decide), if_pos (bom16 t).2.1])
  le0 := fun t => ⟨by simp, by
    simp only [ucs2_atom]
    exact mark_flip (unit := 2) (kind := ucs2Kind) (bo := 0) (s := [0xFF, 0xFE]) (t := t) rfl
      (by unfold ucs2Kind; rw [if_neg (by rw [(bom16 t).2.2.1]; decide), if_pos (bom16 t).2.2.1])⟩
  le1 := fun t => by
    simp only [ucs2_atom]
    exact mark_keep (unit := 2) (kind := ucs2Kind) (bo := 1) (s := [0xFF, 0xFE]) (t := t) rfl
      (by unfold ucs2Kind; rw [if_pos (bom16 t).2.2.2])
  range := by
    intro is s wc n is' h
    obtain ⟨h1, h2⟩ := mark_char (kind := ucs2Kind) h
    have hl1 := u16_lt is.bo s
    unfold ucs2Kind at h2
    show Ucs2 wc ∧ _
    unfold Ucs2
    repeat' split at h2
    all_goals simp only [MarkItem.char.injEq, reduceCtorEq] at h2
    omega

theorem utf32_bomOK : BomOK ⟨utf32_entry, fun c => Scalar c ∧ c ≠ 0xFEFF, b32, l32,
    [0x00, 0x00, 0xFE, 0xFF], [0xFF, 0xFE, 0x00, 0x00]⟩ where
  inv := fun bo h => h
  flush := rfl
  be := by
    rintro wc t ⟨h1, h2⟩
    have := h1.lt
    refine ⟨by simp [b32], ?_⟩
    simp only [utf32_atom]
    refine mark_one (unit := 4) (kind := utf32Kind) (bo := 0) (s := b32 wc) (t := t) (by simp [b32]) ?_
    have hu := u32_be (show wc < 4294967296 by omega) t
    have hn : u32 0 (b32 wc ++ t) ≠ 0xfffe0000 := by omega
    unfold utf32Kind
    rw [if_neg hn, hu, if_neg h2, if_pos h1]
  le := by
    rintro wc t ⟨h1, h2⟩
    have := h1.lt
    refine ⟨by simp [l32], ?_⟩
    simp only [utf32_atom]
    refine mark_one (unit := 4) (kind := utf32Kind) (bo := 1) (s := l32 wc) (t := t) (by simp [l32]) ?_
    have hu := u32_le (show wc < 4294967296 by omega) t
    have hn : u32 1 (l32 wc ++ t) ≠ 0xfffe0000 := by omega
    unfold utf32Kind
    rw [if_neg hn, hu, if_neg h2, if_pos h1]
  be0 := fun t => ⟨by simp, by
    simp only [utf32_atom]
    exact mark_keep (unit := 4) (kind := utf32Kind) (bo := 0) (s := [0x00, 0x00, 0xFE, 0xFF]) (t := t) rfl
      (by unfold utf32Kind; rw [if_pos (bom32 t).1])⟩
  be1 := fun t => by
    simp only [utf32_atom]
    exact mark_flip (unit := 4) (kind := utf32Kind) (bo := 1) (s := [0x00, 0x00, 0xFE, 0xFF]) (t := t) rfl
      (by unfold utf32Kind; rw [if_neg (by rw [(bom32 t).2.1]; decide), if_pos (bom32 t).2.1])
  le0 := fun t => ⟨by simp, by
    simp only [utf32_atom]
    exact mark_flip (unit := 4) (kind := utf32Kind) (bo := 0) (s := [0xFF, 0xFE, 0x00, 0x00]) (t := t) rfl
      (by unfold utf32Kind; rw [if_neg (by rw [(bom32 t).2.2.1]; decide), if_pos (bom32 t).2.2.1])⟩
  le1 := fun t => by
    simp only [utf32_atom]
    exact mark_keep (unit := 4) (kind := utf32Kind) (bo := 1) (s := [0xFF, 0xFE, 0x00, 0x00]) (t := t) rfl
      (by unfold utf32Kind; rw [if_pos (bom32 t).2.2.2])
  range := by
    intro is s wc n is' h
    obtain ⟨h1, h2⟩ := mark_char (kind := utf32Kind) h
    unfold utf32Kind at h2
    show Scalar wc ∧ _
    repeat' split at h2
    all_goals simp only [MarkItem.char.injEq, reduceCtorEq] at h2
    next h3 _ h4 =>
      obtain ⟨rfl, _⟩ := h2
      exact ⟨h4, h3⟩

theorem ucs4_bomOK : BomOK ⟨ucs4_entry, fun c => c ≤ 0x7FFFFFFF ∧ c ≠ 0xFEFF, b32, l32,
    [0x00, 0x00, 0xFE, 0xFF], [0xFF, 0xFE, 0x00, 0x00]⟩ where
  inv := fun bo h => h
  flush := rfl
  be := by
    rintro wc t ⟨h1, h2⟩
    refine ⟨by simp [b32], ?_⟩
    simp only [ucs4_atom]
    refine mark_one (unit := 4) (kind := ucs4Kind) (bo := 0) (s := b32 wc) (t := t) (by simp [b32]) ?_
    have hu := u32_be (show wc < 4294967296 by omega) t
    have hn : u32 0 (b32 wc ++ t) ≠ 0xfffe0000 := by omega
    unfold ucs4Kind
    rw [if_neg hn, hu, if_neg h2, if_pos h1]
  le := by
    rintro wc t ⟨h1, h2⟩
    refine ⟨by simp [l32], ?_⟩
    simp only [ucs4_atom]
    refine mark_one (unit := 4) (kind := ucs4Kind) (bo := 1) (s := l32 wc) (t := t) (by simp [l32]) ?_
    have hu := u32_le (show wc < 4294967296 by omega) t
    have hn : u32 1 (l32 wc ++ t) ≠ 0xfffe0000 := by omega
    unfold ucs4Kind
    rw [if_neg hn, hu, if_neg h2, if_pos h1]
  be0 := fun t => ⟨by simp, by
    simp only [ucs4_atom]
    exact mark_keep (unit := 4) (kind := ucs4Kind) (bo := 0) (s := [0x00, 0x00, 0xFE, 0xFF]) (t := t) rfl
      (by unfold ucs4Kind; rw [if_pos (bom32 t).1])⟩
  be1 := fun t => by
    simp only [ucs4_atom]
    exact mark_flip (unit := 4) (kind := ucs4Kind) (bo := 1) (s := [0x00, 0x00, 0xFE, 0xFF]) (t := t) rfl
      (by unfold ucs4Kind; rw [if_neg (by rw [(bom32 t).2.1]; decide), if_pos (bom32 t).2.1])
  le0 := fun t => ⟨by simp, by
    simp only [ucs4_atom]
    exact mark_flip (unit := 4) (kind := ucs4Kind) (bo := 0) (s := [0xFF, 0xFE, 0x00, 0x00]) (t := t) rfl
      (by unfold ucs4Kind; rw [if_neg (by rw [(bom32 t).2.2.1]; decide), if_pos (bom32 t).2.2.1])⟩
  le1 := fun t => by
    simp only [ucs4_atom]
    exact mark_keep (unit := 4) (kind := ucs4Kind) (bo := 1) (s := [0xFF, 0xFE, 0x00, 0x00]) (t := t) rfl
      (by unfold ucs4Kind; rw [if_pos (bom32 t).2.2.2])
  range := by
    intro is s wc n is' h
    obtain ⟨h1, h2⟩ := mark_char (kind := ucs4Kind) h
    unfold ucs4Kind at h2
    show wc ≤ _ ∧ _
    repeat' split at h2
    all_goals simp only [MarkItem.char.injEq, reduceCtorEq] at h2
    next h3 _ h4 =>
      obtain ⟨rfl, _⟩ := h2
      exact ⟨h4, h3⟩

theorem bomForms_ok : ∀ S ∈ bomForms, BomOK S := by
  simp only [bomForms, List.forall_mem_cons, List.not_mem_nil, false_implies, implies_true, and_true]
  exact ⟨utf16_bomOK, utf32_bomOK, ucs2_bomOK, ucs4_bomOK⟩

variable {S : BomForm}

theorem BomOK.text_be (h : BomOK S) {cs : List Nat} (hcs : ∀ c ∈ cs, S.has c) :
    Chars S.entry.atom ⟨0, 0⟩ (cs.flatMap S.be) cs ⟨0, 0⟩ := by
  induction cs with
  | nil => exact .nil _
  | cons c cs ih =>
    simp only [List.mem_cons, forall_eq_or_imp] at hcs
    obtain ⟨h1, h2⟩ := h.be c (cs.flatMap S.be) hcs.1
    rw [List.flatMap_cons]
    refine .char (by simp [h1]) h2 ?_
    rw [List.drop_left]; exact ih hcs.2

theorem BomOK.text_le (h : BomOK S) {cs : List Nat} (hcs : ∀ c ∈ cs, S.has c) :
    Chars S.entry.atom ⟨1, 0⟩ (cs.flatMap S.le) cs ⟨1, 0⟩ := by
  induction cs with
  | nil => exact .nil _
  | cons c cs ih =>
    simp only [List.mem_cons, forall_eq_or_imp] at hcs
    obtain ⟨h1, h2⟩ := h.le c (cs.flatMap S.le) hcs.1
    rw [List.flatMap_cons]
    refine .char (by simp [h1]) h2 ?_
    rw [List.drop_left]; exact ih hcs.2

theorem BomOK.bom_be (h : BomOK S) {bo : Nat} (hb : bo ≤ 1) {cs : List Nat}
    (hcs : ∀ c ∈ cs, S.has c) :
    Chars S.entry.atom ⟨bo, 0⟩ (S.bomBE ++ cs.flatMap S.be) cs ⟨0, 0⟩ := by
  have hne : S.bomBE ++ cs.flatMap S.be ≠ [] := by simp [(h.be0 []).1]
  have h0 : bo = 0 ∨ bo = 1 := by omega
  rcases h0 with rfl | rfl
  · exact .shift hne (h.be0 _).2 (by rw [List.drop_left]; exact h.text_be hcs)
  · exact .shift hne (h.be1 _) (by rw [List.drop_left]; exact h.text_be hcs)

theorem BomOK.bom_le (h : BomOK S) {bo : Nat} (hb : bo ≤ 1) {cs : List Nat}
    (hcs : ∀ c ∈ cs, S.has c) :
    Chars S.entry.atom ⟨bo, 0⟩ (S.bomLE ++ cs.flatMap S.le) cs ⟨1, 0⟩ := by
  have hne : S.bomLE ++ cs.flatMap S.le ≠ [] := by simp [(h.le0 []).1]
  have h0 : bo = 0 ∨ bo = 1 := by omega
  rcases h0 with rfl | rfl
  · exact .shift hne (h.le0 _).2 (by rw [List.drop_left]; exact h.text_le hcs)
  · exact .shift hne (h.le1 _) (by rw [List.drop_left]; exact h.text_le hcs)

/-- The three ways to write the text `cs`: with a big endian mark, with a little endian mark, or big
endian without a mark. -/
def BomForm.forms (S : BomForm) (cs : List Nat) : List (List Byte) :=
  [S.bomBE ++ cs.flatMap S.be, S.bomLE ++ cs.flatMap S.le, cs.flatMap S.be]

/-- C24. For text in one of the three forms, all of whose characters the target has, on a new
descriptor: (1) `reiconv_convert` returns 0 and exactly the characters of the text, without the mark,
in the target encoding; (2) a program that feeds the text to `reiconv_iconv` in any pieces with any
output buffers collects the same output; (3) after that, a reset keeps the byte order: with the
little endian mark the descriptor now reads little endian text without a mark, otherwise big endian
text. -/
theorem C24_byte_order_marks : ∀ S ∈ bomForms, ∀ (B : Entry) (discard : Bool) (cs : List Nat),
    (∀ c ∈ cs, S.has c) → ∀ (out : List Byte), B.Encodes cs out → ∀ inp ∈ S.forms cs,
    (∀ alloc : Nat → List Byte, (∀ n, (alloc n).length = n) →
      ∃ r, convert (S.entry.conv B discard) St.init inp true true (fun n => some (alloc n)) = .ok r ∧
        r.ret = .ok () ∧ r.data = some out) ∧
    (∀ ops y v, fed ops = inp → session (S.entry.conv B discard) (Sess.start St.init) ops = .ok y →
      y.Settled v → v = .ok () ∧ y.out ++ B.enc.tail y.st.os = out ∧
      ∀ r, iconv (S.entry.conv B discard) y.st none none = .ok r →
        ∀ (cs2 : List Nat), (∀ c ∈ cs2, S.has c) → ∀ out2, B.Encodes cs2 out2 →
        ∀ alloc : Nat → List Byte, (∀ n, (alloc n).length = n) → ∃ r2,
          convert (S.entry.conv B discard) r.st
            (if inp = S.bomLE ++ cs.flatMap S.le then cs2.flatMap S.le else cs2.flatMap S.be)
            true true (fun n => some (alloc n)) = .ok r2 ∧ r2.ret = .ok () ∧ r2.data = some out2) := by
  intro S hS B discard cs hcs out hout inp hinp
  have h := bomForms_ok S hS
  have hne : S.bomBE ++ cs.flatMap S.be ≠ S.bomLE ++ cs.flatMap S.le ∧
      cs.flatMap S.be ≠ S.bomLE ++ cs.flatMap S.le := by
    constructor <;> intro hc
    · have h1 := (h.be0 (cs.flatMap S.be)).2
      have h2 := (h.le0 (cs.flatMap S.le)).2
      rw [hc, h2] at h1
      simp at h1
    · have h2 := (h.le0 (cs.flatMap S.le)).2
      rw [← hc] at h2
      cases cs with
      | nil =>
        simp only [List.flatMap_nil, List.append_nil] at hc
        exact (h.le0 []).1 hc.symm
      | cons c cs =>
        have h3 := (h.be c (cs.flatMap S.be) (hcs c (by simp))).2
        rw [List.flatMap_cons, h3] at h2
        cases h2
  -- the characters of the text, read from a new descriptor and read again
  have key : ∃ bo, bo ≤ 1 ∧ Chars S.entry.atom ⟨0, 0⟩ inp cs ⟨bo, 0⟩ ∧
      Chars S.entry.atom ⟨bo, 0⟩ inp cs ⟨bo, 0⟩ ∧
      bo = if inp = S.bomLE ++ cs.flatMap S.le then 1 else 0 := by
    simp only [BomForm.forms, List.mem_cons, List.not_mem_nil, or_false] at hinp
    rcases hinp with rfl | rfl | rfl
    · exact ⟨0, by omega, h.bom_be (by omega) hcs, h.bom_be (by omega) hcs, by rw [if_neg hne.1]⟩
    · exact ⟨1, by omega, h.bom_le (by omega) hcs, h.bom_le (by omega) hcs, by rw [if_pos rfl]⟩
    · exact ⟨0, by omega, h.text_be hcs, h.text_be hcs, by rw [if_neg hne.2]⟩
  obtain ⟨bo, hbo, k1, k2, k3⟩ := key
  refine ⟨fun alloc hal => ⟨_, convert_twice discard (h.inv 0 (by omega)) k1 k2 h.flush hout alloc hal,
    rfl, rfl⟩, ?_⟩
  intro ops y v hfed hsess hv
  obtain ⟨bs, os, hbs, rfl⟩ := hout
  obtain ⟨e, irr, fin, g1, g2, g3, g4, g5⟩ := session_settled (c := S.entry.conv B discard)
    S.entry.decOK B.encOK ops (Sess.start St.init) S.entry.decOK.inv_init B.encOK.inv_init rfl hsess hv
  have hrun := exact_runs (c := S.entry.conv B discard)
    (runs_of_chars (unit := S.entry.unit) (discard := discard) k1 hbs) _ rfl
  simp only [Sess.start, List.nil_append, hfed] at g1 g2
  obtain ⟨rfl, rfl, rfl⟩ := runs_det hrun g2
  have hv' : v = .ok () := by
    unfold Sess.Settled at hv
    split at hv
    · exact hv
    · have := (g4 hv).1; cases this
    · have := g5 hv; cases this
    · exact absurd hv id
  obtain ⟨hy, _⟩ := g3 hv'
  have hy' : y.st = ⟨⟨bo, 0⟩, os⟩ := by injection hy with hy; exact hy.symm
  rw [hy']
  refine ⟨hv', by rw [g1], ?_⟩
  intro r hr cs2 hcs2 out2 hout2 alloc hal
  cases hr
  rw [k3]
  split
  · exact ⟨_, convert_twice discard (h.inv 1 (by omega)) (h.text_le hcs2) (h.text_le hcs2) h.flush hout2
      alloc hal, rfl, rfl⟩
  · exact ⟨_, convert_twice discard (h.inv 0 (by omega)) (h.text_be hcs2) (h.text_be hcs2) h.flush hout2
      alloc hal, rfl, rfl⟩

/-- The hypotheses of C24 are met: "a", U+1F600 as UTF-16 with a little endian mark, to UTF-8. -/
example : (∀ c ∈ [0x61, 0x1F600], Scalar c ∧ c ≠ 0xFEFF ∧ c ≠ 0xFFFE) ∧
    [0xFF, 0xFE] ++ [0x61, 0x1F600].flatMap (utf16Enc l16) =
      [0xFF, 0xFE, 0x61, 0x00, 0x3D, 0xD8, 0x00, 0xDE] := by decide
example : utf8_entry.Encodes [0x61, 0x1F600] [0x61, 0xF0, 0x9F, 0x98, 0x80] :=
  utf8_encodes.2 (by decide)
example : ∃ y, session (utf16_entry.conv utf8_entry false) (Sess.start St.init)
    [.feed [0xFF], .call [0, 0], .feed [0xFE, 0x61, 0x00], .call [0, 0]] = .ok y ∧
    y.Settled (.ok ()) ∧ y.out = [0x61] := ⟨_, by rfl, by rfl, rfl⟩

/-! ## C22, C23 for the encodings with marks -/

theorem BomEnc.text_cons {E : Encoder} (e : BomEnc E) {os c : Nat} {cs o} {os' : Nat} :
    E.text os (c :: cs) = some (o, os') ↔
      ∃ bs r, e.enc c = some bs ∧ E.text 1 cs = some (r, os') ∧ o = bomPre e.bom os ++ bs ++ r := by
  simp only [Encoder.text, e.rep_eq, e.full_eq]
  cases e.enc c with
  | none => simp
  | some bs =>
    simp only [Option.map_some]
    cases E.text 1 cs with
    | none => simp
    | some x =>
      obtain ⟨r, os2⟩ := x
      simp only [Option.some.injEq, Prod.mk.injEq]
      constructor
      · rintro ⟨rfl, rfl⟩; exact ⟨_, _, rfl, ⟨rfl, rfl⟩, rfl⟩
      · rintro ⟨_, _, rfl, ⟨rfl, rfl⟩, rfl⟩; exact ⟨rfl, rfl⟩

theorem BomEnc.text_flatMap {E : Encoder} (e : BomEnc E) {P : Nat → Prop} [DecidablePred P]
    {f : Nat → List Byte} (he : ∀ wc, e.enc wc = if P wc then some (f wc) else none) {cs o os'} :
    E.text 1 cs = some (o, os') ↔ (∀ c ∈ cs, P c) ∧ o = cs.flatMap f ∧ os' = 1 := by
  induction cs generalizing o with
  | nil =>
    simp only [Encoder.text, Option.some.injEq, Prod.mk.injEq, List.not_mem_nil, false_implies,
      implies_true, List.flatMap_nil, true_and]
    exact ⟨fun ⟨h1, h2⟩ => ⟨h1.symm, h2.symm⟩, fun ⟨h1, h2⟩ => ⟨h1.symm, h2.symm⟩⟩
  | cons c cs ih =>
    rw [e.text_cons, he]
    simp only [List.mem_cons, forall_eq_or_imp, List.flatMap_cons, bomPre, Nat.one_ne_zero, if_false,
      List.nil_append]
    constructor
    · rintro ⟨bs, r, h1, h2, rfl⟩
      split at h1
      · next hp =>
        cases h1
        obtain ⟨h3, rfl, rfl⟩ := ih.1 h2
        exact ⟨⟨hp, h3⟩, rfl, rfl⟩
      · cases h1
    · rintro ⟨⟨h1, h2⟩, rfl, rfl⟩
      exact ⟨f c, _, by rw [if_pos h1], ih.2 ⟨h2, rfl, rfl⟩, rfl⟩

/-- An encoder with a mark writes the mark once, before the first character. -/
theorem BomEnc.encodes {B : Entry} (e : BomEnc B.enc) {P : Nat → Prop} [DecidablePred P]
    {f : Nat → List Byte} (he : ∀ wc, e.enc wc = if P wc then some (f wc) else none) {cs out} :
    B.Encodes cs out ↔
      (∀ c ∈ cs, P c) ∧ out = if cs = [] then [] else e.bom ++ cs.flatMap f := by
  have ht : ∀ os, B.enc.tail os = [] := by
    intro os; unfold Encoder.tail; rw [e.reset]
  unfold Entry.Encodes
  simp only [ht, List.append_nil]
  cases cs with
  | nil => simp [Encoder.text]
  | cons c cs =>
    simp only [List.mem_cons, forall_eq_or_imp, List.flatMap_cons, reduceCtorEq, if_false, e.text_cons,
      he, bomPre, if_true]
    constructor
    · rintro ⟨_, os, ⟨bs, r, h1, h2, rfl⟩, rfl⟩
      split at h1
      · next hp =>
        cases h1
        obtain ⟨h3, rfl, rfl⟩ := (e.text_flatMap he).1 h2
        exact ⟨⟨hp, h3⟩, by simp⟩
      · cases h1
    · rintro ⟨⟨h1, h2⟩, rfl⟩
      exact ⟨_, _, ⟨f c, _, by rw [if_pos h1], (e.text_flatMap he).2 ⟨h2, rfl, rfl⟩, rfl⟩, by simp⟩

theorem BomOK.text_range (h : BomOK S) {inp cs} (ht : S.entry.Text inp cs) : ∀ c ∈ cs, S.has c := by
  obtain ⟨cs0, is, hc, rfl⟩ := ht
  have hk : S.entry.dec.kept is = [] := by simp [Decoder.kept, h.flush]
  rw [hk, List.append_nil]
  clear hk
  generalize IState.init = is0 at hc
  induction hc with
  | nil => simp
  | char _ ha _ ih =>
    simp only [List.mem_cons, forall_eq_or_imp]
    exact ⟨h.range _ _ _ _ _ ha, ih⟩
  | shift _ _ _ ih => exact ih

theorem text_of_chars {A : Entry} {inp cs is} (hf : A.dec.flushwc = none)
    (h : Chars A.atom IState.init inp cs is) : A.Text inp cs :=
  ⟨cs, is, h, by simp [Decoder.kept, hf]⟩

/-- C22 for UTF-16, partial: the encoder accepts the scalar values other than U+FFFE and writes one
mark, then big endian UTF-16; texts without U+FEFF decode to the same characters; the decoder never
yields a surrogate or a value above U+10FFFF, and rejects unpaired surrogates. Missing: U+FEFF
(`C22_feff_lost`) and U+FFFE (not encodable). -/
theorem C22_utf16_partial :
    (∀ cs out, utf16_entry.Encodes cs out ↔ (∀ c ∈ cs, Scalar c ∧ c ≠ 0xFFFE) ∧
      out = if cs = [] then [] else [0xFE, 0xFF] ++ cs.flatMap (utf16Enc b16)) ∧
    (∀ cs out, utf16_entry.Encodes cs out → 0xFEFF ∉ cs → utf16_entry.Text out cs) ∧
    (∀ inp cs, utf16_entry.Text inp cs → ∀ c ∈ cs, Scalar c) ∧
    (∀ is s, 4 ≤ s.length → 0xD800 ≤ u16 is.bo s → u16 is.bo s < 0xDC00 →
      ¬ (0xDC00 ≤ u16 is.bo (s.drop 2) ∧ u16 is.bo (s.drop 2) < 0xE000) →
      utf16_entry.atom is s = .ilseq) ∧
    (∀ is s, 2 ≤ s.length → 0xDC00 ≤ u16 is.bo s → u16 is.bo s < 0xE000 →
      utf16_entry.atom is s = .ilseq) := by
  have henc : ∀ cs out, utf16_entry.Encodes cs out ↔ (∀ c ∈ cs, Scalar c ∧ c ≠ 0xFFFE) ∧
      out = if cs = [] then [] else [0xFE, 0xFF] ++ cs.flatMap (utf16Enc b16) :=
    fun cs out => BomEnc.encodes (B := utf16_entry) utf16_benc (P := fun c => Scalar c ∧ c ≠ 0xFFFE)
      (fun _ => rfl)
  refine ⟨henc, ?_, ?_, ?_, ?_⟩
  · intro cs out h hf
    obtain ⟨h1, rfl⟩ := (henc cs out).1 h
    have hcs : ∀ c ∈ cs, Scalar c ∧ c ≠ 0xFEFF ∧ c ≠ 0xFFFE :=
      fun c hc => ⟨(h1 c hc).1, fun he => hf (he ▸ hc), (h1 c hc).2⟩
    split
    · next hn => subst hn; exact text_of_chars rfl (.nil _)
    · exact text_of_chars rfl (utf16_bomOK.bom_be (bo := 0) (by omega) hcs)
  · intro inp cs h c hc
    exact (utf16_bomOK.text_range h c hc).1
  · intro is s hl h1 h2 h3
    show markAtom 2 utf16Kind is s = _
    unfold markAtom utf16Kind
    rw [if_neg (by omega), if_neg (by omega), if_neg (by omega), if_pos (by omega), if_neg (by omega),
      if_neg (by omega)]
  · intro is s hl h1 h2
    show markAtom 2 utf16Kind is s = _
    unfold markAtom utf16Kind
    rw [if_neg (by omega), if_neg (by omega), if_neg (by omega), if_neg (by omega), if_pos (by omega)]

example : utf16_entry.Encodes [0x61, 0x1F600] [0xFE, 0xFF, 0x00, 0x61, 0xD8, 0x3D, 0xDE, 0x00] ∧
    0xFEFF ∉ [0x61, 0x1F600] :=
  ⟨(C22_utf16_partial.1 _ _).2 (by decide), by decide⟩

/-- C22 and C23 fail for U+FEFF: UTF-16, UTF-32, UCS-2 and UCS-4 encode it, and decode the result to
a text without it. -/
theorem C22_feff_lost :
    (utf16_entry.Encodes [0x61, 0xFEFF] [0xFE, 0xFF, 0x00, 0x61, 0xFE, 0xFF] ∧
      utf16_entry.Text [0xFE, 0xFF, 0x00, 0x61, 0xFE, 0xFF] [0x61]) ∧
    (utf32_entry.Encodes [0xFEFF] [0x00, 0x00, 0xFE, 0xFF, 0x00, 0x00, 0xFE, 0xFF] ∧
      utf32_entry.Text [0x00, 0x00, 0xFE, 0xFF, 0x00, 0x00, 0xFE, 0xFF] []) ∧
    (ucs2_entry.Encodes [0xFEFF] [0xFE, 0xFF] ∧ ucs2_entry.Text [0xFE, 0xFF] []) ∧
    (ucs4_entry.Encodes [0xFEFF] [0x00, 0x00, 0xFE, 0xFF] ∧
      ucs4_entry.Text [0x00, 0x00, 0xFE, 0xFF] []) := by
  refine ⟨⟨⟨_, _, rfl, rfl⟩, text_of_chars rfl (.shift (by simp) rfl (.char (by simp) rfl
      (.shift (by simp) rfl (.nil _))))⟩,
    ⟨⟨_, _, rfl, rfl⟩, text_of_chars rfl (.shift (by simp) rfl (.shift (by simp) rfl (.nil _)))⟩,
    ⟨⟨_, _, rfl, rfl⟩, text_of_chars rfl (.shift (by simp) rfl (.nil _))⟩,
    ⟨⟨_, _, rfl, rfl⟩, text_of_chars rfl (.shift (by simp) rfl (.nil _))⟩⟩

/-- C23 for UTF-32, UCS-2 and UCS-4, partial: what the encoders accept and write (UTF-32 with one mark
first, UCS-2 and UCS-4 without a mark, all big endian), texts without U+FEFF decode to the same
characters, and every decoded character is in the range of the encoding. Missing: U+FEFF
(`C22_feff_lost`). -/
theorem C23_marked_partial :
    (∀ cs out, utf32_entry.Encodes cs out ↔ (∀ c ∈ cs, Scalar c) ∧
      out = if cs = [] then [] else [0x00, 0x00, 0xFE, 0xFF] ++ cs.flatMap b32) ∧
    (∀ cs out, ucs2_entry.Encodes cs out ↔ (∀ c ∈ cs, Ucs2 c ∧ c ≠ 0xFFFE) ∧ out = cs.flatMap b16) ∧
    (∀ cs out, ucs4_entry.Encodes cs out ↔ (∀ c ∈ cs, c ≤ 0x7FFFFFFF) ∧ out = cs.flatMap b32) ∧
    (∀ A ∈ [utf32_entry, ucs2_entry, ucs4_entry], ∀ cs out, A.Encodes cs out → 0xFEFF ∉ cs →
      A.Text out cs) ∧
    (∀ inp cs, utf32_entry.Text inp cs → ∀ c ∈ cs, Scalar c) ∧
    (∀ inp cs, ucs2_entry.Text inp cs → ∀ c ∈ cs, Ucs2 c) ∧
    (∀ inp cs, ucs4_entry.Text inp cs → ∀ c ∈ cs, c ≤ 0x7FFFFFFF) := by
  have e1 : ∀ cs out, utf32_entry.Encodes cs out ↔ (∀ c ∈ cs, Scalar c) ∧
      out = if cs = [] then [] else [0x00, 0x00, 0xFE, 0xFF] ++ cs.flatMap b32 :=
    fun cs out => BomEnc.encodes (B := utf32_entry) utf32_benc (P := Scalar) (fun _ => rfl)
  have simp_enc : ∀ {A : Entry} (e : SimpleEnc A.enc) {cs out}, A.Encodes cs out ↔
      A.enc.text 0 cs = some (out, 0) := by
    intro A e cs out
    unfold Entry.Encodes
    simp only [e.tail_eq, List.append_nil]
    constructor
    · rintro ⟨bs, os, h, rfl⟩
      cases e.text_state h; exact h
    · intro h; exact ⟨_, _, h, rfl⟩
  have e2 : ∀ cs out, ucs2_entry.Encodes cs out ↔
      (∀ c ∈ cs, Ucs2 c ∧ c ≠ 0xFFFE) ∧ out = cs.flatMap b16 := by
    intro cs out
    refine (simp_enc (A := ucs2_entry) ucs2_senc).trans
      (ucs2_senc.text_flatMap (P := fun c => Ucs2 c ∧ c ≠ 0xFFFE) (fun wc => ?_))
    show (if wc < 0x10000 ∧ wc ≠ 0xfffe ∧ ¬ (wc ≥ 0xd800 ∧ wc < 0xe000) then _ else _) = _
    by_cases h : Ucs2 wc ∧ wc ≠ 0xFFFE
    · rw [if_pos h, if_pos ⟨h.1.1, h.2, h.1.2⟩]
    · rw [if_neg h, if_neg (fun hc => h ⟨⟨hc.1, hc.2.2⟩, hc.2.1⟩)]
  have e3 : ∀ cs out, ucs4_entry.Encodes cs out ↔
      (∀ c ∈ cs, c ≤ 0x7FFFFFFF) ∧ out = cs.flatMap b32 :=
    fun cs out => (simp_enc (A := ucs4_entry) ucs4_senc).trans
      (ucs4_senc.text_flatMap (P := fun c => c ≤ 0x7FFFFFFF) (fun _ => rfl))
  refine ⟨e1, e2, e3, ?_, ?_, ?_, ?_⟩
  · simp only [List.forall_mem_cons, List.not_mem_nil, false_implies, implies_true, and_true]
    refine ⟨?_, ?_, ?_⟩
    · intro cs out h hf
      obtain ⟨h1, rfl⟩ := (e1 cs out).1 h
      have hcs : ∀ c ∈ cs, Scalar c ∧ c ≠ 0xFEFF := fun c hc => ⟨h1 c hc, fun he => hf (he ▸ hc)⟩
      split
      · next hn => subst hn; exact text_of_chars rfl (.nil _)
      · exact text_of_chars rfl (utf32_bomOK.bom_be (bo := 0) (by omega) hcs)
    · intro cs out h hf
      obtain ⟨h1, rfl⟩ := (e2 cs out).1 h
      have hcs : ∀ c ∈ cs, Ucs2 c ∧ c ≠ 0xFEFF ∧ c ≠ 0xFFFE :=
        fun c hc => ⟨(h1 c hc).1, fun he => hf (he ▸ hc), (h1 c hc).2⟩
      exact text_of_chars rfl (ucs2_bomOK.text_be hcs)
    · intro cs out h hf
      obtain ⟨h1, rfl⟩ := (e3 cs out).1 h
      have hcs : ∀ c ∈ cs, c ≤ 0x7FFFFFFF ∧ c ≠ 0xFEFF := fun c hc => ⟨h1 c hc, fun he => hf (he ▸ hc)⟩
      exact text_of_chars rfl (ucs4_bomOK.text_be hcs)
  · intro inp cs h c hc; exact (utf32_bomOK.text_range h c hc).1
  · intro inp cs h c hc; exact (ucs2_bomOK.text_range h c hc).1
  · intro inp cs h c hc; exact (ucs4_bomOK.text_range h c hc).1

example : utf32_entry.Encodes [0x1F600] [0x00, 0x00, 0xFE, 0xFF, 0x00, 0x01, 0xF6, 0x00] ∧
    ucs2_entry.Encodes [0x20AC] [0x20, 0xAC] ∧ ucs4_entry.Encodes [0x1F600] [0x00, 0x01, 0xF6, 0x00] :=
  ⟨⟨_, _, rfl, rfl⟩, ⟨_, _, rfl, rfl⟩, ⟨_, _, rfl, rfl⟩⟩

end Reiconv
