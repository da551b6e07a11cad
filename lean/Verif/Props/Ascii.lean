import Verif.Props.Rev

/-!
# Which registered encodings are supersets of ASCII (C28)
-/

namespace Reiconv

/-! ## CP1255 -/

theorem cp1255_ascii_facts : ∀ n < 128, cp1255_d.byte n = some n ∧ cp1255_d.isB n = false ∧ cp1255_e.bytes n = some [u8 n] ∧
    isTag n = false := by decide +kernel

theorem cp1255_comb_ascii (last n : Nat) (h : n < 128) : cp1255_d.comb last n = none := by
  unfold CompDec.comb CompDec.combine
  rw [if_neg (by simp only [cp1255_d]; omega)]

theorem cp1255_chars_ascii {is : IState} (h0 : is.st = 0) : ∀ (asc : List Byte), (∀ b ∈ asc, b.toNat < 128) →
    Chars cp1255_entry.atom is asc (asc.map UInt8.toNat) is := by
  intro asc
  induction asc with
  | nil => intro _; exact .nil _
  | cons b asc ih =>
    intro h
    rw [List.forall_mem_cons] at h
    obtain ⟨h1, h2, _⟩ := cp1255_ascii_facts b.toNat h.1
    refine .char (n := 1) (is' := is) (by simp) ?_ (ih h.2)
    show cp1255_d.atom is (b :: asc) = _
    unfold CompDec.atom
    simp [h1, h2, h0]

theorem cp1255_text_ascii : ∀ (asc : List Byte), (∀ b ∈ asc, b.toNat < 128) →
    cp1255_entry.enc.text 0 (asc.map UInt8.toNat) = some (asc, 0) := by
  intro asc
  induction asc with
  | nil => intro _; rfl
  | cons b asc ih =>
    intro h
    rw [List.forall_mem_cons] at h
    obtain ⟨_, _, h3, h4⟩ := cp1255_ascii_facts b.toNat h.1
    have h5 : cp1255_entry.enc.full 0 b.toNat = some ([b], 0) := by
      show cp1255_e.enc.full 0 b.toNat = _
      rw [CompEnc.bytes_full cp1255_e_ok, h3]
      simp [u8]
    simp only [List.map_cons, Encoder.text, Encoder.rep_some h5 (fun h => by rw [h4] at h; cases h), ih h.2]
    rfl

/-- C28 for CP1255. -/
theorem C28_cp1255 : cp1255_entry.AsciiTransparent := by
  intro asc hasc
  refine ⟨?_, ?_⟩
  · rintro inp cs ⟨cs0, is, h1, rfl⟩
    have hI : cp1255_entry.decOK.Inv is := h1.inv cp1255_entry.decOK.inv_init
    constructor
    · cases asc with
      | nil => simpa using ⟨cs0, is, h1, rfl⟩
      | cons b asc =>
        by_cases h0 : is.st = 0
        · have hk : cp1255_entry.dec.kept is = [] := by
            show ((normal_flushwc is).1).toList = []
            unfold normal_flushwc
            simp [h0]
          refine ⟨_, is, h1.append cp1255_entry.decOK.inv_init (cp1255_chars_ascii h0 _ hasc), ?_⟩
          rw [hk]; simp
        · have hk : cp1255_entry.dec.kept is = [is.st] := by
            show ((normal_flushwc is).1).toList = _
            unfold normal_flushwc
            simp [h0]
          have hk2 : cp1255_entry.dec.kept { is with st := 0 } = [] := rfl
          have h2 : Chars cp1255_entry.atom is (b :: asc) (is.st :: (b :: asc).map UInt8.toNat) { is with st := 0 } := by
            refine .char (n := 0) (is' := { is with st := 0 }) (by simp) ?_ (cp1255_chars_ascii rfl _ hasc)
            show cp1255_d.atom is (b :: asc) = _
            unfold CompDec.atom
            have hb := (List.forall_mem_cons.1 hasc).1
            simp [(cp1255_ascii_facts b.toNat hb).1, h0, cp1255_comb_ascii _ _ hb]
          refine ⟨_, _, h1.append cp1255_entry.decOK.inv_init h2, ?_⟩
          rw [hk, hk2]; simp
    · refine ⟨_, is, (cp1255_chars_ascii rfl asc hasc).append cp1255_entry.decOK.inv_init h1, by simp⟩
  · rintro cs out ⟨bs, os, h1, rfl⟩
    have hos : os = 0 := (cp1255_e.senc cp1255_e_ok).text_state h1
    subst hos
    have ht : cp1255_entry.enc.tail 0 = [] := (cp1255_e.senc cp1255_e_ok).tail_eq _
    refine ⟨⟨bs ++ asc, 0, ?_, by rw [ht]; simp⟩, ⟨asc ++ bs, 0, ?_, by rw [ht]; simp⟩⟩
    · rw [Encoder.text_append, h1]
      simp only [cp1255_text_ascii asc hasc]
    · rw [Encoder.text_append, cp1255_text_ascii asc hasc]
      simp only [h1]

/-! ## The encodings that are not supersets of ASCII -/

/-- All ASCII characters. -/
def allAscii : List Byte := (List.range 128).map u8

/-- The ASCII text `asc` is written as something else, or it changes what is read when it stands before the text `inp`. -/
def Entry.differs (A : Entry) (asc inp : List Byte) : Bool :=
  (match A.enc.text 0 (asc.map UInt8.toNat) with
    | none => true
    | some (bs, os) => bs ++ A.enc.tail os != asc) ||
  (match charsOf A.atom 200 IState.init inp, charsOf A.atom 200 IState.init (asc ++ inp) with
    | some (c0, i0), some (c1, i1) => c1 ++ A.dec.kept i1 != asc.map UInt8.toNat ++ (c0 ++ A.dec.kept i0)
    | _, _ => false)

theorem Entry.not_ascii {A : Entry} {asc inp : List Byte} (ha : ∀ b ∈ asc, b.toNat < 128) (ht : A.enc.tail 0 = [])
    (h : A.differs asc inp = true) : ¬ A.AsciiTransparent := by
  intro hA
  obtain ⟨h1, h2⟩ := hA asc ha
  unfold Entry.differs at h
  rcases Bool.or_eq_true_iff.1 h with h | h
  · obtain ⟨bs, os, h3, h4⟩ := (h2 [] [] ⟨[], 0, rfl, by rw [ht]; rfl⟩).1
    rw [List.nil_append] at h3 h4
    rw [h3] at h
    simp [← h4] at h
  · split at h
    · next c0 i0 c1 i1 h3 h4 =>
      have h5 := (h1 inp _ ⟨c0, i0, charsOf_sound h3, rfl⟩).2
      have h6 : A.Text (asc ++ inp) (c1 ++ A.dec.kept i1) := ⟨c1, i1, charsOf_sound h4, rfl⟩
      simp [h5.det h6] at h
    · cases h

/-- Encodings that are not supersets of ASCII: for each an ASCII text that is written differently or is not read as itself
before the text given with it. -/
noncomputable def notAsciiTexts : List (Entry × List Byte × List Byte) :=
  [(ucs2_entry, allAscii, []), (ucs2be_entry, allAscii, []), (ucs2le_entry, allAscii, []),
   (ucs4_entry, allAscii, []), (ucs4be_entry, allAscii, []), (ucs4le_entry, allAscii, []),
   (utf16_entry, allAscii, []), (utf16be_entry, allAscii, []), (utf16le_entry, allAscii, []),
   (utf32_entry, allAscii, []), (utf32be_entry, allAscii, []), (utf32le_entry, allAscii, []),
   (utf7_entry, allAscii, []), (ucs2internal_entry, allAscii, []), (ucs2swapped_entry, allAscii, []),
   (ucs4internal_entry, allAscii, []), (ucs4swapped_entry, allAscii, []),
   (c99_entry, [0x5c, 0x75, 0x30, 0x30, 0x43, 0x30], []), (java_entry, [0x5c, 0x75, 0x30, 0x30, 0x34, 0x31], []),
   (sjis_entry, allAscii, []), (iso2022_jp_entry, [0x1b, 0x28, 0x42], []),
   (iso2022_jp1_entry, [0x1b, 0x28, 0x42], []), (iso2022_jp2_entry, [0x1b, 0x28, 0x42], []),
   (iso2022_jpms_entry, [0x1b, 0x28, 0x42], []), (iso2022_cn_entry, [0x0f], []),
   (iso2022_cn_ext_entry, [0x0f], []), (hz_entry, [0x7e, 0x7e], []), (johab_entry, allAscii, []),
   (iso2022_kr_entry, [0x0f], []), (cp1258_entry, [0x41], [0xec]), (armscii_8_entry, allAscii, []),
   (viscii_entry, allAscii, []), (tcvn_entry, allAscii, []), (iso646_jp_entry, allAscii, []),
   (jisx0201_entry, allAscii, []), (jisx0208_entry, allAscii, []), (jisx0212_entry, allAscii, []),
   (iso646_cn_entry, allAscii, []), (gb2312_entry, allAscii, []), (isoir165_entry, allAscii, []),
   (ksc5601_entry, allAscii, []), (cp864_entry, allAscii, []), (ebcdic037_entry, allAscii, []),
   (ebcdic273_entry, allAscii, []), (ebcdic277_entry, allAscii, []), (ebcdic278_entry, allAscii, []),
   (ebcdic280_entry, allAscii, []), (ebcdic282_entry, allAscii, []), (ebcdic284_entry, allAscii, []),
   (ebcdic285_entry, allAscii, []), (ebcdic297_entry, allAscii, []), (ebcdic423_entry, allAscii, []),
   (ebcdic424_entry, allAscii, []), (ebcdic425_entry, allAscii, []), (ebcdic500_entry, allAscii, []),
   (ebcdic838_entry, allAscii, []), (ebcdic870_entry, allAscii, []), (ebcdic871_entry, allAscii, []),
   (ebcdic875_entry, allAscii, []), (ebcdic880_entry, allAscii, []), (ebcdic905_entry, allAscii, []),
   (ebcdic924_entry, allAscii, []), (ebcdic1025_entry, allAscii, []), (ebcdic1026_entry, allAscii, []),
   (ebcdic1047_entry, allAscii, []), (ebcdic1097_entry, allAscii, []), (ebcdic1112_entry, allAscii, []),
   (ebcdic1122_entry, allAscii, []), (ebcdic1123_entry, allAscii, []), (ebcdic1130_entry, allAscii, []),
   (ebcdic1132_entry, allAscii, []), (ebcdic1137_entry, allAscii, []), (ebcdic1140_entry, allAscii, []),
   (ebcdic1141_entry, allAscii, []), (ebcdic1142_entry, allAscii, []), (ebcdic1143_entry, allAscii, []),
   (ebcdic1144_entry, allAscii, []), (ebcdic1145_entry, allAscii, []), (ebcdic1146_entry, allAscii, []),
   (ebcdic1147_entry, allAscii, []), (ebcdic1148_entry, allAscii, []), (ebcdic1149_entry, allAscii, []),
   (ebcdic1153_entry, allAscii, []), (ebcdic1154_entry, allAscii, []), (ebcdic1155_entry, allAscii, []),
   (ebcdic1156_entry, allAscii, []), (ebcdic1157_entry, allAscii, []), (ebcdic1158_entry, allAscii, []),
   (ebcdic1160_entry, allAscii, []), (ebcdic1164_entry, allAscii, []), (ebcdic1165_entry, allAscii, []),
   (ebcdic1166_entry, allAscii, []), (ebcdic4971_entry, allAscii, []), (ebcdic12712_entry, allAscii, []),
   (ebcdic16804_entry, allAscii, []), (shift_jisx0213_entry, allAscii, []),
   (iso2022_jp3_entry, [0x1b, 0x28, 0x42], []), (tds565_entry, allAscii, [])]

/-- The numbers of these encodings. -/
def notAsciiIdx : List Nat :=
  [ei_ucs2, ei_ucs2be, ei_ucs2le, ei_ucs4, ei_ucs4be, ei_ucs4le, ei_utf16, ei_utf16be, ei_utf16le, ei_utf32,
   ei_utf32be, ei_utf32le, ei_utf7, ei_ucs2internal, ei_ucs2swapped, ei_ucs4internal, ei_ucs4swapped, ei_c99,
   ei_java, ei_sjis, ei_iso2022_jp, ei_iso2022_jp1, ei_iso2022_jp2, ei_iso2022_jpms, ei_iso2022_cn,
   ei_iso2022_cn_ext, ei_hz, ei_johab, ei_iso2022_kr, ei_cp1258, ei_armscii_8, ei_viscii, ei_tcvn, ei_iso646_jp,
   ei_jisx0201, ei_jisx0208, ei_jisx0212, ei_iso646_cn, ei_gb2312, ei_isoir165, ei_ksc5601, ei_cp864, ei_ebcdic037,
   ei_ebcdic273, ei_ebcdic277, ei_ebcdic278, ei_ebcdic280, ei_ebcdic282, ei_ebcdic284, ei_ebcdic285, ei_ebcdic297,
   ei_ebcdic423, ei_ebcdic424, ei_ebcdic425, ei_ebcdic500, ei_ebcdic838, ei_ebcdic870, ei_ebcdic871, ei_ebcdic875,
   ei_ebcdic880, ei_ebcdic905, ei_ebcdic924, ei_ebcdic1025, ei_ebcdic1026, ei_ebcdic1047, ei_ebcdic1097,
   ei_ebcdic1112, ei_ebcdic1122, ei_ebcdic1123, ei_ebcdic1130, ei_ebcdic1132, ei_ebcdic1137, ei_ebcdic1140,
   ei_ebcdic1141, ei_ebcdic1142, ei_ebcdic1143, ei_ebcdic1144, ei_ebcdic1145, ei_ebcdic1146, ei_ebcdic1147,
   ei_ebcdic1148, ei_ebcdic1149, ei_ebcdic1153, ei_ebcdic1154, ei_ebcdic1155, ei_ebcdic1156, ei_ebcdic1157,
   ei_ebcdic1158, ei_ebcdic1160, ei_ebcdic1164, ei_ebcdic1165, ei_ebcdic1166, ei_ebcdic4971, ei_ebcdic12712,
   ei_ebcdic16804, ei_shift_jisx0213, ei_iso2022_jp3, ei_tds565]

theorem notAscii_idx : notAsciiTexts.map (·.1.idx) = notAsciiIdx := by decide +kernel
theorem notAscii_bytes : ∀ x ∈ notAsciiTexts, ∀ b ∈ x.2.1, b.toNat < 128 := by decide +kernel
theorem notAscii_tail : ∀ x ∈ notAsciiTexts, x.1.enc.tail 0 = [] := by decide +kernel
theorem notAscii_differs : ∀ x ∈ notAsciiTexts, x.1.differs x.2.1 x.2.2 = true := by decide +kernel
set_option maxRecDepth 4000 in
theorem notAscii_sources : ∀ x ∈ notAsciiTexts, x.1 ∈ sources :=
  all_cons (List.mem_of_getElem? (i := 3) rfl) <| all_cons (List.mem_of_getElem? (i := 4) rfl) <|
  all_cons (List.mem_of_getElem? (i := 5) rfl) <| all_cons (List.mem_of_getElem? (i := 6) rfl) <|
  all_cons (List.mem_of_getElem? (i := 7) rfl) <| all_cons (List.mem_of_getElem? (i := 8) rfl) <|
  all_cons (List.mem_of_getElem? (i := 9) rfl) <| all_cons (List.mem_of_getElem? (i := 10) rfl) <|
  all_cons (List.mem_of_getElem? (i := 11) rfl) <| all_cons (List.mem_of_getElem? (i := 12) rfl) <|
  all_cons (List.mem_of_getElem? (i := 13) rfl) <| all_cons (List.mem_of_getElem? (i := 14) rfl) <|
  all_cons (List.mem_of_getElem? (i := 15) rfl) <| all_cons (List.mem_of_getElem? (i := 16) rfl) <|
  all_cons (List.mem_of_getElem? (i := 17) rfl) <| all_cons (List.mem_of_getElem? (i := 18) rfl) <|
  all_cons (List.mem_of_getElem? (i := 19) rfl) <| all_cons (List.mem_of_getElem? (i := 20) rfl) <|
  all_cons (List.mem_of_getElem? (i := 21) rfl) <| all_cons (List.mem_of_getElem? (i := 23) rfl) <|
  all_cons (List.mem_of_getElem? (i := 25) rfl) <| all_cons (List.mem_of_getElem? (i := 26) rfl) <|
  all_cons (List.mem_of_getElem? (i := 27) rfl) <| all_cons (List.mem_of_getElem? (i := 28) rfl) <|
  all_cons (List.mem_of_getElem? (i := 33) rfl) <| all_cons (List.mem_of_getElem? (i := 34) rfl) <|
  all_cons (List.mem_of_getElem? (i := 35) rfl) <| all_cons (List.mem_of_getElem? (i := 45) rfl) <|
  all_cons (List.mem_of_getElem? (i := 46) rfl) <| all_cons (List.mem_of_getElem? (i := 75) rfl) <|
  all_cons (List.mem_of_getElem? (i := 94) rfl) <| all_cons (List.mem_of_getElem? (i := 104) rfl) <|
  all_cons (List.mem_of_getElem? (i := 105) rfl) <| all_cons (List.mem_of_getElem? (i := 106) rfl) <|
  all_cons (List.mem_of_getElem? (i := 107) rfl) <| all_cons (List.mem_of_getElem? (i := 108) rfl) <|
  all_cons (List.mem_of_getElem? (i := 109) rfl) <| all_cons (List.mem_of_getElem? (i := 110) rfl) <|
  all_cons (List.mem_of_getElem? (i := 111) rfl) <| all_cons (List.mem_of_getElem? (i := 112) rfl) <|
  all_cons (List.mem_of_getElem? (i := 113) rfl) <| all_cons (List.mem_of_getElem? (i := 134) rfl) <|
  all_cons (List.mem_of_getElem? (i := 138) rfl) <| all_cons (List.mem_of_getElem? (i := 139) rfl) <|
  all_cons (List.mem_of_getElem? (i := 140) rfl) <| all_cons (List.mem_of_getElem? (i := 141) rfl) <|
  all_cons (List.mem_of_getElem? (i := 142) rfl) <| all_cons (List.mem_of_getElem? (i := 143) rfl) <|
  all_cons (List.mem_of_getElem? (i := 144) rfl) <| all_cons (List.mem_of_getElem? (i := 145) rfl) <|
  all_cons (List.mem_of_getElem? (i := 146) rfl) <| all_cons (List.mem_of_getElem? (i := 147) rfl) <|
  all_cons (List.mem_of_getElem? (i := 148) rfl) <| all_cons (List.mem_of_getElem? (i := 149) rfl) <|
  all_cons (List.mem_of_getElem? (i := 150) rfl) <| all_cons (List.mem_of_getElem? (i := 151) rfl) <|
  all_cons (List.mem_of_getElem? (i := 152) rfl) <| all_cons (List.mem_of_getElem? (i := 153) rfl) <|
  all_cons (List.mem_of_getElem? (i := 154) rfl) <| all_cons (List.mem_of_getElem? (i := 155) rfl) <|
  all_cons (List.mem_of_getElem? (i := 156) rfl) <| all_cons (List.mem_of_getElem? (i := 157) rfl) <|
  all_cons (List.mem_of_getElem? (i := 158) rfl) <| all_cons (List.mem_of_getElem? (i := 159) rfl) <|
  all_cons (List.mem_of_getElem? (i := 160) rfl) <| all_cons (List.mem_of_getElem? (i := 161) rfl) <|
  all_cons (List.mem_of_getElem? (i := 162) rfl) <| all_cons (List.mem_of_getElem? (i := 163) rfl) <|
  all_cons (List.mem_of_getElem? (i := 164) rfl) <| all_cons (List.mem_of_getElem? (i := 165) rfl) <|
  all_cons (List.mem_of_getElem? (i := 166) rfl) <| all_cons (List.mem_of_getElem? (i := 167) rfl) <|
  all_cons (List.mem_of_getElem? (i := 168) rfl) <| all_cons (List.mem_of_getElem? (i := 169) rfl) <|
  all_cons (List.mem_of_getElem? (i := 170) rfl) <| all_cons (List.mem_of_getElem? (i := 171) rfl) <|
  all_cons (List.mem_of_getElem? (i := 172) rfl) <| all_cons (List.mem_of_getElem? (i := 173) rfl) <|
  all_cons (List.mem_of_getElem? (i := 174) rfl) <| all_cons (List.mem_of_getElem? (i := 175) rfl) <|
  all_cons (List.mem_of_getElem? (i := 176) rfl) <| all_cons (List.mem_of_getElem? (i := 177) rfl) <|
  all_cons (List.mem_of_getElem? (i := 178) rfl) <| all_cons (List.mem_of_getElem? (i := 179) rfl) <|
  all_cons (List.mem_of_getElem? (i := 180) rfl) <| all_cons (List.mem_of_getElem? (i := 181) rfl) <|
  all_cons (List.mem_of_getElem? (i := 182) rfl) <| all_cons (List.mem_of_getElem? (i := 183) rfl) <|
  all_cons (List.mem_of_getElem? (i := 184) rfl) <| all_cons (List.mem_of_getElem? (i := 185) rfl) <|
  all_cons (List.mem_of_getElem? (i := 186) rfl) <| all_cons (List.mem_of_getElem? (i := 187) rfl) <|
  all_cons (List.mem_of_getElem? (i := 188) rfl) <| all_cons (List.mem_of_getElem? (i := 189) rfl) <|
  all_cons (List.mem_of_getElem? (i := 190) rfl) <| all_cons (List.mem_of_getElem? (i := 192) rfl) <|
  all_cons (List.mem_of_getElem? (i := 193) rfl) <| all_cons (List.mem_of_getElem? (i := 195) rfl) <| all_nil

theorem single_ascii : ∀ r ∈ singleRows, r.entry.idx ∉ notAsciiIdx → r.name ∉ notAscii := by decide +kernel
theorem mb_ascii_names : ∀ r ∈ mbRows, r.entry.idx ∉ notAsciiIdx → r.name ∉ notAsciiMb := by decide +kernel
theorem pair_ascii_names : ∀ r ∈ pairRows, r.entry.idx ∉ notAsciiIdx → r.name ≠ "SHIFT_JISX0213" := by decide +kernel
theorem shift_not_ascii : ∀ r ∈ shiftRows, r.entry.idx ∈ notAsciiIdx := by decide +kernel

theorem uni_ascii : ∀ A ∈ exactUni, A.idx ∉ notAsciiIdx → A.AsciiTransparent := by
  unfold exactUni
  refine all_cons (fun _ => C28_utf8) ?_
  intro A hA h
  exact absurd ((by decide +kernel : ∀ A ∈ exactUni.tail, A.idx ∈ notAsciiIdx) A hA) h

theorem other_ascii : ∀ A ∈ otherEntries, A.idx ∉ notAsciiIdx → A.AsciiTransparent := by
  have hx : ∀ {A : Entry}, A.idx ∈ notAsciiIdx → A.idx ∉ notAsciiIdx → A.AsciiTransparent := fun h h' => absurd h h'
  exact all_cons (hx (by decide +kernel)) <| all_cons (hx (by decide +kernel)) <| all_cons (hx (by decide +kernel)) <|
    all_cons (hx (by decide +kernel)) <| all_cons (hx (by decide +kernel)) <| all_cons (hx (by decide +kernel)) <|
    all_cons (fun _ => C28_cp1255) <| all_cons (hx (by decide +kernel)) <| all_cons (hx (by decide +kernel)) all_nil

/-- C28 for every registered target: ASCII text before and after other text stands for itself, when reading and when writing,
exactly if the encoding is not one of the 98 in `notAsciiIdx`. -/
theorem C28_registered : ∀ A ∈ targets, A.AsciiTransparent ↔ A.idx ∉ notAsciiIdx := by
  intro A hA
  constructor
  · intro hr hi
    rw [← notAscii_idx] at hi
    obtain ⟨x, hx, he⟩ := List.mem_map.1 hi
    have hxA : x.1 = A := sources_unique x.1 (notAscii_sources x hx) A (List.mem_cons_of_mem _ hA) he
    exact Entry.not_ascii (notAscii_bytes x hx) (notAscii_tail x hx) (notAscii_differs x hx) (hxA ▸ hr)
  · intro hi
    cases targets_kinds A hA with
    | single r hr e => subst e; exact C28_single_byte r hr (single_ascii r hr hi)
    | multi r hr e => subst e; exact C28_multibyte r hr (mb_ascii_names r hr hi)
    | uni h => exact uni_ascii A h hi
    | pair r hr e => subst e; exact C28_pairs r hr (pair_ascii_names r hr hi)
    | shift r hr e => subst e; exact absurd (shift_not_ascii r hr) hi
    | other h => exact other_ascii A h hi

example : (targets.filter fun A => decide (A.idx ∉ notAsciiIdx)).length = 99 := by decide +kernel

end Reiconv
