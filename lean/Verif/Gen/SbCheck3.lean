import Verif.Gen.SbTables
import Verif.Gen.SbData3

/-!
# Checks of single-byte encodings against the reference tables

Generated by `tools/gensb.py`. Every byte and every character covered by a branch is
evaluated by the kernel.
-/

namespace Reiconv

theorem mac_roman_safe : mac_roman_sb.safe = true := by decide +kernel
theorem mac_roman_chkDec : chkDec mac_roman_sb mac_roman_from = true := by decide +kernel
theorem mac_roman_chkInv : chkInv mac_roman_sb mac_roman_irr = true := by decide +kernel

theorem mac_romania_safe : mac_romania_sb.safe = true := by decide +kernel
theorem mac_romania_chkDec : chkDec mac_romania_sb mac_romania_from = true := by decide +kernel
theorem mac_romania_chkInv : chkInv mac_romania_sb mac_romania_irr = true := by decide +kernel

theorem mac_thai_safe : mac_thai_sb.safe = true := by decide +kernel
theorem mac_thai_chkDec : chkDec mac_thai_sb mac_thai_from = true := by decide +kernel
theorem mac_thai_chkInv : chkInv mac_thai_sb mac_thai_irr = true := by decide +kernel

theorem mac_turkish_safe : mac_turkish_sb.safe = true := by decide +kernel
theorem mac_turkish_chkDec : chkDec mac_turkish_sb mac_turkish_from = true := by decide +kernel
theorem mac_turkish_chkInv : chkInv mac_turkish_sb mac_turkish_irr = true := by decide +kernel

theorem mac_ukraine_safe : mac_ukraine_sb.safe = true := by decide +kernel
theorem mac_ukraine_chkDec : chkDec mac_ukraine_sb mac_ukraine_from = true := by decide +kernel
theorem mac_ukraine_chkInv : chkInv mac_ukraine_sb mac_ukraine_irr = true := by decide +kernel

theorem mulelao_safe : mulelao_sb.safe = true := by decide +kernel
theorem mulelao_chkDec : chkDec mulelao_sb mulelao_from = true := by decide +kernel
theorem mulelao_chkInv : chkInv mulelao_sb mulelao_irr = true := by decide +kernel

theorem nextstep_safe : nextstep_sb.safe = true := by decide +kernel
theorem nextstep_chkDec : chkDec nextstep_sb nextstep_from = true := by decide +kernel
theorem nextstep_chkInv : chkInv nextstep_sb nextstep_irr = true := by decide +kernel

theorem pt154_safe : pt154_sb.safe = true := by decide +kernel
theorem pt154_chkDec : chkDec pt154_sb pt154_from = true := by decide +kernel
theorem pt154_chkInv : chkInv pt154_sb pt154_irr = true := by decide +kernel

theorem riscos1_safe : riscos1_sb.safe = true := by decide +kernel
theorem riscos1_chkDec : chkDec riscos1_sb riscos1_from = true := by decide +kernel
theorem riscos1_chkInv : chkInv riscos1_sb riscos1_irr = true := by decide +kernel

theorem rk1048_safe : rk1048_sb.safe = true := by decide +kernel
theorem rk1048_chkDec : chkDec rk1048_sb rk1048_from = true := by decide +kernel
theorem rk1048_chkInv : chkInv rk1048_sb rk1048_irr = true := by decide +kernel

theorem tds565_safe : tds565_sb.safe = true := by decide +kernel
theorem tds565_chkDec : chkDec tds565_sb tds565_from = true := by decide +kernel
theorem tds565_chkInv : chkInv tds565_sb tds565_irr = true := by decide +kernel

theorem tis620_safe : tis620_sb.safe = true := by decide +kernel
theorem tis620_chkDec : chkDec tis620_sb tis620_from = true := by decide +kernel
theorem tis620_chkInv : chkInv tis620_sb tis620_irr = true := by decide +kernel

theorem viscii_safe : viscii_sb.safe = true := by decide +kernel
theorem viscii_chkDec : chkDec viscii_sb viscii_from = true := by decide +kernel
theorem viscii_chkInv : chkInv viscii_sb viscii_irr = true := by decide +kernel

theorem ebcdic037_safe : ebcdic037_sb.safe = true := by decide +kernel
theorem ebcdic037_chkDec : chkDec ebcdic037_sb ebcdic037_from = true := by decide +kernel
theorem ebcdic037_chkInv : chkInv ebcdic037_sb ebcdic037_irr = true := by decide +kernel

theorem ebcdic1025_safe : ebcdic1025_sb.safe = true := by decide +kernel
theorem ebcdic1025_chkDec : chkDec ebcdic1025_sb ebcdic1025_from = true := by decide +kernel
theorem ebcdic1025_chkInv : chkInv ebcdic1025_sb ebcdic1025_irr = true := by decide +kernel

theorem ebcdic1026_safe : ebcdic1026_sb.safe = true := by decide +kernel
theorem ebcdic1026_chkDec : chkDec ebcdic1026_sb ebcdic1026_from = true := by decide +kernel
theorem ebcdic1026_chkInv : chkInv ebcdic1026_sb ebcdic1026_irr = true := by decide +kernel

theorem ebcdic1047_safe : ebcdic1047_sb.safe = true := by decide +kernel
theorem ebcdic1047_chkDec : chkDec ebcdic1047_sb ebcdic1047_from = true := by decide +kernel
theorem ebcdic1047_chkInv : chkInv ebcdic1047_sb ebcdic1047_irr = true := by decide +kernel

theorem ebcdic1097_safe : ebcdic1097_sb.safe = true := by decide +kernel
theorem ebcdic1097_chkDec : chkDec ebcdic1097_sb ebcdic1097_from = true := by decide +kernel
theorem ebcdic1097_chkInv : chkInv ebcdic1097_sb ebcdic1097_irr = true := by decide +kernel

theorem ebcdic1112_safe : ebcdic1112_sb.safe = true := by decide +kernel
theorem ebcdic1112_chkDec : chkDec ebcdic1112_sb ebcdic1112_from = true := by decide +kernel
theorem ebcdic1112_chkInv : chkInv ebcdic1112_sb ebcdic1112_irr = true := by decide +kernel

theorem ebcdic1122_safe : ebcdic1122_sb.safe = true := by decide +kernel
theorem ebcdic1122_chkDec : chkDec ebcdic1122_sb ebcdic1122_from = true := by decide +kernel
theorem ebcdic1122_chkInv : chkInv ebcdic1122_sb ebcdic1122_irr = true := by decide +kernel

theorem ebcdic1123_safe : ebcdic1123_sb.safe = true := by decide +kernel
theorem ebcdic1123_chkDec : chkDec ebcdic1123_sb ebcdic1123_from = true := by decide +kernel
theorem ebcdic1123_chkInv : chkInv ebcdic1123_sb ebcdic1123_irr = true := by decide +kernel

theorem ebcdic1130_safe : ebcdic1130_sb.safe = true := by decide +kernel
theorem ebcdic1130_chkDec : chkDec ebcdic1130_sb ebcdic1130_from = true := by decide +kernel
theorem ebcdic1130_chkInv : chkInv ebcdic1130_sb ebcdic1130_irr = true := by decide +kernel

theorem ebcdic1132_safe : ebcdic1132_sb.safe = true := by decide +kernel
theorem ebcdic1132_chkDec : chkDec ebcdic1132_sb ebcdic1132_from = true := by decide +kernel
theorem ebcdic1132_chkInv : chkInv ebcdic1132_sb ebcdic1132_irr = true := by decide +kernel

/-- The encodings of this file with their reference tables. -/
def sbGroup3 : List (SB × List (Nat × Nat) × List (Nat × Nat)) :=
  [(mac_roman_sb, mac_roman_from, mac_roman_irr),
    (mac_romania_sb, mac_romania_from, mac_romania_irr),
    (mac_thai_sb, mac_thai_from, mac_thai_irr),
    (mac_turkish_sb, mac_turkish_from, mac_turkish_irr),
    (mac_ukraine_sb, mac_ukraine_from, mac_ukraine_irr),
    (mulelao_sb, mulelao_from, mulelao_irr),
    (nextstep_sb, nextstep_from, nextstep_irr),
    (pt154_sb, pt154_from, pt154_irr),
    (riscos1_sb, riscos1_from, riscos1_irr),
    (rk1048_sb, rk1048_from, rk1048_irr),
    (tds565_sb, tds565_from, tds565_irr),
    (tis620_sb, tis620_from, tis620_irr),
    (viscii_sb, viscii_from, viscii_irr),
    (ebcdic037_sb, ebcdic037_from, ebcdic037_irr),
    (ebcdic1025_sb, ebcdic1025_from, ebcdic1025_irr),
    (ebcdic1026_sb, ebcdic1026_from, ebcdic1026_irr),
    (ebcdic1047_sb, ebcdic1047_from, ebcdic1047_irr),
    (ebcdic1097_sb, ebcdic1097_from, ebcdic1097_irr),
    (ebcdic1112_sb, ebcdic1112_from, ebcdic1112_irr),
    (ebcdic1122_sb, ebcdic1122_from, ebcdic1122_irr),
    (ebcdic1123_sb, ebcdic1123_from, ebcdic1123_irr),
    (ebcdic1130_sb, ebcdic1130_from, ebcdic1130_irr),
    (ebcdic1132_sb, ebcdic1132_from, ebcdic1132_irr)]

theorem sbGroup3_ok : ∀ t ∈ sbGroup3, t.1.safe = true ∧ chkDec t.1 t.2.1 = true ∧ chkInv t.1 t.2.2 = true := by
  unfold sbGroup3
  simp only [List.forall_mem_cons]
  exact ⟨⟨mac_roman_safe, mac_roman_chkDec, mac_roman_chkInv⟩,
    ⟨mac_romania_safe, mac_romania_chkDec, mac_romania_chkInv⟩,
    ⟨mac_thai_safe, mac_thai_chkDec, mac_thai_chkInv⟩,
    ⟨mac_turkish_safe, mac_turkish_chkDec, mac_turkish_chkInv⟩,
    ⟨mac_ukraine_safe, mac_ukraine_chkDec, mac_ukraine_chkInv⟩,
    ⟨mulelao_safe, mulelao_chkDec, mulelao_chkInv⟩,
    ⟨nextstep_safe, nextstep_chkDec, nextstep_chkInv⟩,
    ⟨pt154_safe, pt154_chkDec, pt154_chkInv⟩,
    ⟨riscos1_safe, riscos1_chkDec, riscos1_chkInv⟩,
    ⟨rk1048_safe, rk1048_chkDec, rk1048_chkInv⟩,
    ⟨tds565_safe, tds565_chkDec, tds565_chkInv⟩,
    ⟨tis620_safe, tis620_chkDec, tis620_chkInv⟩,
    ⟨viscii_safe, viscii_chkDec, viscii_chkInv⟩,
    ⟨ebcdic037_safe, ebcdic037_chkDec, ebcdic037_chkInv⟩,
    ⟨ebcdic1025_safe, ebcdic1025_chkDec, ebcdic1025_chkInv⟩,
    ⟨ebcdic1026_safe, ebcdic1026_chkDec, ebcdic1026_chkInv⟩,
    ⟨ebcdic1047_safe, ebcdic1047_chkDec, ebcdic1047_chkInv⟩,
    ⟨ebcdic1097_safe, ebcdic1097_chkDec, ebcdic1097_chkInv⟩,
    ⟨ebcdic1112_safe, ebcdic1112_chkDec, ebcdic1112_chkInv⟩,
    ⟨ebcdic1122_safe, ebcdic1122_chkDec, ebcdic1122_chkInv⟩,
    ⟨ebcdic1123_safe, ebcdic1123_chkDec, ebcdic1123_chkInv⟩,
    ⟨ebcdic1130_safe, ebcdic1130_chkDec, ebcdic1130_chkInv⟩,
    ⟨ebcdic1132_safe, ebcdic1132_chkDec, ebcdic1132_chkInv⟩, by simp⟩

end Reiconv
