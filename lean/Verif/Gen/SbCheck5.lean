import Verif.Gen.SbTables
import Verif.Gen.SbData5

/-!
# Checks of single-byte encodings against the reference tables

Generated by `tools/gensb.py`. Every byte and every character covered by a branch is
evaluated by the kernel.
-/

namespace Reiconv

theorem ebcdic273_safe : ebcdic273_sb.safe = true := by decide +kernel
theorem ebcdic273_chkDec : chkDec ebcdic273_sb ebcdic273_from = true := by decide +kernel
theorem ebcdic273_chkInv : chkInv ebcdic273_sb ebcdic273_irr = true := by decide +kernel

theorem ebcdic277_safe : ebcdic277_sb.safe = true := by decide +kernel
theorem ebcdic277_chkDec : chkDec ebcdic277_sb ebcdic277_from = true := by decide +kernel
theorem ebcdic277_chkInv : chkInv ebcdic277_sb ebcdic277_irr = true := by decide +kernel

theorem ebcdic278_safe : ebcdic278_sb.safe = true := by decide +kernel
theorem ebcdic278_chkDec : chkDec ebcdic278_sb ebcdic278_from = true := by decide +kernel
theorem ebcdic278_chkInv : chkInv ebcdic278_sb ebcdic278_irr = true := by decide +kernel

theorem ebcdic280_safe : ebcdic280_sb.safe = true := by decide +kernel
theorem ebcdic280_chkDec : chkDec ebcdic280_sb ebcdic280_from = true := by decide +kernel
theorem ebcdic280_chkInv : chkInv ebcdic280_sb ebcdic280_irr = true := by decide +kernel

theorem ebcdic282_safe : ebcdic282_sb.safe = true := by decide +kernel
theorem ebcdic282_chkDec : chkDec ebcdic282_sb ebcdic282_from = true := by decide +kernel
theorem ebcdic282_chkInv : chkInv ebcdic282_sb ebcdic282_irr = true := by decide +kernel

theorem ebcdic284_safe : ebcdic284_sb.safe = true := by decide +kernel
theorem ebcdic284_chkDec : chkDec ebcdic284_sb ebcdic284_from = true := by decide +kernel
theorem ebcdic284_chkInv : chkInv ebcdic284_sb ebcdic284_irr = true := by decide +kernel

theorem ebcdic285_safe : ebcdic285_sb.safe = true := by decide +kernel
theorem ebcdic285_chkDec : chkDec ebcdic285_sb ebcdic285_from = true := by decide +kernel
theorem ebcdic285_chkInv : chkInv ebcdic285_sb ebcdic285_irr = true := by decide +kernel

theorem ebcdic297_safe : ebcdic297_sb.safe = true := by decide +kernel
theorem ebcdic297_chkDec : chkDec ebcdic297_sb ebcdic297_from = true := by decide +kernel
theorem ebcdic297_chkInv : chkInv ebcdic297_sb ebcdic297_irr = true := by decide +kernel

theorem ebcdic423_safe : ebcdic423_sb.safe = true := by decide +kernel
theorem ebcdic423_chkDec : chkDec ebcdic423_sb ebcdic423_from = true := by decide +kernel
theorem ebcdic423_chkInv : chkInv ebcdic423_sb ebcdic423_irr = true := by decide +kernel

theorem ebcdic424_safe : ebcdic424_sb.safe = true := by decide +kernel
theorem ebcdic424_chkDec : chkDec ebcdic424_sb ebcdic424_from = true := by decide +kernel
theorem ebcdic424_chkInv : chkInv ebcdic424_sb ebcdic424_irr = true := by decide +kernel

theorem ebcdic425_safe : ebcdic425_sb.safe = true := by decide +kernel
theorem ebcdic425_chkDec : chkDec ebcdic425_sb ebcdic425_from = true := by decide +kernel
theorem ebcdic425_chkInv : chkInv ebcdic425_sb ebcdic425_irr = true := by decide +kernel

theorem ebcdic4971_safe : ebcdic4971_sb.safe = true := by decide +kernel
theorem ebcdic4971_chkDec : chkDec ebcdic4971_sb ebcdic4971_from = true := by decide +kernel
theorem ebcdic4971_chkInv : chkInv ebcdic4971_sb ebcdic4971_irr = true := by decide +kernel

theorem ebcdic500_safe : ebcdic500_sb.safe = true := by decide +kernel
theorem ebcdic500_chkDec : chkDec ebcdic500_sb ebcdic500_from = true := by decide +kernel
theorem ebcdic500_chkInv : chkInv ebcdic500_sb ebcdic500_irr = true := by decide +kernel

theorem ebcdic838_safe : ebcdic838_sb.safe = true := by decide +kernel
theorem ebcdic838_chkDec : chkDec ebcdic838_sb ebcdic838_from = true := by decide +kernel
theorem ebcdic838_chkInv : chkInv ebcdic838_sb ebcdic838_irr = true := by decide +kernel

theorem ebcdic870_safe : ebcdic870_sb.safe = true := by decide +kernel
theorem ebcdic870_chkDec : chkDec ebcdic870_sb ebcdic870_from = true := by decide +kernel
theorem ebcdic870_chkInv : chkInv ebcdic870_sb ebcdic870_irr = true := by decide +kernel

theorem ebcdic871_safe : ebcdic871_sb.safe = true := by decide +kernel
theorem ebcdic871_chkDec : chkDec ebcdic871_sb ebcdic871_from = true := by decide +kernel
theorem ebcdic871_chkInv : chkInv ebcdic871_sb ebcdic871_irr = true := by decide +kernel

theorem ebcdic875_safe : ebcdic875_sb.safe = true := by decide +kernel
theorem ebcdic875_chkDec : chkDec ebcdic875_sb ebcdic875_from = true := by decide +kernel
theorem ebcdic875_chkInv : chkInv ebcdic875_sb ebcdic875_irr = true := by decide +kernel

theorem ebcdic880_safe : ebcdic880_sb.safe = true := by decide +kernel
theorem ebcdic880_chkDec : chkDec ebcdic880_sb ebcdic880_from = true := by decide +kernel
theorem ebcdic880_chkInv : chkInv ebcdic880_sb ebcdic880_irr = true := by decide +kernel

theorem ebcdic905_safe : ebcdic905_sb.safe = true := by decide +kernel
theorem ebcdic905_chkDec : chkDec ebcdic905_sb ebcdic905_from = true := by decide +kernel
theorem ebcdic905_chkInv : chkInv ebcdic905_sb ebcdic905_irr = true := by decide +kernel

theorem ebcdic924_safe : ebcdic924_sb.safe = true := by decide +kernel
theorem ebcdic924_chkDec : chkDec ebcdic924_sb ebcdic924_from = true := by decide +kernel
theorem ebcdic924_chkInv : chkInv ebcdic924_sb ebcdic924_irr = true := by decide +kernel

/-- The encodings of this file with their reference tables. -/
def sbGroup5 : List (SB × List (Nat × Nat) × List (Nat × Nat)) :=
  [(ebcdic273_sb, ebcdic273_from, ebcdic273_irr),
    (ebcdic277_sb, ebcdic277_from, ebcdic277_irr),
    (ebcdic278_sb, ebcdic278_from, ebcdic278_irr),
    (ebcdic280_sb, ebcdic280_from, ebcdic280_irr),
    (ebcdic282_sb, ebcdic282_from, ebcdic282_irr),
    (ebcdic284_sb, ebcdic284_from, ebcdic284_irr),
    (ebcdic285_sb, ebcdic285_from, ebcdic285_irr),
    (ebcdic297_sb, ebcdic297_from, ebcdic297_irr),
    (ebcdic423_sb, ebcdic423_from, ebcdic423_irr),
    (ebcdic424_sb, ebcdic424_from, ebcdic424_irr),
    (ebcdic425_sb, ebcdic425_from, ebcdic425_irr),
    (ebcdic4971_sb, ebcdic4971_from, ebcdic4971_irr),
    (ebcdic500_sb, ebcdic500_from, ebcdic500_irr),
    (ebcdic838_sb, ebcdic838_from, ebcdic838_irr),
    (ebcdic870_sb, ebcdic870_from, ebcdic870_irr),
    (ebcdic871_sb, ebcdic871_from, ebcdic871_irr),
    (ebcdic875_sb, ebcdic875_from, ebcdic875_irr),
    (ebcdic880_sb, ebcdic880_from, ebcdic880_irr),
    (ebcdic905_sb, ebcdic905_from, ebcdic905_irr),
    (ebcdic924_sb, ebcdic924_from, ebcdic924_irr)]

theorem sbGroup5_ok : ∀ t ∈ sbGroup5, t.1.safe = true ∧ chkDec t.1 t.2.1 = true ∧ chkInv t.1 t.2.2 = true := by
  unfold sbGroup5
  simp only [List.forall_mem_cons]
  exact ⟨⟨ebcdic273_safe, ebcdic273_chkDec, ebcdic273_chkInv⟩,
    ⟨ebcdic277_safe, ebcdic277_chkDec, ebcdic277_chkInv⟩,
    ⟨ebcdic278_safe, ebcdic278_chkDec, ebcdic278_chkInv⟩,
    ⟨ebcdic280_safe, ebcdic280_chkDec, ebcdic280_chkInv⟩,
    ⟨ebcdic282_safe, ebcdic282_chkDec, ebcdic282_chkInv⟩,
    ⟨ebcdic284_safe, ebcdic284_chkDec, ebcdic284_chkInv⟩,
    ⟨ebcdic285_safe, ebcdic285_chkDec, ebcdic285_chkInv⟩,
    ⟨ebcdic297_safe, ebcdic297_chkDec, ebcdic297_chkInv⟩,
    ⟨ebcdic423_safe, ebcdic423_chkDec, ebcdic423_chkInv⟩,
    ⟨ebcdic424_safe, ebcdic424_chkDec, ebcdic424_chkInv⟩,
    ⟨ebcdic425_safe, ebcdic425_chkDec, ebcdic425_chkInv⟩,
    ⟨ebcdic4971_safe, ebcdic4971_chkDec, ebcdic4971_chkInv⟩,
    ⟨ebcdic500_safe, ebcdic500_chkDec, ebcdic500_chkInv⟩,
    ⟨ebcdic838_safe, ebcdic838_chkDec, ebcdic838_chkInv⟩,
    ⟨ebcdic870_safe, ebcdic870_chkDec, ebcdic870_chkInv⟩,
    ⟨ebcdic871_safe, ebcdic871_chkDec, ebcdic871_chkInv⟩,
    ⟨ebcdic875_safe, ebcdic875_chkDec, ebcdic875_chkInv⟩,
    ⟨ebcdic880_safe, ebcdic880_chkDec, ebcdic880_chkInv⟩,
    ⟨ebcdic905_safe, ebcdic905_chkDec, ebcdic905_chkInv⟩,
    ⟨ebcdic924_safe, ebcdic924_chkDec, ebcdic924_chkInv⟩, by simp⟩

end Reiconv
