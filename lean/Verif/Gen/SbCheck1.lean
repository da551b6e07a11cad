import Verif.Gen.SbTables
import Verif.Gen.SbData1

/-!
# Checks of single-byte encodings against the reference tables

Generated by `tools/gensb.py`. Every byte and every character covered by a branch is
evaluated by the kernel.
-/

namespace Reiconv

theorem cp853_safe : cp853_sb.safe = true := by decide +kernel
theorem cp853_chkDec : chkDec cp853_sb cp853_from = true := by decide +kernel
theorem cp853_chkInv : chkInv cp853_sb cp853_irr = true := by decide +kernel

theorem cp855_safe : cp855_sb.safe = true := by decide +kernel
theorem cp855_chkDec : chkDec cp855_sb cp855_from = true := by decide +kernel
theorem cp855_chkInv : chkInv cp855_sb cp855_irr = true := by decide +kernel

theorem cp856_safe : cp856_sb.safe = true := by decide +kernel
theorem cp856_chkDec : chkDec cp856_sb cp856_from = true := by decide +kernel
theorem cp856_chkInv : chkInv cp856_sb cp856_irr = true := by decide +kernel

theorem cp857_safe : cp857_sb.safe = true := by decide +kernel
theorem cp857_chkDec : chkDec cp857_sb cp857_from = true := by decide +kernel
theorem cp857_chkInv : chkInv cp857_sb cp857_irr = true := by decide +kernel

theorem cp858_safe : cp858_sb.safe = true := by decide +kernel
theorem cp858_chkDec : chkDec cp858_sb cp858_from = true := by decide +kernel
theorem cp858_chkInv : chkInv cp858_sb cp858_irr = true := by decide +kernel

theorem cp860_safe : cp860_sb.safe = true := by decide +kernel
theorem cp860_chkDec : chkDec cp860_sb cp860_from = true := by decide +kernel
theorem cp860_chkInv : chkInv cp860_sb cp860_irr = true := by decide +kernel

theorem cp861_safe : cp861_sb.safe = true := by decide +kernel
theorem cp861_chkDec : chkDec cp861_sb cp861_from = true := by decide +kernel
theorem cp861_chkInv : chkInv cp861_sb cp861_irr = true := by decide +kernel

theorem cp862_safe : cp862_sb.safe = true := by decide +kernel
theorem cp862_chkDec : chkDec cp862_sb cp862_from = true := by decide +kernel
theorem cp862_chkInv : chkInv cp862_sb cp862_irr = true := by decide +kernel

theorem cp863_safe : cp863_sb.safe = true := by decide +kernel
theorem cp863_chkDec : chkDec cp863_sb cp863_from = true := by decide +kernel
theorem cp863_chkInv : chkInv cp863_sb cp863_irr = true := by decide +kernel

theorem cp864_safe : cp864_sb.safe = true := by decide +kernel
theorem cp864_chkDec : chkDec cp864_sb cp864_from = true := by decide +kernel
theorem cp864_chkInv : chkInv cp864_sb cp864_irr = true := by decide +kernel

theorem cp865_safe : cp865_sb.safe = true := by decide +kernel
theorem cp865_chkDec : chkDec cp865_sb cp865_from = true := by decide +kernel
theorem cp865_chkInv : chkInv cp865_sb cp865_irr = true := by decide +kernel

theorem cp866_safe : cp866_sb.safe = true := by decide +kernel
theorem cp866_chkDec : chkDec cp866_sb cp866_from = true := by decide +kernel
theorem cp866_chkInv : chkInv cp866_sb cp866_irr = true := by decide +kernel

theorem cp869_safe : cp869_sb.safe = true := by decide +kernel
theorem cp869_chkDec : chkDec cp869_sb cp869_from = true := by decide +kernel
theorem cp869_chkInv : chkInv cp869_sb cp869_irr = true := by decide +kernel

theorem cp874_safe : cp874_sb.safe = true := by decide +kernel
theorem cp874_chkDec : chkDec cp874_sb cp874_from = true := by decide +kernel
theorem cp874_chkInv : chkInv cp874_sb cp874_irr = true := by decide +kernel

theorem cp922_safe : cp922_sb.safe = true := by decide +kernel
theorem cp922_chkDec : chkDec cp922_sb cp922_from = true := by decide +kernel
theorem cp922_chkInv : chkInv cp922_sb cp922_irr = true := by decide +kernel

theorem georgian_academy_safe : georgian_academy_sb.safe = true := by decide +kernel
theorem georgian_academy_chkDec : chkDec georgian_academy_sb georgian_academy_from = true := by decide +kernel
theorem georgian_academy_chkInv : chkInv georgian_academy_sb georgian_academy_irr = true := by decide +kernel

theorem georgian_ps_safe : georgian_ps_sb.safe = true := by decide +kernel
theorem georgian_ps_chkDec : chkDec georgian_ps_sb georgian_ps_from = true := by decide +kernel
theorem georgian_ps_chkInv : chkInv georgian_ps_sb georgian_ps_irr = true := by decide +kernel

theorem hp_roman8_safe : hp_roman8_sb.safe = true := by decide +kernel
theorem hp_roman8_chkDec : chkDec hp_roman8_sb hp_roman8_from = true := by decide +kernel
theorem hp_roman8_chkInv : chkInv hp_roman8_sb hp_roman8_irr = true := by decide +kernel

theorem iso646_cn_safe : iso646_cn_sb.safe = true := by decide +kernel
theorem iso646_cn_chkDec : chkDec iso646_cn_sb iso646_cn_from = true := by decide +kernel
theorem iso646_cn_chkInv : chkInv iso646_cn_sb iso646_cn_irr = true := by decide +kernel

theorem iso646_jp_safe : iso646_jp_sb.safe = true := by decide +kernel
theorem iso646_jp_chkDec : chkDec iso646_jp_sb iso646_jp_from = true := by decide +kernel
theorem iso646_jp_chkInv : chkInv iso646_jp_sb iso646_jp_irr = true := by decide +kernel

theorem iso8859_10_safe : iso8859_10_sb.safe = true := by decide +kernel
theorem iso8859_10_chkDec : chkDec iso8859_10_sb iso8859_10_from = true := by decide +kernel
theorem iso8859_10_chkInv : chkInv iso8859_10_sb iso8859_10_irr = true := by decide +kernel

theorem iso8859_11_safe : iso8859_11_sb.safe = true := by decide +kernel
theorem iso8859_11_chkDec : chkDec iso8859_11_sb iso8859_11_from = true := by decide +kernel
theorem iso8859_11_chkInv : chkInv iso8859_11_sb iso8859_11_irr = true := by decide +kernel

theorem iso8859_13_safe : iso8859_13_sb.safe = true := by decide +kernel
theorem iso8859_13_chkDec : chkDec iso8859_13_sb iso8859_13_from = true := by decide +kernel
theorem iso8859_13_chkInv : chkInv iso8859_13_sb iso8859_13_irr = true := by decide +kernel

/-- The encodings of this file with their reference tables. -/
def sbGroup1 : List (SB × List (Nat × Nat) × List (Nat × Nat)) :=
  [(cp853_sb, cp853_from, cp853_irr),
    (cp855_sb, cp855_from, cp855_irr),
    (cp856_sb, cp856_from, cp856_irr),
    (cp857_sb, cp857_from, cp857_irr),
    (cp858_sb, cp858_from, cp858_irr),
    (cp860_sb, cp860_from, cp860_irr),
    (cp861_sb, cp861_from, cp861_irr),
    (cp862_sb, cp862_from, cp862_irr),
    (cp863_sb, cp863_from, cp863_irr),
    (cp864_sb, cp864_from, cp864_irr),
    (cp865_sb, cp865_from, cp865_irr),
    (cp866_sb, cp866_from, cp866_irr),
    (cp869_sb, cp869_from, cp869_irr),
    (cp874_sb, cp874_from, cp874_irr),
    (cp922_sb, cp922_from, cp922_irr),
    (georgian_academy_sb, georgian_academy_from, georgian_academy_irr),
    (georgian_ps_sb, georgian_ps_from, georgian_ps_irr),
    (hp_roman8_sb, hp_roman8_from, hp_roman8_irr),
    (iso646_cn_sb, iso646_cn_from, iso646_cn_irr),
    (iso646_jp_sb, iso646_jp_from, iso646_jp_irr),
    (iso8859_10_sb, iso8859_10_from, iso8859_10_irr),
    (iso8859_11_sb, iso8859_11_from, iso8859_11_irr),
    (iso8859_13_sb, iso8859_13_from, iso8859_13_irr)]

theorem sbGroup1_ok : ∀ t ∈ sbGroup1, t.1.safe = true ∧ chkDec t.1 t.2.1 = true ∧ chkInv t.1 t.2.2 = true := by
  unfold sbGroup1
  simp only [List.forall_mem_cons]
  exact ⟨⟨cp853_safe, cp853_chkDec, cp853_chkInv⟩,
    ⟨cp855_safe, cp855_chkDec, cp855_chkInv⟩,
    ⟨cp856_safe, cp856_chkDec, cp856_chkInv⟩,
    ⟨cp857_safe, cp857_chkDec, cp857_chkInv⟩,
    ⟨cp858_safe, cp858_chkDec, cp858_chkInv⟩,
    ⟨cp860_safe, cp860_chkDec, cp860_chkInv⟩,
    ⟨cp861_safe, cp861_chkDec, cp861_chkInv⟩,
    ⟨cp862_safe, cp862_chkDec, cp862_chkInv⟩,
    ⟨cp863_safe, cp863_chkDec, cp863_chkInv⟩,
    ⟨cp864_safe, cp864_chkDec, cp864_chkInv⟩,
    ⟨cp865_safe, cp865_chkDec, cp865_chkInv⟩,
    ⟨cp866_safe, cp866_chkDec, cp866_chkInv⟩,
    ⟨cp869_safe, cp869_chkDec, cp869_chkInv⟩,
    ⟨cp874_safe, cp874_chkDec, cp874_chkInv⟩,
    ⟨cp922_safe, cp922_chkDec, cp922_chkInv⟩,
    ⟨georgian_academy_safe, georgian_academy_chkDec, georgian_academy_chkInv⟩,
    ⟨georgian_ps_safe, georgian_ps_chkDec, georgian_ps_chkInv⟩,
    ⟨hp_roman8_safe, hp_roman8_chkDec, hp_roman8_chkInv⟩,
    ⟨iso646_cn_safe, iso646_cn_chkDec, iso646_cn_chkInv⟩,
    ⟨iso646_jp_safe, iso646_jp_chkDec, iso646_jp_chkInv⟩,
    ⟨iso8859_10_safe, iso8859_10_chkDec, iso8859_10_chkInv⟩,
    ⟨iso8859_11_safe, iso8859_11_chkDec, iso8859_11_chkInv⟩,
    ⟨iso8859_13_safe, iso8859_13_chkDec, iso8859_13_chkInv⟩, by simp⟩

end Reiconv
