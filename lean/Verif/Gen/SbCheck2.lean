import Verif.Gen.SbTables
import Verif.Gen.SbData2

/-!
# Checks of single-byte encodings against the reference tables

Generated by `tools/gensb.py`. Every byte and every character covered by a branch is
evaluated by the kernel.
-/

namespace Reiconv

theorem iso8859_14_safe : iso8859_14_sb.safe = true := by decide +kernel
theorem iso8859_14_chkDec : chkDec iso8859_14_sb iso8859_14_from = true := by decide +kernel
theorem iso8859_14_chkInv : chkInv iso8859_14_sb iso8859_14_irr = true := by decide +kernel

theorem iso8859_15_safe : iso8859_15_sb.safe = true := by decide +kernel
theorem iso8859_15_chkDec : chkDec iso8859_15_sb iso8859_15_from = true := by decide +kernel
theorem iso8859_15_chkInv : chkInv iso8859_15_sb iso8859_15_irr = true := by decide +kernel

theorem iso8859_16_safe : iso8859_16_sb.safe = true := by decide +kernel
theorem iso8859_16_chkDec : chkDec iso8859_16_sb iso8859_16_from = true := by decide +kernel
theorem iso8859_16_chkInv : chkInv iso8859_16_sb iso8859_16_irr = true := by decide +kernel

theorem iso8859_2_safe : iso8859_2_sb.safe = true := by decide +kernel
theorem iso8859_2_chkDec : chkDec iso8859_2_sb iso8859_2_from = true := by decide +kernel
theorem iso8859_2_chkInv : chkInv iso8859_2_sb iso8859_2_irr = true := by decide +kernel

theorem iso8859_3_safe : iso8859_3_sb.safe = true := by decide +kernel
theorem iso8859_3_chkDec : chkDec iso8859_3_sb iso8859_3_from = true := by decide +kernel
theorem iso8859_3_chkInv : chkInv iso8859_3_sb iso8859_3_irr = true := by decide +kernel

theorem iso8859_4_safe : iso8859_4_sb.safe = true := by decide +kernel
theorem iso8859_4_chkDec : chkDec iso8859_4_sb iso8859_4_from = true := by decide +kernel
theorem iso8859_4_chkInv : chkInv iso8859_4_sb iso8859_4_irr = true := by decide +kernel

theorem iso8859_5_safe : iso8859_5_sb.safe = true := by decide +kernel
theorem iso8859_5_chkDec : chkDec iso8859_5_sb iso8859_5_from = true := by decide +kernel
theorem iso8859_5_chkInv : chkInv iso8859_5_sb iso8859_5_irr = true := by decide +kernel

theorem iso8859_6_safe : iso8859_6_sb.safe = true := by decide +kernel
theorem iso8859_6_chkDec : chkDec iso8859_6_sb iso8859_6_from = true := by decide +kernel
theorem iso8859_6_chkInv : chkInv iso8859_6_sb iso8859_6_irr = true := by decide +kernel

theorem iso8859_7_safe : iso8859_7_sb.safe = true := by decide +kernel
theorem iso8859_7_chkDec : chkDec iso8859_7_sb iso8859_7_from = true := by decide +kernel
theorem iso8859_7_chkInv : chkInv iso8859_7_sb iso8859_7_irr = true := by decide +kernel

theorem iso8859_8_safe : iso8859_8_sb.safe = true := by decide +kernel
theorem iso8859_8_chkDec : chkDec iso8859_8_sb iso8859_8_from = true := by decide +kernel
theorem iso8859_8_chkInv : chkInv iso8859_8_sb iso8859_8_irr = true := by decide +kernel

theorem iso8859_9_safe : iso8859_9_sb.safe = true := by decide +kernel
theorem iso8859_9_chkDec : chkDec iso8859_9_sb iso8859_9_from = true := by decide +kernel
theorem iso8859_9_chkInv : chkInv iso8859_9_sb iso8859_9_irr = true := by decide +kernel

theorem jisx0201_safe : jisx0201_sb.safe = true := by decide +kernel
theorem jisx0201_chkDec : chkDec jisx0201_sb jisx0201_from = true := by decide +kernel
theorem jisx0201_chkInv : chkInv jisx0201_sb jisx0201_irr = true := by decide +kernel

theorem koi8_r_safe : koi8_r_sb.safe = true := by decide +kernel
theorem koi8_r_chkDec : chkDec koi8_r_sb koi8_r_from = true := by decide +kernel
theorem koi8_r_chkInv : chkInv koi8_r_sb koi8_r_irr = true := by decide +kernel

theorem koi8_ru_safe : koi8_ru_sb.safe = true := by decide +kernel
theorem koi8_ru_chkDec : chkDec koi8_ru_sb koi8_ru_from = true := by decide +kernel
theorem koi8_ru_chkInv : chkInv koi8_ru_sb koi8_ru_irr = true := by decide +kernel

theorem koi8_t_safe : koi8_t_sb.safe = true := by decide +kernel
theorem koi8_t_chkDec : chkDec koi8_t_sb koi8_t_from = true := by decide +kernel
theorem koi8_t_chkInv : chkInv koi8_t_sb koi8_t_irr = true := by decide +kernel

theorem koi8_u_safe : koi8_u_sb.safe = true := by decide +kernel
theorem koi8_u_chkDec : chkDec koi8_u_sb koi8_u_from = true := by decide +kernel
theorem koi8_u_chkInv : chkInv koi8_u_sb koi8_u_irr = true := by decide +kernel

theorem mac_arabic_safe : mac_arabic_sb.safe = true := by decide +kernel
theorem mac_arabic_chkDec : chkDec mac_arabic_sb mac_arabic_from = true := by decide +kernel
theorem mac_arabic_chkInv : chkInv mac_arabic_sb mac_arabic_irr = true := by decide +kernel

theorem mac_centraleurope_safe : mac_centraleurope_sb.safe = true := by decide +kernel
theorem mac_centraleurope_chkDec : chkDec mac_centraleurope_sb mac_centraleurope_from = true := by decide +kernel
theorem mac_centraleurope_chkInv : chkInv mac_centraleurope_sb mac_centraleurope_irr = true := by decide +kernel

theorem mac_croatian_safe : mac_croatian_sb.safe = true := by decide +kernel
theorem mac_croatian_chkDec : chkDec mac_croatian_sb mac_croatian_from = true := by decide +kernel
theorem mac_croatian_chkInv : chkInv mac_croatian_sb mac_croatian_irr = true := by decide +kernel

theorem mac_cyrillic_safe : mac_cyrillic_sb.safe = true := by decide +kernel
theorem mac_cyrillic_chkDec : chkDec mac_cyrillic_sb mac_cyrillic_from = true := by decide +kernel
theorem mac_cyrillic_chkInv : chkInv mac_cyrillic_sb mac_cyrillic_irr = true := by decide +kernel

theorem mac_greek_safe : mac_greek_sb.safe = true := by decide +kernel
theorem mac_greek_chkDec : chkDec mac_greek_sb mac_greek_from = true := by decide +kernel
theorem mac_greek_chkInv : chkInv mac_greek_sb mac_greek_irr = true := by decide +kernel

theorem mac_hebrew_safe : mac_hebrew_sb.safe = true := by decide +kernel
theorem mac_hebrew_chkDec : chkDec mac_hebrew_sb mac_hebrew_from = true := by decide +kernel
theorem mac_hebrew_chkInv : chkInv mac_hebrew_sb mac_hebrew_irr = true := by decide +kernel

theorem mac_iceland_safe : mac_iceland_sb.safe = true := by decide +kernel
theorem mac_iceland_chkDec : chkDec mac_iceland_sb mac_iceland_from = true := by decide +kernel
theorem mac_iceland_chkInv : chkInv mac_iceland_sb mac_iceland_irr = true := by decide +kernel

/-- The encodings of this file with their reference tables. -/
def sbGroup2 : List (SB × List (Nat × Nat) × List (Nat × Nat)) :=
  [(iso8859_14_sb, iso8859_14_from, iso8859_14_irr),
    (iso8859_15_sb, iso8859_15_from, iso8859_15_irr),
    (iso8859_16_sb, iso8859_16_from, iso8859_16_irr),
    (iso8859_2_sb, iso8859_2_from, iso8859_2_irr),
    (iso8859_3_sb, iso8859_3_from, iso8859_3_irr),
    (iso8859_4_sb, iso8859_4_from, iso8859_4_irr),
    (iso8859_5_sb, iso8859_5_from, iso8859_5_irr),
    (iso8859_6_sb, iso8859_6_from, iso8859_6_irr),
    (iso8859_7_sb, iso8859_7_from, iso8859_7_irr),
    (iso8859_8_sb, iso8859_8_from, iso8859_8_irr),
    (iso8859_9_sb, iso8859_9_from, iso8859_9_irr),
    (jisx0201_sb, jisx0201_from, jisx0201_irr),
    (koi8_r_sb, koi8_r_from, koi8_r_irr),
    (koi8_ru_sb, koi8_ru_from, koi8_ru_irr),
    (koi8_t_sb, koi8_t_from, koi8_t_irr),
    (koi8_u_sb, koi8_u_from, koi8_u_irr),
    (mac_arabic_sb, mac_arabic_from, mac_arabic_irr),
    (mac_centraleurope_sb, mac_centraleurope_from, mac_centraleurope_irr),
    (mac_croatian_sb, mac_croatian_from, mac_croatian_irr),
    (mac_cyrillic_sb, mac_cyrillic_from, mac_cyrillic_irr),
    (mac_greek_sb, mac_greek_from, mac_greek_irr),
    (mac_hebrew_sb, mac_hebrew_from, mac_hebrew_irr),
    (mac_iceland_sb, mac_iceland_from, mac_iceland_irr)]

theorem sbGroup2_ok : ∀ t ∈ sbGroup2, t.1.safe = true ∧ chkDec t.1 t.2.1 = true ∧ chkInv t.1 t.2.2 = true := by
  unfold sbGroup2
  simp only [List.forall_mem_cons]
  exact ⟨⟨iso8859_14_safe, iso8859_14_chkDec, iso8859_14_chkInv⟩,
    ⟨iso8859_15_safe, iso8859_15_chkDec, iso8859_15_chkInv⟩,
    ⟨iso8859_16_safe, iso8859_16_chkDec, iso8859_16_chkInv⟩,
    ⟨iso8859_2_safe, iso8859_2_chkDec, iso8859_2_chkInv⟩,
    ⟨iso8859_3_safe, iso8859_3_chkDec, iso8859_3_chkInv⟩,
    ⟨iso8859_4_safe, iso8859_4_chkDec, iso8859_4_chkInv⟩,
    ⟨iso8859_5_safe, iso8859_5_chkDec, iso8859_5_chkInv⟩,
    ⟨iso8859_6_safe, iso8859_6_chkDec, iso8859_6_chkInv⟩,
    ⟨iso8859_7_safe, iso8859_7_chkDec, iso8859_7_chkInv⟩,
    ⟨iso8859_8_safe, iso8859_8_chkDec, iso8859_8_chkInv⟩,
    ⟨iso8859_9_safe, iso8859_9_chkDec, iso8859_9_chkInv⟩,
    ⟨jisx0201_safe, jisx0201_chkDec, jisx0201_chkInv⟩,
    ⟨koi8_r_safe, koi8_r_chkDec, koi8_r_chkInv⟩,
    ⟨koi8_ru_safe, koi8_ru_chkDec, koi8_ru_chkInv⟩,
    ⟨koi8_t_safe, koi8_t_chkDec, koi8_t_chkInv⟩,
    ⟨koi8_u_safe, koi8_u_chkDec, koi8_u_chkInv⟩,
    ⟨mac_arabic_safe, mac_arabic_chkDec, mac_arabic_chkInv⟩,
    ⟨mac_centraleurope_safe, mac_centraleurope_chkDec, mac_centraleurope_chkInv⟩,
    ⟨mac_croatian_safe, mac_croatian_chkDec, mac_croatian_chkInv⟩,
    ⟨mac_cyrillic_safe, mac_cyrillic_chkDec, mac_cyrillic_chkInv⟩,
    ⟨mac_greek_safe, mac_greek_chkDec, mac_greek_chkInv⟩,
    ⟨mac_hebrew_safe, mac_hebrew_chkDec, mac_hebrew_chkInv⟩,
    ⟨mac_iceland_safe, mac_iceland_chkDec, mac_iceland_chkInv⟩, by simp⟩

end Reiconv
