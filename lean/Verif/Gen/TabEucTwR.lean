import Verif.Gen.TabEucTw0

/-! Generated by `tools/gentab.py`: the table `tests/data/EUC-TW.TXT` and checks of `euc_tw_mbtowc`, `euc_tw_wctomb`
against it. -/

namespace Reiconv

theorem euc_tw_t0_rows : chkRows euc_tw_wctomb euc_tw_t0 euc_tw_d0 = true := by
  rw [euc_tw_fw.property]; decide +kernel

theorem euc_tw_t1_rows : chkRows euc_tw_wctomb euc_tw_t1 euc_tw_d1 = true := by
  rw [euc_tw_fw.property]; decide +kernel

theorem euc_tw_t2_rows : chkRows euc_tw_wctomb euc_tw_t2 euc_tw_d2 = true := by
  rw [euc_tw_fw.property]; decide +kernel

theorem euc_tw_t3_rows : chkRows euc_tw_wctomb euc_tw_t3 euc_tw_d3 = true := by
  rw [euc_tw_fw.property]; decide +kernel

theorem euc_tw_t4_rows : chkRows euc_tw_wctomb euc_tw_t4 euc_tw_d4 = true := by
  rw [euc_tw_fw.property]; decide +kernel

theorem euc_tw_t5_rows : chkRows euc_tw_wctomb euc_tw_t5 euc_tw_d5 = true := by
  rw [euc_tw_fw.property]; decide +kernel

theorem euc_tw_t6_rows : chkRows euc_tw_wctomb euc_tw_t6 euc_tw_d6 = true := by
  rw [euc_tw_fw.property]; decide +kernel

theorem euc_tw_t7_rows : chkRows euc_tw_wctomb euc_tw_t7 euc_tw_d7 = true := by
  rw [euc_tw_fw.property]; decide +kernel

theorem euc_tw_t8_rows : chkRows euc_tw_wctomb euc_tw_t8 euc_tw_d8 = true := by
  rw [euc_tw_fw.property]; decide +kernel

theorem euc_tw_t9_rows : chkRows euc_tw_wctomb euc_tw_t9 euc_tw_d9 = true := by
  rw [euc_tw_fw.property]; decide +kernel

theorem euc_tw_t10_rows : chkRows euc_tw_wctomb euc_tw_t10 euc_tw_d10 = true := by
  rw [euc_tw_fw.property]; decide +kernel

theorem euc_tw_t11_rows : chkRows euc_tw_wctomb euc_tw_t11 euc_tw_d11 = true := by
  rw [euc_tw_fw.property]; decide +kernel

theorem euc_tw_t12_rows : chkRows euc_tw_wctomb euc_tw_t12 euc_tw_d12 = true := by
  rw [euc_tw_fw.property]; decide +kernel

theorem euc_tw_t13_rows : chkRows euc_tw_wctomb euc_tw_t13 euc_tw_d13 = true := by
  rw [euc_tw_fw.property]; decide +kernel

theorem euc_tw_t14_rows : chkRows euc_tw_wctomb euc_tw_t14 euc_tw_d14 = true := by
  rw [euc_tw_fw.property]; decide +kernel

theorem euc_tw_t15_rows : chkRows euc_tw_wctomb euc_tw_t15 euc_tw_d15 = true := by
  rw [euc_tw_fw.property]; decide +kernel

theorem euc_tw_t16_rows : chkRows euc_tw_wctomb euc_tw_t16 euc_tw_d16 = true := by
  rw [euc_tw_fw.property]; decide +kernel

theorem euc_tw_t17_rows : chkRows euc_tw_wctomb euc_tw_t17 euc_tw_d17 = true := by
  rw [euc_tw_fw.property]; decide +kernel

theorem euc_tw_t18_rows : chkRows euc_tw_wctomb euc_tw_t18 euc_tw_d18 = true := by
  rw [euc_tw_fw.property]; decide +kernel

theorem euc_tw_t19_rows : chkRows euc_tw_wctomb euc_tw_t19 euc_tw_d19 = true := by
  rw [euc_tw_fw.property]; decide +kernel

theorem euc_tw_t20_rows : chkRows euc_tw_wctomb euc_tw_t20 euc_tw_d20 = true := by
  rw [euc_tw_fw.property]; decide +kernel

theorem euc_tw_t21_rows : chkRows euc_tw_wctomb euc_tw_t21 euc_tw_d21 = true := by
  rw [euc_tw_fw.property]; decide +kernel

theorem euc_tw_t22_rows : chkRows euc_tw_wctomb euc_tw_t22 euc_tw_d22 = true := by
  rw [euc_tw_fw.property]; decide +kernel

theorem euc_tw_t23_rows : chkRows euc_tw_wctomb euc_tw_t23 euc_tw_d23 = true := by
  rw [euc_tw_fw.property]; decide +kernel

theorem euc_tw_t24_rows : chkRows euc_tw_wctomb euc_tw_t24 euc_tw_d24 = true := by
  rw [euc_tw_fw.property]; decide +kernel

theorem euc_tw_t25_rows : chkRows euc_tw_wctomb euc_tw_t25 euc_tw_d25 = true := by
  rw [euc_tw_fw.property]; decide +kernel

theorem euc_tw_t26_rows : chkRows euc_tw_wctomb euc_tw_t26 euc_tw_d26 = true := by
  rw [euc_tw_fw.property]; decide +kernel

theorem euc_tw_t27_rows : chkRows euc_tw_wctomb euc_tw_t27 euc_tw_d27 = true := by
  rw [euc_tw_fw.property]; decide +kernel

theorem euc_tw_t28_rows : chkRows euc_tw_wctomb euc_tw_t28 euc_tw_d28 = true := by
  rw [euc_tw_fw.property]; decide +kernel

theorem euc_tw_t29_rows : chkRows euc_tw_wctomb euc_tw_t29 euc_tw_d29 = true := by
  rw [euc_tw_fw.property]; decide +kernel

theorem euc_tw_t30_rows : chkRows euc_tw_wctomb euc_tw_t30 euc_tw_d30 = true := by
  rw [euc_tw_fw.property]; decide +kernel

theorem euc_tw_t31_rows : chkRows euc_tw_wctomb euc_tw_t31 euc_tw_d31 = true := by
  rw [euc_tw_fw.property]; decide +kernel

theorem euc_tw_t32_rows : chkRows euc_tw_wctomb euc_tw_t32 euc_tw_d32 = true := by
  rw [euc_tw_fw.property]; decide +kernel

theorem euc_tw_t33_rows : chkRows euc_tw_wctomb euc_tw_t33 euc_tw_d33 = true := by
  rw [euc_tw_fw.property]; decide +kernel

theorem euc_tw_t34_rows : chkRows euc_tw_wctomb euc_tw_t34 euc_tw_d34 = true := by
  rw [euc_tw_fw.property]; decide +kernel

theorem euc_tw_t35_rows : chkRows euc_tw_wctomb euc_tw_t35 euc_tw_d35 = true := by
  rw [euc_tw_fw.property]; decide +kernel

theorem euc_tw_t36_rows : chkRows euc_tw_wctomb euc_tw_t36 euc_tw_d36 = true := by
  rw [euc_tw_fw.property]; decide +kernel


end Reiconv
