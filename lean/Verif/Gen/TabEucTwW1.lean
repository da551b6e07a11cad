import Verif.Gen.TabEucTw0

/-! Generated by `tools/gentab.py`: the table `tests/data/EUC-TW.TXT` and checks of `euc_tw_mbtowc`, `euc_tw_wctomb`
against it. -/

namespace Reiconv

theorem euc_tw_walk0 : chkWalk euc_tw_mbtowc 0x0 142 [euc_tw_t0] = true := by
  rw [euc_tw_fm.property]; decide +kernel

theorem euc_tw_walk1_0 : chkWalk (only2 euc_tw_mbtowc 0x0 162) 0x8e 1 [euc_tw_t1, euc_tw_t2, euc_tw_t3] = true := by
  rw [euc_tw_fm.property]; decide +kernel

theorem euc_tw_walk1_1 : chkWalk (only2 euc_tw_mbtowc 0xa2 1) 0x8e 1 [euc_tw_t4, euc_tw_t5, euc_tw_t6, euc_tw_t7] = true := by
  rw [euc_tw_fm.property]; decide +kernel

theorem euc_tw_walk1_2 : chkWalk (only2 euc_tw_mbtowc 0xa3 1) 0x8e 1 [euc_tw_t8, euc_tw_t9, euc_tw_t10, euc_tw_t11] = true := by
  rw [euc_tw_fm.property]; decide +kernel

theorem euc_tw_walk1_3 : chkWalk (only2 euc_tw_mbtowc 0xa4 1) 0x8e 1 [euc_tw_t12, euc_tw_t13, euc_tw_t14, euc_tw_t15] = true := by
  rw [euc_tw_fm.property]; decide +kernel

theorem euc_tw_walk2 : chkWalk euc_tw_mbtowc 0x8f 68 [euc_tw_t33] = true := by
  rw [euc_tw_fm.property]; decide +kernel

theorem euc_tw_walk3 : chkWalk euc_tw_mbtowc 0xd3 23 [euc_tw_t34, euc_tw_t35] = true := by
  rw [euc_tw_fm.property]; decide +kernel

theorem euc_tw_walk4 : chkWalk euc_tw_mbtowc 0xea 22 [euc_tw_t36] = true := by
  rw [euc_tw_fm.property]; decide +kernel


end Reiconv
