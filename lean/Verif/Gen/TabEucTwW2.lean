import Verif.Gen.TabEucTw0

/-! Generated by `tools/gentab.py`: the table `tests/data/EUC-TW.TXT` and checks of `euc_tw_mbtowc`, `euc_tw_wctomb`
against it. -/

namespace Reiconv

theorem euc_tw_walk1_4 : chkWalk (only2 euc_tw_mbtowc 0xa5 1) 0x8e 1 [euc_tw_t16, euc_tw_t17, euc_tw_t18, euc_tw_t19, euc_tw_t20] = true := by
  rw [euc_tw_fm.property]; decide +kernel

theorem euc_tw_walk1_5 : chkWalk (only2 euc_tw_mbtowc 0xa6 1) 0x8e 1 [euc_tw_t21, euc_tw_t22, euc_tw_t23, euc_tw_t24] = true := by
  rw [euc_tw_fm.property]; decide +kernel


end Reiconv
