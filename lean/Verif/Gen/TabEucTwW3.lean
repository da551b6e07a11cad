import Verif.Gen.TabEucTw0

/-! Generated by `tools/gentab.py`: the table `tests/data/EUC-TW.TXT` and checks of `euc_tw_mbtowc`, `euc_tw_wctomb`
against it. -/

namespace Reiconv

theorem euc_tw_walk1_6 : chkWalk (only2 euc_tw_mbtowc 0xa7 1) 0x8e 1 [euc_tw_t25, euc_tw_t26, euc_tw_t27, euc_tw_t28] = true := by
  rw [euc_tw_fm.property]; decide +kernel

theorem euc_tw_walk1_7 : chkWalk (only2 euc_tw_mbtowc 0xa8 4) 0x8e 1 [] = true := by
  rw [euc_tw_fm.property]; decide +kernel


end Reiconv
