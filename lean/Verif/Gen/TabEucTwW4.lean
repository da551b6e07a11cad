import Verif.Gen.TabEucTw0

/-! Generated by `tools/gentab.py`: the table `tests/data/EUC-TW.TXT` and checks of `euc_tw_mbtowc`, `euc_tw_wctomb`
against it. -/

namespace Reiconv

theorem euc_tw_walk1_8 : chkWalk (only2 euc_tw_mbtowc 0xac 4) 0x8e 1 [euc_tw_t29, euc_tw_t30, euc_tw_t31, euc_tw_t32] = true := by
  rw [euc_tw_fm.property]; decide +kernel

theorem euc_tw_walk1_9 : chkWalk (only2 euc_tw_mbtowc 0xb0 80) 0x8e 1 [] = true := by
  rw [euc_tw_fm.property]; decide +kernel


end Reiconv
