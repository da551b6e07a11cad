import Verif.Gen.TabEucTw0

/-! Generated by `tools/gentab.py`: the table `tests/data/EUC-TW.TXT` and checks of `euc_tw_mbtowc`, `euc_tw_wctomb`
against it. -/

namespace Reiconv

theorem euc_tw_sweep0 : cntSweep euc_tw_wctomb 0x0 256 = 134 := by
  rw [euc_tw_fw.property]; decide +kernel

theorem euc_tw_sweep1 : cntSweep euc_tw_wctomb 0x200 464 = 53 := by
  rw [euc_tw_fw.property]; decide +kernel

theorem euc_tw_sweep2 : cntSweep euc_tw_wctomb 0x2000 704 = 64 := by
  rw [euc_tw_fw.property]; decide +kernel

theorem euc_tw_sweep3 : cntSweep euc_tw_wctomb 0x2400 592 = 113 := by
  rw [euc_tw_fw.property]; decide +kernel

theorem euc_tw_sweep4 : cntSweep euc_tw_wctomb 0x3000 6000 = 4479 := by
  rw [euc_tw_fw.property]; decide +kernel

theorem euc_tw_sweep5 : cntSweep euc_tw_wctomb 0x4770 6000 = 5444 := by
  rw [euc_tw_fw.property]; decide +kernel

theorem euc_tw_sweep6 : cntSweep euc_tw_wctomb 0x5ee0 6000 = 5558 := by
  rw [euc_tw_fw.property]; decide +kernel

theorem euc_tw_sweep7 : cntSweep euc_tw_wctomb 0x7650 6000 = 5223 := by
  rw [euc_tw_fw.property]; decide +kernel

theorem euc_tw_sweep8 : cntSweep euc_tw_wctomb 0x8dc0 4592 = 3648 := by
  rw [euc_tw_fw.property]; decide +kernel

theorem euc_tw_sweep9 : cntSweep euc_tw_wctomb 0xfa00 48 = 1 := by
  rw [euc_tw_fw.property]; decide +kernel

theorem euc_tw_sweep10 : cntSweep euc_tw_wctomb 0xfe00 496 = 140 := by
  rw [euc_tw_fw.property]; decide +kernel

theorem euc_tw_sweep11 : cntSweep euc_tw_wctomb 0x20000 6000 = 3891 := by
  rw [euc_tw_fw.property]; decide +kernel

theorem euc_tw_sweep12 : cntSweep euc_tw_wctomb 0x21770 6000 = 4124 := by
  rw [euc_tw_fw.property]; decide +kernel

theorem euc_tw_sweep13 : cntSweep euc_tw_wctomb 0x22ee0 6000 = 4192 := by
  rw [euc_tw_fw.property]; decide +kernel

theorem euc_tw_sweep14 : cntSweep euc_tw_wctomb 0x24650 6000 = 4129 := by
  rw [euc_tw_fw.property]; decide +kernel

theorem euc_tw_sweep15 : cntSweep euc_tw_wctomb 0x25dc0 6000 = 4563 := by
  rw [euc_tw_fw.property]; decide +kernel

theorem euc_tw_sweep16 : cntSweep euc_tw_wctomb 0x27530 6000 = 4377 := by
  rw [euc_tw_fw.property]; decide +kernel

theorem euc_tw_sweep17 : cntSweep euc_tw_wctomb 0x28ca0 6000 = 4364 := by
  rw [euc_tw_fw.property]; decide +kernel

theorem euc_tw_sweep18 : cntSweep euc_tw_wctomb 0x2a410 720 = 537 := by
  rw [euc_tw_fw.property]; decide +kernel

theorem euc_tw_sweep19 : cntSweep euc_tw_wctomb 0x2f800 544 = 536 := by
  rw [euc_tw_fw.property]; decide +kernel


end Reiconv
