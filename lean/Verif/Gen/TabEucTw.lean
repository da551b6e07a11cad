import Verif.Gen.TabEucTwW1
import Verif.Gen.TabEucTwW2
import Verif.Gen.TabEucTwW3
import Verif.Gen.TabEucTwW4
import Verif.Gen.TabEucTwR
import Verif.Gen.TabEucTwS

/-! Generated by `tools/gentab.py`: the table `tests/data/EUC-TW.TXT` and checks of `euc_tw_mbtowc`, `euc_tw_wctomb`
against it. -/

namespace Reiconv

theorem euc_tw_walk1 : PieceOK euc_tw_mbtowc (0x8e, 1, pieceTabs euc_tw_parts1) :=
  walk_parts euc_tw_good (by decide) (all_cons euc_tw_walk1_0 (all_cons euc_tw_walk1_1 (all_cons euc_tw_walk1_2 (all_cons euc_tw_walk1_3 (all_cons euc_tw_walk1_4 (all_cons euc_tw_walk1_5 (all_cons euc_tw_walk1_6 (all_cons euc_tw_walk1_7 (all_cons euc_tw_walk1_8 (all_cons euc_tw_walk1_9 (all_nil)))))))))))

theorem euc_tw_chkEx : chkEx euc_tw_mbtowc euc_tw_wctomb euc_tw_ex = true := by
  rw [euc_tw_fm.property, euc_tw_fw.property]; decide +kernel

theorem euc_tw_cover : coverFrom 0 euc_tw_pieces = true := by decide

theorem euc_tw_walks : ∀ p ∈ euc_tw_pieces, PieceOK euc_tw_mbtowc p := by
  exact all_cons ((chkWalk_piece euc_tw_good euc_tw_walk0)) (all_cons euc_tw_walk1 (all_cons ((chkWalk_piece euc_tw_good euc_tw_walk2)) (all_cons ((chkWalk_piece euc_tw_good euc_tw_walk3)) (all_cons ((chkWalk_piece euc_tw_good euc_tw_walk4)) (all_nil)))))

theorem euc_tw_allRows : ∀ p ∈ euc_tw_dups, chkRows euc_tw_wctomb p.1 p.2 = true := by
  exact all_cons euc_tw_t0_rows (all_cons euc_tw_t1_rows (all_cons euc_tw_t2_rows (all_cons euc_tw_t3_rows (all_cons euc_tw_t4_rows (all_cons euc_tw_t5_rows (all_cons euc_tw_t6_rows (all_cons euc_tw_t7_rows (all_cons euc_tw_t8_rows (all_cons euc_tw_t9_rows (all_cons euc_tw_t10_rows (all_cons euc_tw_t11_rows (all_cons euc_tw_t12_rows (all_cons euc_tw_t13_rows (all_cons euc_tw_t14_rows (all_cons euc_tw_t15_rows (all_cons euc_tw_t16_rows (all_cons euc_tw_t17_rows (all_cons euc_tw_t18_rows (all_cons euc_tw_t19_rows (all_cons euc_tw_t20_rows (all_cons euc_tw_t21_rows (all_cons euc_tw_t22_rows (all_cons euc_tw_t23_rows (all_cons euc_tw_t24_rows (all_cons euc_tw_t25_rows (all_cons euc_tw_t26_rows (all_cons euc_tw_t27_rows (all_cons euc_tw_t28_rows (all_cons euc_tw_t29_rows (all_cons euc_tw_t30_rows (all_cons euc_tw_t31_rows (all_cons euc_tw_t32_rows (all_cons euc_tw_t33_rows (all_cons euc_tw_t34_rows (all_cons euc_tw_t35_rows (all_cons euc_tw_t36_rows (all_nil)))))))))))))))))))))))))))))))))))))

theorem euc_tw_sweeps : ∀ r ∈ euc_tw_ranges, cntSweep euc_tw_wctomb r.1 r.2.1 ≤ r.2.2 := by
  exact all_cons ((Nat.le_of_eq euc_tw_sweep0)) (all_cons ((Nat.le_of_eq euc_tw_sweep1)) (all_cons ((Nat.le_of_eq euc_tw_sweep2)) (all_cons ((Nat.le_of_eq euc_tw_sweep3)) (all_cons ((Nat.le_of_eq euc_tw_sweep4)) (all_cons ((Nat.le_of_eq euc_tw_sweep5)) (all_cons ((Nat.le_of_eq euc_tw_sweep6)) (all_cons ((Nat.le_of_eq euc_tw_sweep7)) (all_cons ((Nat.le_of_eq euc_tw_sweep8)) (all_cons ((Nat.le_of_eq euc_tw_sweep9)) (all_cons ((Nat.le_of_eq euc_tw_sweep10)) (all_cons ((Nat.le_of_eq euc_tw_sweep11)) (all_cons ((Nat.le_of_eq euc_tw_sweep12)) (all_cons ((Nat.le_of_eq euc_tw_sweep13)) (all_cons ((Nat.le_of_eq euc_tw_sweep14)) (all_cons ((Nat.le_of_eq euc_tw_sweep15)) (all_cons ((Nat.le_of_eq euc_tw_sweep16)) (all_cons ((Nat.le_of_eq euc_tw_sweep17)) (all_cons ((Nat.le_of_eq euc_tw_sweep18)) (all_cons ((Nat.le_of_eq euc_tw_sweep19)) (all_nil))))))))))))))))))))

theorem euc_tw_outside (wc : Nat) (h : (euc_tw_wctomb wc).res ≠ none) :
    ∃ r ∈ euc_tw_ranges, r.1 ≤ wc ∧ wc < r.1 + r.2.1 := by
  apply Classical.byContradiction
  intro hc
  have hn : ∀ r ∈ euc_tw_ranges, ¬ (r.1 ≤ wc ∧ wc < r.1 + r.2.1) := fun r hr h => hc ⟨r, hr, h⟩
  have h_cns11643_inv : cns11643_inv_enc.encF wc = 0 := CsEnc.outside (e := cns11643_inv_enc) (rs := euc_tw_ranges) (by decide) hn
  simp only [euc_tw_ranges, List.forall_mem_cons] at hn
  apply h
  simp only [euc_tw_wctomb, W.on_room_iluni3, CsEnc.zero3 cns11643_inv_enc_safe h_cns11643_inv]
  wnone

theorem euc_tw_table : TableOK euc_tw_mbtowc euc_tw_wctomb (tableOf (pieceTabs euc_tw_pieces)) euc_tw_irr :=
  table_ok' euc_tw_good (fun wc => W.fits (euc_tw_wgood wc)) euc_tw_cover euc_tw_walks rfl euc_tw_allRows euc_tw_chkEx (by decide)
    euc_tw_sweeps (by decide) euc_tw_outside

theorem euc_tw_chkAscii : chkAscii euc_tw_mbtowc euc_tw_wctomb = true := by
  rw [euc_tw_fm.property, euc_tw_fw.property]; decide +kernel

theorem euc_tw_ascii : ∀ p ∈ asciiPairs, p ∈ tableOf (pieceTabs euc_tw_pieces) ∧ p ∉ euc_tw_irr :=
  euc_tw_table.ascii euc_tw_good (fun wc => W.fits (euc_tw_wgood wc)) euc_tw_chkAscii

end Reiconv
