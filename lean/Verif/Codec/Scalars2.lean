import Verif.Codec.Scalars

/-!
# The decoder programs give scalar values only
-/

namespace Reiconv

/-! ## Korean -/

theorem euc_kr_gives : M.Gives M.RetS euc_kr_mbtowc := by
  have h0 := ascii_gives
  have h1 : M.Gives M.RetS ksc5601_mbtowc := ksc5601_gives
  unfold euc_kr_mbtowc; gives

theorem cp949_gives : M.Gives M.RetS cp949_mbtowc := by
  have h0 := ascii_gives
  have h1 : M.Gives M.RetS ksc5601_mbtowc := ksc5601_gives
  have h2 : M.Gives M.RetS uhc_1_mbtowc := uhc_1_gives
  have h3 : M.Gives M.RetS uhc_2_mbtowc := uhc_2_gives
  unfold cp949_mbtowc; gives

noncomputable def leF (k v : Nat) : Bool := Nat.ble v k
theorem leF_iff {k v : Nat} : leF k v = true ↔ v ≤ k := by
  unfold leF; rw [Nat.ble_eq]

theorem johab_hangul_gives : M.Gives M.RetS johab_hangul_mbtowc := by
  have h1 : jamo_initial_index.allV (fun v => cond (leF 0x7f v) (leF 19 v) true) = true := by decide +kernel
  have h2 : jamo_medial_index.allV (fun v => cond (leF 0x7f v) (leF 21 v) true) = true := by decide +kernel
  have h3 : jamo_final_index.allV (fun v => cond (leF 0x7f v) (leF 27 v) true) = true := by decide +kernel
  have h4 : jamo_final_notinitial.allV (leF 255) = true := by decide +kernel
  have h5 : jamo_medial.allV (leF 255) = true := by decide +kernel
  have h6 : jamo_initial.allV (leF 255) = true := by decide +kernel
  have key : ∀ {v k}, cond (leF 0x7f v) (leF k v) true = true → v < 0x80 → v ≤ k := by
    intro v k h hv
    have : leF 0x7f v = true := leF_iff.2 (by omega)
    rw [this] at h
    exact leF_iff.1 h
  unfold johab_hangul_mbtowc
  refine M.gives_byte fun c1 _ => M.gives_ite (fun _ => M.gives_need (M.gives_byte fun c2 _ => M.gives_ite (fun _ => ?_)
    fun _ => trivial)) fun _ => trivial
  refine Tab.gives_rdM h1 fun i1 e1 => Tab.gives_rdM h2 fun i2 e2 => Tab.gives_rdM h3 fun i3 e3 => ?_
  refine M.gives_ite (fun hi => ?_) fun _ => trivial
  have e1 := key e1 hi.1
  have e2 := key e2 hi.2.1
  have e3 := key e3 hi.2.2
  refine M.gives_ite (fun _ => M.gives_ite (fun _ => ?_) fun _ => M.gives_ite (fun _ => ?_) fun _ => trivial) fun _ =>
    M.gives_ite (fun _ => M.gives_ite (fun _ => ?_) fun _ => trivial) fun _ => ?_
  · refine Tab.gives_rdM h4 fun j e => M.gives_ite (fun _ => ?_) fun _ => trivial
    have := leF_iff.1 e; exact .inl (by omega)
  · refine Tab.gives_rdM h5 fun j e => M.gives_ite (fun _ => ?_) fun _ => trivial
    have := leF_iff.1 e; exact .inl (by omega)
  · refine Tab.gives_rdM h6 fun j e => M.gives_ite (fun _ => ?_) fun _ => trivial
    have := leF_iff.1 e; exact .inl (by omega)
  · exact .inl (by omega)

theorem johab_gives : M.Gives M.RetS johab_mbtowc := by
  have h0 := johab_hangul_gives
  have h1 : M.Gives M.RetS ksc5601_mbtowc := ksc5601_gives
  unfold johab_mbtowc; gives

/-! ## Japanese -/

theorem euc_jp_gives : M.Gives M.RetS euc_jp_mbtowc := by
  have h0 := ascii_gives
  have h1 : M.Gives M.RetS jisx0208_mbtowc := jisx0208_gives
  have h2 : M.Gives M.RetS jisx0212_mbtowc := jisx0212_gives
  have h3 := jisx0201_gives
  unfold euc_jp_mbtowc; gives

theorem sjis_gives : M.Gives M.RetS sjis_mbtowc := by
  have h1 : M.Gives M.RetS jisx0208_mbtowc := jisx0208_gives
  have h3 := jisx0201_gives
  unfold sjis_mbtowc; gives

theorem cp932_gives : M.Gives M.RetS cp932_mbtowc := by
  have h0 := ascii_gives
  have h1 : M.Gives M.RetS jisx0208_mbtowc := jisx0208_gives
  have h2 : M.Gives M.RetS cp932ext_mbtowc := cp932ext_gives
  have h3 := jisx0201_gives
  unfold cp932_mbtowc; gives

theorem dec_kanji_gives : M.Gives M.RetS dec_kanji_mbtowc := by
  have h0 := ascii_gives
  have h1 : M.Gives M.RetS jisx0208_mbtowc := jisx0208_gives
  unfold dec_kanji_mbtowc; gives

/-! ## Chinese -/

theorem euc_cn_gives : M.Gives M.RetS euc_cn_mbtowc := by
  have h0 := ascii_gives
  have h1 : M.Gives M.RetS gb2312_mbtowc := gb2312_gives
  unfold euc_cn_mbtowc; gives

theorem gbk_tail_gives (c : Nat) : M.Gives M.RetS (gbk_tail c) := by
  have h1 : M.Gives M.RetS gbkext1_mbtowc := gbkext1_gives
  have h2 : M.Gives M.RetS gbkext2_mbtowc := gbkext2_gives
  unfold gbk_tail; gives

theorem gbk_gives : M.Gives M.RetS gbk_mbtowc := by
  have h1 : M.Gives M.RetS gb2312_mbtowc := gb2312_gives
  have h2 : M.Gives M.RetS cp936ext_mbtowc := cp936ext_gives
  unfold gbk_mbtowc; gives
  all_goals exact gbk_tail_gives _

theorem ces_gbk_gives : M.Gives M.RetS ces_gbk_mbtowc := by
  have h0 := ascii_gives
  have h1 := gbk_gives
  unfold ces_gbk_mbtowc; gives

theorem cp936_gives : M.Gives M.RetS cp936_mbtowc := by
  have h1 := ces_gbk_gives
  unfold cp936_mbtowc; gives

/-- Where a search that is not left early ends. -/
theorem bsearch_end {f : Nat → Outcome Dir} : ∀ (fuel k1 k2 k : Nat), k1 ≤ k2 →
    bsearch f fuel k1 k2 = .ok (k, false) →
    k1 ≤ k ∧ k ≤ k2 ∧ (k = k1 ∨ f (k - 1) = .ok .right) ∧ (k = k2 ∨ f k = .ok .left) := by
  intro fuel
  induction fuel with
  | zero => intro k1 k2 k _ h; cases h
  | succ n ih =>
    intro k1 k2 k hle h
    unfold bsearch at h
    by_cases hc : k1 < k2
    · rw [if_pos hc] at h
      cases hf : f ((k1 + k2) / 2) with
      | ok d =>
        rw [hf] at h
        cases d with
        | left =>
          obtain ⟨h1, h2, h3, h4⟩ := ih _ _ _ (by omega) h
          refine ⟨h1, by omega, h3, .inr ?_⟩
          rcases h4 with rfl | h4
          · exact hf
          · exact h4
        | right =>
          obtain ⟨h1, h2, h3, h4⟩ := ih _ _ _ (by omega) h
          refine ⟨by omega, h2, .inr ?_, h4⟩
          rcases h3 with rfl | h3
          · rw [Nat.add_sub_cancel]; exact hf
          · exact h3
        | stop => cases h
      | ub => rw [hf] at h; cases h
      | abort => rw [hf] at h; cases h
      | diverge => rw [hf] at h; cases h
    · rw [if_neg hc] at h
      cases h
      exact ⟨Nat.le_refl _, hle, .inl rfl, .inl (by omega)⟩

/-- In every range of `gb18030uni_charset2uni_ranges` the characters are scalar values. -/
theorem gb_ranges_scal : allF (fun k => cond
    (Nat.ble (Nat.succ (Nat.add (gb18030uni_charset2uni_ranges.getF (Nat.add (Nat.mul 2 k) 1)) (gb18030uni_ranges.getF k))) 0xd800) true
    (cond (Nat.ble 0xe000 (Nat.add (gb18030uni_charset2uni_ranges.getF (Nat.mul 2 k)) (gb18030uni_ranges.getF k)))
      (Nat.ble (Nat.succ (Nat.add (gb18030uni_charset2uni_ranges.getF (Nat.add (Nat.mul 2 k) 1)) (gb18030uni_ranges.getF k))) 0x110000)
      false)) 0 206 = true := by decide +kernel

theorem gb_ranges_len : gb18030uni_charset2uni_ranges.len = 412 ∧ gb18030uni_ranges.len = 206 ∧
    gb18030uni_charset2uni_ranges.getF 0 = 0 ∧ gb18030uni_charset2uni_ranges.getF 411 = 39419 := by decide +kernel

theorem uniDir_eq {t : Tab} {i k : Nat} (h : 2 * k + 2 < t.len) : uniDir t i k =
    .ok (if i ≤ t.getF (2 * k + 1) then .left else if i ≥ t.getF (2 * k + 2) then .right else .stop) := by
  unfold uniDir
  rw [Tab.get_fast (by omega), Tab.get_fast h]
  simp only [Outcome.bind]
  (repeat' split) <;> rfl

theorem gb_uni_gives {i : Nat} (hi : i ≤ 39419) : M.Gives M.RetS (gb_uni i) := by
  obtain ⟨l1, l2, l3, l4⟩ := gb_ranges_len
  unfold gb_uni
  cases hb : bsearch (uniDir gb18030uni_charset2uni_ranges i) 206 0 205 with
  | ub => trivial
  | abort => trivial
  | diverge => trivial
  | ok r =>
    obtain ⟨k, b⟩ := r
    simp only [Outcome.inM]
    cases b with
    | true => trivial
    | false =>
      simp only [Bool.false_eq_true, if_false]
      obtain ⟨_, h2, h3, h4⟩ := bsearch_end _ _ _ _ (by omega) hb
      have hk := gb_ranges_scal
      rw [allF_iff] at hk
      have hk := hk k (Nat.zero_le _) (by omega)
      have hlo : gb18030uni_charset2uni_ranges.getF (2 * k) ≤ i := by
        rcases h3 with rfl | h3
        · rw [l3]; omega
        · by_cases h0 : k = 0
          · subst h0; rw [l3]; omega
          · rw [uniDir_eq (by omega)] at h3
            rw [show 2 * (k - 1) + 1 = 2 * k - 1 by omega, show 2 * (k - 1) + 2 = 2 * k by omega] at h3
            split at h3
            · cases h3
            · split at h3
              · assumption
              · cases h3
      have hhi : i ≤ gb18030uni_charset2uni_ranges.getF (2 * k + 1) := by
        rcases h4 with rfl | h4
        · rw [l4]; exact hi
        · by_cases h5 : k = 205
          · subst h5; rw [l4]; exact hi
          · rw [uniDir_eq (by omega)] at h4
            split at h4
            · assumption
            · split at h4 <;> cases h4
      rw [Tab.rdM_eq (by omega)]
      show Scalar _
      unfold Scalar
      generalize gb18030uni_ranges.getF k = d at hk ⊢
      have hk : cond (Nat.ble (gb18030uni_charset2uni_ranges.getF (2 * k + 1) + d + 1) 0xd800) true
        (cond (Nat.ble 0xe000 (gb18030uni_charset2uni_ranges.getF (2 * k) + d))
          (Nat.ble (gb18030uni_charset2uni_ranges.getF (2 * k + 1) + d + 1) 0x110000) false) = true := hk
      generalize gb18030uni_charset2uni_ranges.getF (2 * k + 1) = hi2 at hk hhi
      generalize gb18030uni_charset2uni_ranges.getF (2 * k) = lo2 at hk hlo
      cases h5 : Nat.ble (hi2 + d + 1) 0xd800 <;>
        cases h6 : Nat.ble 0xe000 (lo2 + d) <;>
        rw [h5, h6] at hk <;> simp only [cond_true, cond_false, Nat.ble_eq, Bool.false_eq_true] at hk h5 h6 <;> omega

theorem gb4_gives {lo hi : Nat} {f : Nat → M MbRet} (hf : ∀ i, M.Gives M.RetS (f i)) : M.Gives M.RetS (gb4 lo hi f) := by
  unfold gb4; gives
  exact hf _

theorem gb2005_uni_gives : M.Gives M.RetS gb18030_2005_uni_mbtowc := by
  refine gb4_gives fun i => ?_
  unfold gb2005_idx; gives
  exact gb_uni_gives ‹_›

theorem gb2022_uni_gives : M.Gives M.RetS gb18030_2022_uni_mbtowc := by
  have h1 : gb18030_2022_charset2uni_pua1.allV scalF = true := by decide +kernel
  have h2 : gb18030_2022_charset2uni_pua2.allV scalF = true := by decide +kernel
  refine gb4_gives fun i => ?_
  unfold gb2022_idx
  refine M.gives_ite (fun hi => ?_) fun _ => trivial
  refine M.gives_ite (fun _ => ?_) fun _ => ?_
  · exact .inr (by omega)
  refine M.gives_ite (fun _ => ?_) fun _ => ?_
  · generalize i - 19057 = j
    refine Tab.gives_rdM h1 fun v hv => ?_
    exact M.gives_ret (M.retS_char (scalF_iff.1 hv))
  refine M.gives_ite (fun _ => ?_) fun _ => ?_
  · generalize i - 39076 = j
    refine Tab.gives_rdM h2 fun v hv => ?_
    exact M.gives_ret (M.retS_char (scalF_iff.1 hv))
  exact gb_uni_gives hi

theorem gb_user_gives : M.Gives M.RetS gb_user := by unfold gb_user; gives

theorem gb_sup_gives : M.Gives M.RetS gb_sup := by
  refine gb4_gives fun i => ?_
  gives

theorem gb18030_2005_gives : M.Gives M.RetS gb18030_2005_mbtowc := by
  have h0 := ascii_gives
  have h1 := gbk_gives
  have h2 : M.Gives M.RetS gb18030_2005_ext_mbtowc := gb18030_2005_ext_gives
  have h3 := gb2005_uni_gives
  have h4 := gb_user_gives
  have h5 := gb_sup_gives
  have h6 : M.Gives M.RetS gb18030_2005_bmp := by unfold gb18030_2005_bmp; gives
  unfold gb18030_2005_mbtowc; gives

theorem gb18030_2022_gives : M.Gives M.RetS gb18030_2022_mbtowc := by
  have h0 := ascii_gives
  have h1 := gbk_gives
  have h2 : M.Gives M.RetS gb18030_2022_ext_mbtowc := gb18030_2022_ext_gives
  have h3 := gb2022_uni_gives
  have h4 := gb_user_gives
  have h5 := gb_sup_gives
  have h6 : M.Gives M.RetS gb18030_2022_bmp := by unfold gb18030_2022_bmp; gives
  unfold gb18030_2022_mbtowc; gives

theorem isoir165_gives : M.Gives M.RetS isoir165_mbtowc := by
  have h0 := iso646_cn_gives
  have h1 : M.Gives M.RetS gb2312_mbtowc := gb2312_gives
  have h2 := isoir165ext_gives
  have h3 : M.Gives M.RetS isoir165_row2a := by unfold isoir165_row2a; gives
  have h4 : M.Gives M.RetS isoir165_rest := by unfold isoir165_rest; gives
  unfold isoir165_mbtowc; gives

/-! ## Big5 and CNS 11643 -/

theorem ces_big5_gives : M.Gives M.RetS ces_big5_mbtowc := by
  have h0 := ascii_gives
  have h1 : M.Gives M.RetS big5_mbtowc := big5_gives
  unfold ces_big5_mbtowc; gives

theorem cp950_tail_gives (c : Nat) : M.Gives M.RetS (cp950_tail c) := by
  have h1 : M.Gives M.RetS cp950ext_mbtowc := cp950ext_gives
  unfold cp950_tail; gives

theorem big5_col_byte {c2 : Nat} (h : c2 < 256) : big5_col c2 < 256 := by unfold big5_col; split <;> omega

theorem cp950_user_gives {c c2 : Nat} (hc : c < 256) (hc2 : c2 < 256) : M.Gives M.RetS (cp950_user c c2) := by
  have h1 := big5_col_byte hc2
  have h2 := cp950_tail_gives c
  unfold cp950_user; gives

theorem cp950_big5_gives {c c2 : Nat} (hc : c < 256) (hc2 : c2 < 256) : M.Gives M.RetS (cp950_big5 c c2) := by
  have h1 : M.Gives M.RetS big5_mbtowc := big5_gives
  have h2 := cp950_user_gives hc hc2
  unfold cp950_big5; gives

theorem cp950_gives : M.Gives M.RetS cp950_mbtowc := by
  have h0 := ascii_gives
  have h1 : cp950_2uni_pagea1.allV scalF = true := by decide +kernel
  unfold cp950_mbtowc
  refine M.gives_byte fun c hc => M.gives_ite (fun _ => h0) fun _ => M.gives_ite (fun _ => ?_) fun _ => trivial
  refine M.gives_need (M.gives_byte fun c2 hc2 => ?_)
  have h2 := cp950_big5_gives hc hc2
  have h3 := cp950_tail_gives c
  have h4 := big5_col_byte hc2
  gives
  exact scalF_iff.1 ‹_›

theorem big5_2003_user_gives {c c2 : Nat} (hc : c < 256) (hc2 : c2 < 256) : M.Gives M.RetS (big5_2003_user c c2) := by
  have h1 := big5_col_byte hc2
  have h2 : big5_2003_2uni_pagef9.allV scalF = true := by decide +kernel
  unfold big5_2003_user; gives
  exact scalF_iff.1 ‹_›

theorem big5_2003_c6_gives {c c2 : Nat} : M.Gives M.RetS (big5_2003_c6 c c2) := by
  have h2 : big5_2003_2uni_pagec6.allV scalF = true := by decide +kernel
  unfold big5_2003_c6; gives
  exact scalF_iff.1 ‹_›

theorem big5_2003_gives : M.Gives M.RetS big5_2003_mbtowc := by
  have h0 := ascii_gives
  have h1 : big5_2003_2uni_pagea1.allV scalF = true := by decide +kernel
  unfold big5_2003_mbtowc
  refine M.gives_byte fun c hc => M.gives_ite (fun _ => h0) fun _ => M.gives_ite (fun _ => ?_) fun _ => trivial
  refine M.gives_need (M.gives_byte fun c2 hc2 => ?_)
  have h2 : M.Gives M.RetS (big5_2003_big5 c c2) := by
    have h1 : M.Gives M.RetS big5_mbtowc := big5_gives
    have h2 := big5_2003_user_gives hc hc2
    have h3 := @big5_2003_c6_gives c c2
    unfold big5_2003_big5; gives
  have h4 := big5_col_byte hc2
  gives
  exact scalF_iff.1 ‹_›

theorem tw_four_gives (r : MbRet) (h : M.RetS r) : M.Gives M.RetS (tw_four r) := by unfold tw_four; gives

theorem euc_tw_gives : M.Gives M.RetS euc_tw_mbtowc := by
  have h0 := ascii_gives
  have h1 : M.Gives M.RetS cns11643_1_mbtowc := cns11643_1_gives
  have h2 : M.Gives M.RetS cns11643_2_mbtowc := cns11643_2_gives
  have h3 : M.Gives M.RetS cns11643_3_mbtowc := cns11643_3_gives
  have h4 : M.Gives M.RetS cns11643_4_mbtowc := cns11643_4_gives
  have h5 : M.Gives M.RetS cns11643_5_mbtowc := cns11643_5_gives
  have h6 : M.Gives M.RetS cns11643_6_mbtowc := cns11643_6_gives
  have h7 : M.Gives M.RetS cns11643_7_mbtowc := cns11643_7_gives
  have h8 : M.Gives M.RetS cns11643_15_mbtowc := cns11643_15_gives
  have h9 := tw_four_gives
  unfold euc_tw_mbtowc; gives
  all_goals exact tw_four_gives _ ‹_›

theorem dec_hanyu_gives : M.Gives M.RetS dec_hanyu_mbtowc := by
  have h0 := ascii_gives
  have h1 : M.Gives M.RetS cns11643_1_mbtowc := cns11643_1_gives
  have h2 : M.Gives M.RetS cns11643_2_mbtowc := cns11643_2_gives
  have h3 : M.Gives M.RetS cns11643_3_mbtowc := cns11643_3_gives
  have h9 := tw_four_gives
  unfold dec_hanyu_mbtowc; gives
  all_goals exact tw_four_gives _ ‹_›

/-! ## BIG5-HKSCS -/

theorem hkExt_gives : ∀ (l : List (M MbRet)), (∀ m ∈ l, M.Gives M.RetS m) → M.Gives M.RetS (hkExt l) := by
  intro l
  induction l with
  | nil => intro _; trivial
  | cons m l ih =>
    intro h
    have h1 := ih fun m' hm => h m' (List.mem_cons_of_mem _ hm)
    have h2 := h m (List.mem_cons_self ..)
    unfold hkExt; gives

theorem hk_gives {l : List (M MbRet)} (h : ∀ m ∈ l, M.Gives M.RetS m) : M.Gives M.RetS (hk_mbtowc l) := by
  have h0 := ascii_gives
  have h1 : M.Gives M.RetS big5_mbtowc := big5_gives
  have h2 := hkExt_gives l h
  unfold hk_mbtowc; gives

/-! ## JIS X 0213 -/

theorem jxPage_scal : jxPage.allV (fun p => cond (leF 0xd700 p) true (cond (Nat.ble 0xe000 p) (leF 0x10ff00 p) false)) = true := by
  decide +kernel

theorem jx_to_scal {row col v : Nat} (h : jx_to_ucs4 row col = .ok v) : Scalar v := by
  unfold jx_to_ucs4 at h
  split at h
  · cases h; exact .inl (by omega)
  next r _ =>
    split at h
    · cases hv : tabsGet jxMain (r * 94 + (col - 0x21)) with
      | ok val =>
        rw [hv] at h
        simp only [Outcome.bind_ok] at h
        by_cases hi : val >>> 8 < jxPage.len
        · rw [Tab.get_fast hi] at h
          simp only [Outcome.bind_ok, Outcome.pure_eq, Outcome.ok.injEq] at h
          have hp := jxPage_scal
          unfold Tab.allV at hp
          rw [allF_iff] at hp
          have hp := hp (val >>> 8) (Nat.zero_le _) (by omega)
          generalize jxPage.getF (val >>> 8) = p at h hp
          dsimp only at hp
          have hl : val &&& 0xff < 256 := Nat.lt_of_le_of_lt Nat.and_le_right (by omega)
          generalize val &&& 0xff = q at h hl
          have hp : Scalar (p + q) := by
            unfold Scalar
            cases h5 : leF 0xd700 p <;> cases h6 : Nat.ble 0xe000 p <;>
              rw [h5, h6] at hp <;> simp only [cond_true, cond_false, leF_iff, Nat.ble_eq, Bool.false_eq_true] at hp h5 h6 <;> omega
          subst h
          split
          · exact .inl (by omega)
          · exact hp
        · have : jxPage.get (val >>> 8) = .ub := by unfold Tab.get; rw [if_neg hi]
          rw [this] at h; cases h
      | ub => rw [hv] at h; cases h
      | abort => rw [hv] at h; cases h
      | diverge => rw [hv] at h; cases h
    · cases h; exact .inl (by omega)

theorem gives_jxToM {α : Type} {P : α → Prop} {row col : Nat} {k : Nat → M α}
    (h : ∀ v, Scalar v → (v ≤ 25 ∨ 0x80 ≤ v) → M.Gives P (k v)) : M.Gives P (jxToM row col k) := by
  have h1 : Scalar (jx_toF row col) := jx_to_scal (jx_to_fast row col)
  rw [jxToM_fast, forceN_eq]
  exact h _ h1 (jx_to_range row col)

/-- What a decoder for JIS X 0213 finds. -/
def JxS : JxRes → Prop
  | .char wc _ => Scalar wc
  | .pair v _ => v ≤ 25
  | .ilseq => True

theorem jxRes_S {v n : Nat} (h : Scalar v) (h2 : v ≤ 25 ∨ 0x80 ≤ v) : JxS (jxRes v n) := by
  unfold jxRes
  split
  · trivial
  · split
    · exact (by omega : v ≤ 25)
    · exact h

theorem jxPair_scal : ∀ v, v ≤ 25 → Scalar (jxPair v).1 ∧ Scalar (jxPair v).2 := by decide

theorem jxS_char {wc n : Nat} (h : Scalar wc) : JxS (.char wc n) := h

theorem euc_jx_gives : M.Gives JxS euc_jx := by
  unfold euc_jx
  refine M.gives_byte fun c hc => M.gives_ite (fun _ => .inl (by omega)) fun _ => M.gives_ite (fun _ => ?_) fun _ => trivial
  refine M.gives_need (M.gives_byte fun c2 hc2 => M.gives_ite (fun _ => ?_) fun _ => trivial)
  refine M.gives_ite (fun _ => M.gives_ite (fun _ => .inr (by omega)) fun _ => trivial) fun _ => M.gives_ite (fun _ => ?_) fun _ => ?_
  · exact M.gives_need (M.gives_byte fun c3 _ => gives_jxToM fun v h1 h2 => jxRes_S h1 h2)
  · exact gives_jxToM fun v h1 h2 => jxRes_S h1 h2

theorem sjx_gives : M.Gives JxS sjx := by
  unfold sjx
  refine M.gives_byte fun c hc => M.gives_ite (fun _ => ?_) fun _ => M.gives_ite (fun _ => .inr (by omega)) fun _ =>
    M.gives_ite (fun _ => ?_) fun _ => trivial
  · exact M.gives_ite (fun _ => .inl (by omega)) fun _ => M.gives_ite (fun _ => .inl (by omega)) fun _ => .inl (by omega)
  · exact M.gives_need (M.gives_byte fun c2 hc2 => M.gives_ite (fun _ => gives_jxToM fun v h1 h2 => jxRes_S h1 h2) fun _ => trivial)

theorem jxSingle_gives {m : M JxRes} (h : M.Gives JxS m) : M.Gives M.RetS (jxSingle m) := by
  refine M.gives_andThen _ h fun r hr => ?_
  cases r with
  | char wc n => exact hr
  | pair v n => trivial
  | ilseq => trivial

/-! ## Encodings with shift states -/

abbrev anyState : Nat → Prop := fun _ => True

theorem hz_gives (st : Nat) : M.Gives (M.ItemS anyState) (hz_item st) := by
  have h0 := ascii_gives
  have h1 := gb2312_gives
  unfold hz_item; gives

theorem iso2022_kr_gives (st : Nat) : M.Gives (M.ItemS anyState) (iso2022_kr_item st) := by
  have h0 := ascii_gives
  have h1 : M.Gives M.RetS ksc5601_mbtowc := ksc5601_gives
  unfold iso2022_kr_item; gives

theorem iso2022_cn_gives (st : Nat) : M.Gives (M.ItemS anyState) (iso2022_cn_item st) := by
  have h0 := ascii_gives
  have h1 := gb2312_gives
  have h2 := cns11643_1_gives
  have h3 := cns11643_2_gives
  unfold iso2022_cn_item; gives

theorem iso2022_cn_ext_gives (st : Nat) : M.Gives (M.ItemS anyState) (iso2022_cn_ext_item st) := by
  have h0 := ascii_gives
  have h1 := gb2312_gives
  have h2 := cns11643_1_gives
  have h3 := cns11643_2_gives
  have h4 := cns11643_3_gives
  have h5 := cns11643_4_gives
  have h6 := cns11643_5_gives
  have h7 := cns11643_6_gives
  have h8 := cns11643_7_gives
  have h9 := isoir165_gives
  have h10 : ∀ s1 s2 s3 s4 c2 c3, M.Gives (M.ItemS anyState) (cx_ss3 s1 s2 s3 s4 c2 c3) := by
    intro s1 s2 s3 s4 c2 c3
    unfold cx_ss3; gives
  unfold iso2022_cn_ext_item; gives
  all_goals exact h10 _ _ _ _ _ _

theorem iso2022_jp_gives (st : Nat) : M.Gives (M.ItemS anyState) (iso2022_jp_item st) := by
  have h0 := ascii_gives
  have h1 := jisx0201_gives
  have h2 := jisx0208_gives
  unfold iso2022_jp_item; gives

theorem iso2022_jp1_gives (st : Nat) : M.Gives (M.ItemS anyState) (iso2022_jp1_item st) := by
  have h0 := ascii_gives
  have h1 := jisx0201_gives
  have h2 := jisx0208_gives
  have h3 := jisx0212_gives
  unfold iso2022_jp1_item; gives

/-- Every entry of the rules of a one-byte character set is a scalar value. -/
noncomputable def rulesScal (rs : List DRule) : Bool := allF (fun b => scalC (decF rs b)) 0 256

theorem iso8859_7_gives : M.Gives M.RetS iso8859_7_m := by
  have h : rulesScal iso8859_7_d = true := by decide +kernel
  unfold rulesScal at h
  rw [allF_iff] at h
  unfold iso8859_7_m
  refine M.gives_byte fun c hc => ?_
  rw [sbDecode_fast (by decide)]
  cases ho : ofCode (decF iso8859_7_d c) with
  | none => trivial
  | some wc => exact scalC_some (h c (Nat.zero_le _) (by omega)) ho

theorem iso2022_jp2_gives (st : Nat) : M.Gives (M.ItemS anyState) (iso2022_jp2_item st) := by
  have h0 := ascii_gives
  have h1 := jisx0201_gives
  have h2 := jisx0208_gives
  have h3 := jisx0212_gives
  have h4 := gb2312_gives
  have h5 : M.Gives M.RetS ksc5601_mbtowc := ksc5601_gives
  have h6 := iso8859_1_gives
  have h7 := iso8859_7_gives
  have h8 : ∀ s1 s2 c2, M.Gives (M.ItemS anyState) (jp2_ss2 s1 s2 c2) := by
    intro s1 s2 c2
    unfold jp2_ss2; gives
  unfold iso2022_jp2_item; gives
  all_goals exact h8 _ _ _

/-- The state of ISO-2022-JP-3: the pending character is a scalar value. -/
def jp3Keeps (st : Nat) : Prop := Scalar (st >>> 3)

theorem jp3_pair : ∀ v, v ≤ 25 → jp3Keeps (((jxPair v).2 <<< 3) ||| 4) ∧ jp3Keeps (((jxPair v).2 <<< 3) ||| 5) := by
  unfold jp3Keeps; decide

theorem jp3Keeps_small {st : Nat} (h : st < 8) : jp3Keeps st := by
  unfold jp3Keeps
  rw [Nat.shiftRight_eq_div_pow]
  exact .inl (by omega)

theorem iso2022_jp3_gives (st : Nat) (hst : jp3Keeps st) : M.Gives (M.ItemS jp3Keeps) (iso2022_jp3_item st) := by
  have h0 := ascii_gives
  have h1 := jisx0201_gives
  have h2 := jisx0208_gives
  unfold iso2022_jp3_item
  refine M.gives_ite (fun _ => ?_) fun hz => ?_
  · refine ⟨hst, jp3Keeps_small ?_⟩
    exact Nat.lt_of_le_of_lt Nat.and_le_right (by omega)
  · unfold iso2022_jp3_body
    gives
    all_goals try exact jp3Keeps_small (by omega)
    refine gives_jxToM fun v hv hv2 => ?_
    show M.ItemS jp3Keeps _
    unfold jp3Code
    split
    · trivial
    · split
      · have hp := jxPair_scal v (by omega)
        have hq := jp3_pair v (by omega)
        rcases ‹st = 4 ∨ st = 5› with rfl | rfl
        · exact ⟨hp.1, hq.1⟩
        · exact ⟨hp.1, hq.2⟩
      · exact ⟨hv, hst⟩

theorem jpms_ext_gives {rs : List DRule} (hs : rulesScal rs = true) (hd : rs.all DRule.safe = true) (i : Nat) :
    M.Gives M.RetS (jpms_ext rs i) := by
  unfold rulesScal at hs
  rw [allF_iff] at hs
  have h0 : M.Gives M.RetS (sbM rs) := by
    unfold sbM
    refine M.gives_byte fun c hc => ?_
    rw [sbDecode_fast hd]
    cases ho : ofCode (decF rs c) with
    | none => trivial
    | some wc => exact scalC_some (hs c (Nat.zero_le _) (by omega)) ho
  unfold jpms_ext; gives

theorem jpms_pua_gives {c0 c1 : Nat} (h0 : 0x75 ≤ c0) (h0' : c0 ≤ 0x7e) (h1 : c1 < 256) : M.Gives M.RetS (jpms_pua c0 c1) := by
  have ht : cp932ext_2uni_pageed.allV scalF = true := by decide +kernel
  unfold Tab.allV at ht
  rw [allF_iff] at ht
  unfold jpms_pua
  refine M.gives_ite (fun _ => ?_) fun _ => .inr (by omega)
  by_cases hi : (c0 - 0x79) * 94 + (c1 - 0x21) < cp932ext_2uni_pageed.len
  · rw [Tab.get_fast hi]
    exact M.gives_ite (fun _ => .inr (by omega)) fun _ => scalF_iff.1 (ht _ (Nat.zero_le _) (by omega))
  · have : cp932ext_2uni_pageed.get ((c0 - 0x79) * 94 + (c1 - 0x21)) = .ub := by unfold Tab.get; rw [if_neg hi]
    rw [this]; trivial

theorem jpms_0208_gives : M.Gives M.RetS jpms_0208 := by
  have h1 := jisx0208_gives
  have h2 : rulesScal cp50221_0208_ext_d = true := by decide +kernel
  unfold jpms_0208; gives
  · exact jpms_ext_gives h2 cp50221_0208_ext_d_safe _
  · exact jpms_pua_gives (by omega) (by omega) (by omega)

theorem jpms_0212_gives : M.Gives M.RetS jpms_0212 := by
  have h1 := jisx0212_gives
  have h2 : rulesScal cp50221_0212_ext_d = true := by decide +kernel
  unfold jpms_0212; gives
  exact jpms_ext_gives h2 cp50221_0212_ext_d_safe _

theorem iso2022_jpms_gives (st : Nat) : M.Gives (M.ItemS anyState) (iso2022_jpms_item st) := by
  have h0 := ascii_gives
  have h1 := jisx0201_gives
  have h2 := jpms_0208_gives
  have h3 := jpms_0212_gives
  unfold iso2022_jpms_item; gives

end Reiconv
