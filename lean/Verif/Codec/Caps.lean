import Verif.Props.Kinds
import Verif.Props.Stream

/-!
# How many bytes the encoders store for a character
-/

namespace Reiconv

/-! ## Encoder programs -/

/-- At most `K` bytes are stored. -/
def W.Cap (K : Nat) (w : W) : Prop := ∀ bs, w.res = some bs → bs.length ≤ K

namespace W.Cap

variable {K : Nat}

theorem room {k : Nat} {w : W} (h : w.Cap K) : (W.room k w).Cap K := h
theorem put {bs : List Nat} (h : bs.length ≤ K) : (W.put bs).Cap K := by
  intro b hb; cases hb; rwa [List.length_map]
theorem put1 {a : Nat} (h : 1 ≤ K) : (W.put [a]).Cap K := put h
theorem put2 {a b : Nat} (h : 2 ≤ K) : (W.put [a, b]).Cap K := put h
theorem put3 {a b c : Nat} (h : 3 ≤ K) : (W.put [a, b, c]).Cap K := put h
theorem put4 {a b c d : Nat} (h : 4 ≤ K) : (W.put [a, b, c, d]).Cap K := put h
theorem iluni : W.iluni.Cap K := fun _ h => nomatch h
theorem ub : W.ub.Cap K := fun _ h => nomatch h
theorem abort : W.abort.Cap K := fun _ h => nomatch h
theorem ite {P : Prop} [Decidable P] {a b : W} (h1 : a.Cap K) (h2 : b.Cap K) : (if P then a else b).Cap K := by
  split
  · exact h1
  · exact h2
theorem orElse : ∀ {a b : W}, a.Cap K → b.Cap K → (a.orElse b).Cap K
  | .room _ w, _, h1, h2 => orElse (a := w) h1 h2
  | .put _, _, h1, _ => h1
  | .iluni, _, _, h2 => h2
  | .ub, _, _, _ => ub
  | .abort, _, _, _ => abort
theorem on {w : W} {n : Nat} {k : Int → List Nat → W} (h : ∀ r b, (k r b).Cap K) : (W.on w n k).Cap K := by
  unfold W.on
  split
  · exact ite (h _ _) ub
  · exact ub
  · exact abort
  · exact ub
theorem rdW {t : Tab} {i : Nat} {f : Nat → W} (h : ∀ v, (f v).Cap K) : (t.rdW i f).Cap K := by
  unfold Tab.rdW
  split
  · exact h _
  · exact abort
  · exact ub
theorem inW {α : Type} {o : Outcome α} {f : α → W} (h : ∀ v, (f v).Cap K) : (o.inW f).Cap K := by
  unfold Outcome.inW
  split
  · exact h _
  · exact abort
  · exact ub
theorem cs {e : CsEnc} {wc : Nat} (h : 2 ≤ K) : (e.wctomb wc).Cap K := by
  unfold CsEnc.wctomb
  refine room ?_
  split
  · exact put (by simpa using h)
  · exact iluni
  · exact abort
  · exact ub

theorem ascii {wc : Nat} (h : 1 ≤ K) : (ascii_w wc).Cap K := ite (put (by simpa using h)) iluni

end W.Cap

theorem W.Cap.jx {K wc : Nat} {f : Nat → W} (h : ∀ v, (f v).Cap K) : (jxFromW wc f).Cap K := by
  unfold jxFromW
  split
  · exact h _
  · exact ub
  · exact abort
  · exact ub

/-- Take an encoder program apart. -/
macro "wcap" : tactic => `(tactic| set_option maxRecDepth 2000 in repeat' (with_reducible first
  | assumption
  | apply_assumption
  | exact W.Cap.put1 (by decide)
  | exact W.Cap.put2 (by decide)
  | exact W.Cap.put3 (by decide)
  | exact W.Cap.put4 (by decide)
  | exact W.Cap.iluni
  | exact W.Cap.ub
  | exact W.Cap.abort
  | exact W.Cap.cs (by decide)
  | exact W.Cap.ascii (by decide)
  | refine W.Cap.room ?_
  | refine W.Cap.ite ?_ ?_
  | refine W.Cap.orElse ?_ ?_
  | refine W.Cap.on ?_
  | refine W.Cap.rdW ?_
  | refine W.Cap.inW ?_
  | refine W.Cap.jx ?_
  | intro _
  | dsimp only))

theorem euc_kr_cap (wc : Nat) : (euc_kr_wctomb wc).Cap 2 := by unfold euc_kr_wctomb; wcap
theorem cp949_cap (wc : Nat) : (cp949_wctomb wc).Cap 2 := by unfold cp949_wctomb cp949_rest; wcap
theorem johab_cap (wc : Nat) : (johab_wctomb wc).Cap 2 := by unfold johab_wctomb; wcap
theorem euc_jp_cap (wc : Nat) : (euc_jp_wctomb wc).Cap 3 := by unfold euc_jp_wctomb euc_jp_rest; wcap
theorem sjis_cap (wc : Nat) : (sjis_wctomb wc).Cap 2 := by unfold sjis_wctomb sjis_0208 sjis_user; wcap
theorem cp932_cap (wc : Nat) : (cp932_wctomb wc).Cap 2 := by
  unfold cp932_wctomb cp932_rest1 sjis_0208 cp932_rest sjis_user; wcap
theorem dec_kanji_cap (wc : Nat) : (dec_kanji_wctomb wc).Cap 2 := by unfold dec_kanji_wctomb; wcap
theorem euc_cn_cap (wc : Nat) : (euc_cn_wctomb wc).Cap 2 := by unfold euc_cn_wctomb; wcap
theorem gbk_cap (wc : Nat) : (gbk_wctomb wc).Cap 2 := by unfold gbk_wctomb gbk_rest; wcap
theorem ces_gbk_cap (wc : Nat) : (ces_gbk_wctomb wc).Cap 2 := by unfold ces_gbk_wctomb; wcap
theorem cp936_cap (wc : Nat) : (cp936_wctomb wc).Cap 2 := by
  have := ces_gbk_cap
  unfold cp936_wctomb cp936_rest; wcap
theorem gb18030_2005_cap (wc : Nat) : (gb18030_2005_wctomb wc).Cap 4 := by
  have h : (gbk_wctomb wc).Cap 4 := fun bs hb => Nat.le_trans (gbk_cap wc bs hb) (by decide)
  have hu : (gb_wuni wc).Cap 4 := by unfold gb_wuni gbPut; wcap
  have hn : (gb18030_2005_uni_wctomb wc).Cap 4 := by unfold gb18030_2005_uni_wctomb gbPut; wcap
  unfold gb18030_2005_wctomb gb18030_2005_wbmp gb_wsup gb_pua2005 gb_wuser gbPut; wcap
theorem gb18030_2022_cap (wc : Nat) : (gb18030_2022_wctomb wc).Cap 4 := by
  have h : (gbk_wctomb wc).Cap 4 := fun bs hb => Nat.le_trans (gbk_cap wc bs hb) (by decide)
  have hu : (gb_wuni wc).Cap 4 := by unfold gb_wuni gbPut; wcap
  have hp : ∀ a b, (gbPut a b).Cap 4 := fun a b => W.Cap.put4 (by decide)
  have hn : (gb18030_2022_uni_wctomb wc).Cap 4 :=
    .room <| .ite (.ite (hp _ _) <| .ite (.rdW fun _ => hp _ _) <| .ite (.rdW fun _ => .ite (hp _ _) hu) hu) .iluni
  have hq : (gb_pua2022 wc (gb18030_2022_uni_wctomb wc)).Cap 4 :=
    .inW fun _ => .ite (.rdW fun _ => .rdW fun _ => .put2 (by decide)) hn
  have hv : (gb_wuser wc).Cap 4 := .ite (.put2 (by decide)) (.put2 (by decide))
  exact .orElse (.orElse (.ascii (by decide)) <| .orElse h <| .orElse (.cs (by decide)) <|
    .ite (.room (.ite hv hq)) hn) (.room (.ite (hp _ _) .iluni))
theorem ces_big5_cap (wc : Nat) : (ces_big5_wctomb wc).Cap 2 := by unfold ces_big5_wctomb; wcap
theorem cp950_cap (wc : Nat) : (cp950_wctomb wc).Cap 2 := by
  unfold cp950_wctomb cp950_case cp950_rest cp950_done cp950_ext; wcap

set_option maxRecDepth 100000 in
theorem big5_2003_case_cap {wc : Nat} {done : Nat → Nat → W} {rest : W} (hd : ∀ a b, (done a b).Cap 2)
    (hr : rest.Cap 2) : (big5_2003_case wc done rest).Cap 2 := by
  unfold big5_2003_case
  repeat' (with_reducible first
    | exact hd _ _
    | exact hr
    | exact W.Cap.iluni
    | refine W.Cap.ite ?_ ?_
    | refine W.Cap.rdW ?_
    | intro _)

theorem big5_2003_cap (wc : Nat) : (big5_2003_wctomb wc).Cap 2 := by
  have hd : ∀ a b, (big5_2003_done a b).Cap 2 := fun a b => W.Cap.put2 (by decide)
  refine W.Cap.orElse (W.Cap.ascii (by decide)) (big5_2003_case_cap hd ?_)
  unfold big5_2003_rest
  wcap
theorem dec_hanyu_cap (wc : Nat) : (dec_hanyu_wctomb wc).Cap 4 := by unfold dec_hanyu_wctomb; wcap
theorem euc_tw_cap (wc : Nat) : (euc_tw_wctomb wc).Cap 4 := by unfold euc_tw_wctomb; wcap
theorem isoir165_cap (wc : Nat) : (isoir165_wctomb wc).Cap 2 := by unfold isoir165_wctomb isoir165_wrest; wcap
theorem hk_cap {l : List (Nat → W)} (wc : Nat) : (hk_wctomb l wc).Cap 2 := by
  have hm : ∀ l : List (Nat → W), (hkMoreW l wc).Cap 2 := by
    intro l
    induction l with
    | nil => exact W.Cap.iluni
    | cons f l ih =>
      unfold hkMoreW
      wcap
  unfold hk_wctomb
  wcap
theorem euc_jx_cap (wc : Nat) : (euc_jx_wctomb wc).Cap 3 := by unfold euc_jx_wctomb; wcap
theorem sjx_cap (wc : Nat) : (sjx_wctomb wc).Cap 2 := by unfold sjx_wctomb; wcap

/-! ## Programs with a state -/

/-- At most `K` bytes are stored. -/
def SW.Cap (K : Nat) (w : SW) : Prop := ∀ bs st, w.res = some (bs, st) → bs.length ≤ K

namespace SW.Cap

variable {K : Nat}

theorem room {k : Nat} {w : SW} (h : w.Cap K) : (SW.room k w).Cap K := h
theorem put {bs : List Nat} {st : Nat} (h : bs.length ≤ K) : (SW.put bs st).Cap K := by
  intro b s hb; cases hb; rwa [List.length_map]
theorem iluni : SW.iluni.Cap K := fun _ _ h => nomatch h
theorem ub : SW.ub.Cap K := fun _ _ h => nomatch h
theorem abort : SW.abort.Cap K := fun _ _ h => nomatch h
theorem ite {P : Prop} [Decidable P] {a b : SW} (h1 : a.Cap K) (h2 : b.Cap K) : (if P then a else b).Cap K := by
  split
  · exact h1
  · exact h2
theorem on {w : W} {n : Nat} {k : Int → List Nat → SW} (h : ∀ r b, (k r b).Cap K) : (SW.on w n k).Cap K := by
  unfold SW.on
  split
  · exact ite (h _ _) ub
  · exact ub
  · exact abort
  · exact ub
theorem try1 {w : W} {P : Nat → Prop} [DecidablePred P] {found : Nat → SW} {rest : SW}
    (h1 : ∀ x, (found x).Cap K) (h2 : rest.Cap K) : (SW.try1 w P found rest).Cap K :=
  on fun _ _ => ite (ite abort (ite (h1 _) h2)) h2
theorem try2 {w : W} {found : Nat → Nat → SW} {rest : SW}
    (h1 : ∀ x y, (found x y).Cap K) (h2 : rest.Cap K) : (SW.try2 w found rest).Cap K :=
  on fun _ _ => ite (ite abort (ite (h1 _ _) h2)) h2
theorem try3 {w : W} {found : Nat → Nat → Nat → SW} {rest : SW}
    (h1 : ∀ x y z, (found x y z).Cap K) (h2 : rest.Cap K) : (SW.try3 w found rest).Cap K :=
  on fun _ _ => ite (ite abort (h1 _ _ _)) h2

end SW.Cap

theorem ite_nil_len {P : Prop} [Decidable P] {a : List Nat} : (if P then a else []).length ≤ a.length := by
  split <;> simp
theorem ite_nil_len' {P : Prop} [Decidable P] {a : List Nat} : (if P then [] else a).length ≤ a.length := by
  split <;> simp

theorem hz_cap (st wc : Nat) : (hz_wctomb st wc).Cap 4 := by
  unfold hz_wctomb
  refine SW.Cap.try1 (fun b => .room (.put ?_)) <| SW.Cap.try2 (fun a b => .room (.put ?_)) .iluni
  · rw [List.length_append]; exact Nat.le_trans (Nat.add_le_add_right ite_nil_len _) (Nat.le_of_ble_eq_true rfl)
  · rw [List.length_append]; exact Nat.le_trans (Nat.add_le_add_right ite_nil_len' _) (Nat.le_of_ble_eq_true rfl)

theorem iso2022_kr_cap (st wc : Nat) : (iso2022_kr_wctomb st wc).Cap 7 := by
  unfold iso2022_kr_wctomb
  refine SW.Cap.try1 (fun b => .room (.put ?_)) <| SW.Cap.try2 (fun a b => .room (.put ?_)) .iluni
  · rw [List.length_append]; exact Nat.le_trans (Nat.add_le_add_right ite_nil_len _) (Nat.le_of_ble_eq_true rfl)
  · rw [List.length_append, List.length_append]
    exact Nat.le_trans (Nat.add_le_add_right (Nat.add_le_add ite_nil_len ite_nil_len) _) (Nat.le_of_ble_eq_true rfl)

theorem iso2022_cn_cap (st wc : Nat) : (iso2022_cn_wctomb st wc).Cap 8 := by
  unfold iso2022_cn_wctomb
  refine SW.Cap.try1 (fun b => .room (.put ?_)) <| SW.Cap.try2 (fun a b => .room (.put ?_)) <|
    SW.Cap.try3 (fun a b c => .ite (.room (.put ?_)) (.ite (.room (.put ?_)) .iluni)) .iluni
  · rw [List.length_append]; exact Nat.le_trans (Nat.add_le_add_right ite_nil_len _) (Nat.le_of_ble_eq_true rfl)
  · rw [List.length_append, List.length_append]
    exact Nat.le_trans (Nat.add_le_add_right (Nat.add_le_add ite_nil_len ite_nil_len) _) (Nat.le_of_ble_eq_true rfl)
  · rw [List.length_append, List.length_append]
    exact Nat.le_trans (Nat.add_le_add_right (Nat.add_le_add ite_nil_len ite_nil_len) _) (Nat.le_of_ble_eq_true rfl)
  · rw [List.length_append]; exact Nat.le_trans (Nat.add_le_add_right ite_nil_len _) (Nat.le_of_ble_eq_true rfl)

theorem cxG1_cap {s1 s2 s3 s4 k f b0 b1 : Nat} : (cxG1 s1 s2 s3 s4 k f b0 b1).Cap 8 := by
  refine .room (.put ?_)
  rw [List.length_append, List.length_append]
  exact Nat.le_trans (Nat.add_le_add_right (Nat.add_le_add ite_nil_len ite_nil_len) _) (Nat.le_of_ble_eq_true rfl)
theorem cxG3_cap {s1 s2 s3 s4 k f b0 b1 : Nat} : (cxG3 s1 s2 s3 s4 k f b0 b1).Cap 8 := by
  refine .room (.put ?_)
  rw [List.length_append]
  exact Nat.le_trans (Nat.add_le_add_right ite_nil_len _) (Nat.le_of_ble_eq_true rfl)

theorem iso2022_cn_ext_cap (st wc : Nat) : (iso2022_cn_ext_wctomb st wc).Cap 8 := by
  have hr : (SW.try2 (isoir165_wctomb wc) (cxG1 (st % 256) (st / 256 % 256) (st / 65536 % 256) (st / 16777216) 3 0x45)
      .iluni).Cap 8 := SW.Cap.try2 (fun _ _ => cxG1_cap) .iluni
  unfold iso2022_cn_ext_wctomb
  refine SW.Cap.try1 (fun b => .room (.put ?_)) <| SW.Cap.try2 (fun a b => cxG1_cap) <|
    SW.Cap.try3 (fun a b c => .ite cxG1_cap (.ite (.room (.put ?_)) (.ite cxG3_cap (.ite cxG3_cap (.ite cxG3_cap
      (.ite cxG3_cap (.ite cxG3_cap hr))))))) hr
  · rw [List.length_append]; exact Nat.le_trans (Nat.add_le_add_right ite_nil_len _) (Nat.le_of_ble_eq_true rfl)
  · rw [List.length_append]; exact Nat.le_trans (Nat.add_le_add_right ite_nil_len _) (Nat.le_of_ble_eq_true rfl)

theorem jpOne_cap {K st k f b : Nat} (h : 4 ≤ K) : (jpOne st k f b).Cap K := by
  refine .room (.put ?_)
  rw [List.length_append]
  exact Nat.le_trans (Nat.add_le_add_right ite_nil_len _) h
theorem jpTwo_cap {K st k c a b : Nat} {esc : List Nat} (h : esc.length + 2 ≤ K) : (jpTwo st k esc c a b).Cap K := by
  refine .room (.put ?_)
  rw [List.length_append]
  exact Nat.le_trans (Nat.add_le_add_right ite_nil_len _) h

theorem iso2022_jp_cap (st wc : Nat) : (iso2022_jp_wctomb st wc).Cap 5 :=
  .try1 (fun _ => jpOne_cap (by decide)) <| .try1 (fun _ => jpOne_cap (by decide)) <|
    .try2 (fun _ _ => jpTwo_cap (by decide)) .iluni

theorem iso2022_jp1_cap (st wc : Nat) : (iso2022_jp1_wctomb st wc).Cap 6 :=
  .try1 (fun _ => jpOne_cap (by decide)) <| .try1 (fun _ => jpOne_cap (by decide)) <|
    .try2 (fun _ _ => jpTwo_cap (by decide)) <| .try2 (fun _ _ => jpTwo_cap (by decide)) .iluni

theorem iso2022_jpms_cap (st wc : Nat) : (iso2022_jpms_wctomb st wc).Cap 6 :=
  .try1 (fun _ => jpOne_cap (by decide)) <| .try1 (fun _ => jpOne_cap (by decide)) <|
    .try2 (fun _ _ => jpTwo_cap (by decide)) <| .try2 (fun _ _ => jpTwo_cap (by decide)) .iluni

theorem jp2One_cap {K s1 s3 k f b s2 : Nat} (h : 4 ≤ K) : (jp2One s1 s3 k f b s2).Cap K := by
  refine .room (.put ?_)
  rw [List.length_append]
  exact Nat.le_trans (Nat.add_le_add_right ite_nil_len _) h
theorem jp2Two_cap {K s1 s2 s3 k c a b : Nat} {esc : List Nat} (h : esc.length + 2 ≤ K) :
    (jp2Two s1 s2 s3 k esc c a b).Cap K := by
  refine .room (.put ?_)
  rw [List.length_append]
  exact Nat.le_trans (Nat.add_le_add_right ite_nil_len _) h
theorem jp2G2_cap {K s1 s2 s3 k f b : Nat} (h : 6 ≤ K) : (jp2G2 s1 s2 s3 k f b).Cap K := by
  refine .room (.put ?_)
  rw [List.length_append]
  exact Nat.le_trans (Nat.add_le_add_right ite_nil_len _) h

theorem jp2_try_cap {s1 s2 s3 wc code : Nat} {rest : SW} (h : rest.Cap 6) : (jp2_try s1 s2 s3 wc code rest).Cap 6 :=
  .ite (.try1 (fun _ => jp2G2_cap (by decide)) <| .try1 (fun _ => jp2G2_cap (by decide)) h) <|
  .ite (.try1 (fun _ => jp2One_cap (by decide)) <| .try2 (fun _ _ => jp2Two_cap (by decide)) <|
    .try2 (fun _ _ => jp2Two_cap (by decide)) h) <|
  .ite (.try2 (fun _ _ => jp2Two_cap (by decide)) h) <|
  .ite (.try2 (fun _ _ => jp2Two_cap (by decide)) h) <|
  .ite (.try1 (fun _ => jp2One_cap (by decide)) h) .abort

theorem jp2_loop_cap {s1 s2 s3 wc : Nat} : ∀ fuel l, (jp2_loop s1 s2 s3 wc fuel l).Cap 6
  | 0, _ => .ub
  | fuel + 1, l => jp2_try_cap (.ite (jp2_loop_cap fuel (l / 8)) .iluni)

theorem iso2022_jp2_cap (st wc : Nat) : (iso2022_jp2_wctomb st wc).Cap 6 := by
  refine .ite (.put (by decide)) (.try1 (fun _ => jp2One_cap (by decide)) ?_)
  split
  · exact jp2_loop_cap _ _
  · exact .ub

/-! ## Programs that hold a character back -/

/-- What is stored and what is owed afterwards (`p`) are together at most `K`. -/
def BW.Cap (p : Nat → Nat) (K : Nat) (w : BW) : Prop :=
  ∀ acc bs st, w.res acc = some (bs, st) → bs.length + p st ≤ K + acc.length

namespace BW.Cap

variable {p : Nat → Nat} {K : Nat}

theorem room {k : Nat} {w : BW} (h : w.Cap p K) : (BW.room k w).Cap p K := h
theorem store {J : Nat} {l : List Nat} {w : BW} (h : w.Cap p J) (hl : l.length + J ≤ K) : (BW.store l w).Cap p K := by
  intro acc bs st hr
  have := h (acc ++ l.map u8) bs st hr
  rw [List.length_append, List.length_map] at this
  omega
theorem done {st : Nat} (h : p st ≤ K) : (BW.done st).Cap p K := by
  intro acc bs st hr; cases hr; omega
theorem iluni : BW.iluni.Cap p K := fun _ _ _ h => nomatch h
theorem ub : BW.ub.Cap p K := fun _ _ _ h => nomatch h
theorem abort : BW.abort.Cap p K := fun _ _ _ h => nomatch h
theorem ite {P : Prop} [Decidable P] {a b : BW} (h1 : a.Cap p K) (h2 : b.Cap p K) : (if P then a else b).Cap p K := by
  split
  · exact h1
  · exact h2
theorem on {w : W} {n : Nat} {k : Int → List Nat → BW} (h : ∀ r b, (k r b).Cap p K) : (BW.on w n k).Cap p K := by
  unfold BW.on
  split
  · exact ite (h _ _) ub
  · exact ub
  · exact abort
  · exact ub
theorem try1 {w : W} {P : Nat → Prop} [DecidablePred P] {found : Nat → BW} {rest : BW}
    (h1 : ∀ x, (found x).Cap p K) (h2 : rest.Cap p K) : (BW.try1 w P found rest).Cap p K :=
  on fun _ _ => ite (ite abort (ite (h1 _) h2)) h2
theorem try2 {w : W} {P : Nat → Nat → Prop} [∀ a b, Decidable (P a b)] {found : Nat → Nat → BW} {rest : BW}
    (h1 : ∀ x y, (found x y).Cap p K) (h2 : rest.Cap p K) : (BW.try2 w P found rest).Cap p K :=
  on fun _ _ => ite (ite abort (ite (h1 _ _) h2)) h2

end BW.Cap

end Reiconv
