import Verif.Codec.Hkscs
import Verif.Codec.Jp3

/-!
# What the encoders that hold a character back store before an error

It is the character they hold back, and it is written at the same place later.
-/

namespace Reiconv
namespace BW

/-- `m` bytes are owed at the start. When the program ends with `iluni` it has stored at most these; when it ends well,
they have been written or the new state owes the rest. `a` bytes have been stored so far. -/
def Cov (m : Nat) (o : Nat → Nat) : Nat → BW → Prop
  | a, room _ w => Cov m o a w
  | a, store bs w => Cov m o (a + bs.length) w
  | a, done st => m ≤ a + o st
  | a, iluni => a ≤ m
  | _, ub => True
  | _, abort => True

variable {m : Nat} {o : Nat → Nat}

theorem cov_run : ∀ (w : BW) (acc : List Byte) (os n : Nat) (r : WcRes), Cov m o acc.length w → w.run acc os n = .ok r →
    (r.ret = .iluni → r.ws.length ≤ m) ∧ ∀ k, r.ret = .wrote k → m ≤ r.ws.length + o r.st := by
  intro w
  induction w with
  | room j w ih =>
    intro acc os n r h hr
    simp only [run] at hr
    split at hr
    · exact ih acc os n r h hr
    · cases hr
      exact ⟨fun h => (nomatch h), fun _ h => (nomatch h)⟩
  | store bs w ih =>
    intro acc os n r h hr
    refine ih (acc ++ bs.map u8) os n r ?_ hr
    rw [List.length_append, List.length_map]
    exact h
  | done st =>
    intro acc os n r h hr
    cases hr
    exact ⟨fun h => (nomatch h), fun _ _ => h⟩
  | iluni =>
    intro acc os n r h hr
    cases hr
    exact ⟨fun _ => h, fun _ h => (nomatch h)⟩
  | ub => intro acc os n r h hr; cases hr
  | abort => intro acc os n r h hr; cases hr

theorem cov_ite {c : Prop} [Decidable c] {a : Nat} {x y : BW} (h1 : Cov m o a x) (h2 : Cov m o a y) :
    Cov m o a (if c then x else y) := by
  split
  · exact h1
  · exact h2

theorem cov_on {w : W} {n a : Nat} {k : Int → List Nat → BW} (h : ∀ ret buf, Cov m o a (k ret buf)) :
    Cov m o a (on w n k) := by
  unfold on
  split
  · exact cov_ite (h _ _) trivial
  all_goals trivial

theorem cov_try1 {w : W} {P : Nat → Prop} [DecidablePred P] {found : Nat → BW} {rest : BW} {a : Nat}
    (h1 : ∀ x, Cov m o a (found x)) (h2 : Cov m o a rest) : Cov m o a (try1 w P found rest) :=
  cov_on fun _ _ => cov_ite (cov_ite trivial (cov_ite (h1 _) h2)) h2

theorem cov_try2 {w : W} {P : Nat → Nat → Prop} [∀ a b, Decidable (P a b)] {found : Nat → Nat → BW} {rest : BW} {a : Nat}
    (h1 : ∀ x y, Cov m o a (found x y)) (h2 : Cov m o a rest) : Cov m o a (try2 w P found rest) :=
  cov_on fun _ _ => cov_ite (cov_ite trivial (cov_ite (h1 _ _) h2)) h2

theorem cov_put {k : Nat} {bs : List Nat} {st : Nat} : Cov m o m (.room k <| .store bs <| .done st) := by
  show m ≤ m + bs.length + o st
  omega

theorem cov_done {st : Nat} : Cov m o m (.done st) := Nat.le_add_right _ _

theorem cov_iluni : Cov m o m .iluni := Nat.le_refl _

end BW

/-! ## Programs of the form `pairProg` -/

def pairOwed (os : Nat) : Nat := if os = 0 then 0 else 2

theorem pair_cov {comp : Nat → Nat → Option (List Nat)} {last : Nat → List Nat} {base : Nat → Nat → BW}
    (hc : ∀ os wc bs, comp os wc = some bs → bs.length = 2) (hl : ∀ os, (last os).length = 2)
    (hb : ∀ c wc, BW.Cov c pairOwed c (base c wc)) (os wc : Nat) :
    BW.Cov (pairOwed os) pairOwed 0 (pairProg comp last base os wc) := by
  unfold pairProg
  by_cases h : os = 0
  · subst h
    rw [if_neg (by omega)]
    exact hb 0 wc
  · rw [if_pos h, show pairOwed os = 2 from if_neg h]
    cases hx : comp os wc with
    | some bs =>
      have := hc os wc bs hx
      show 2 ≤ 0 + bs.length + _
      omega
    | none =>
      show BW.Cov 2 pairOwed (0 + (last os).length) (base 2 wc)
      rw [hl os]
      exact hb 2 wc

theorem pair_covers {idx : Nat} {hu : unitOf idx = 1} {body : M SItem} {hd : M.Good PairItemOK 1 body} {I : Nat → Prop}
    {comp : Nat → Nat → Option (List Nat)} {last : Nat → List Nat} {base : Nat → Nat → BW} {he : PairGood I comp last base}
    (hc : ∀ os wc bs, comp os wc = some bs → bs.length = 2)
    (hb : ∀ c wc, BW.Cov c pairOwed c (base c wc)) : (pairEntry idx hu hd he).encOK.Covers pairOwed where
  init := rfl
  none := fun h => nomatch h
  iluni := fun os wc n r _ h1 h2 => (BW.cov_run _ [] os n r (pair_cov hc he.last hb os wc) h1).1 h2
  wrote := fun os wc n r k _ h1 h2 => (BW.cov_run _ [] os n r (pair_cov hc he.last hb os wc) h1).2 k h2
  tail := by
    intro f hf os n r _ h1 h2
    cases hf
    simp only at h1
    split at h1
    · cases h1; exact absurd rfl h2
    · cases h1
      show pairOwed os ≤ ((pairTail last os).map u8).length
      rw [List.length_map]
      unfold pairOwed pairTail
      by_cases h : os = 0
      · rw [if_pos h]; exact Nat.zero_le _
      · rw [if_neg h, if_pos h, he.last os]; exact Nat.le_refl _

theorem hkMore_cov (l : List (Nat → W)) (c wc : Nat) : BW.Cov c pairOwed c (hkMore l c wc) := by
  induction l with
  | nil => exact BW.cov_iluni
  | cons f l ih => exact BW.cov_try2 (fun _ _ => BW.cov_put) ih

theorem hk_base_cov (l : List (Nat → W)) (c wc : Nat) : BW.Cov c pairOwed c (hk_base l c wc) :=
  BW.cov_ite BW.cov_put (BW.cov_try2 (fun _ _ => BW.cov_put) (BW.cov_try2
    (fun _ _ => BW.cov_ite (BW.cov_ite trivial BW.cov_done) BW.cov_put) (hkMore_cov l c wc)))

theorem hk_comp_len (os wc : Nat) (bs : List Nat) (h : hk_comp os wc = some bs) : bs.length = 2 := by
  unfold hk_comp at h
  split at h
  · cases h; rfl
  · cases h

theorem euc_jx_base_cov (c wc : Nat) : BW.Cov c pairOwed c (euc_jx_base c wc) := by
  unfold euc_jx_base
  rw [jxFromB_eq]
  exact BW.cov_ite BW.cov_put (BW.cov_ite BW.cov_put (BW.cov_ite (BW.cov_ite (BW.cov_ite trivial BW.cov_done)
    (BW.cov_ite BW.cov_put BW.cov_put)) BW.cov_iluni))

theorem sjx_base_cov (c wc : Nat) : BW.Cov c pairOwed c (sjx_base c wc) := by
  unfold sjx_base
  rw [jxFromB_eq]
  exact BW.cov_ite BW.cov_put (BW.cov_ite BW.cov_put (BW.cov_ite BW.cov_put (BW.cov_ite BW.cov_put
    (BW.cov_ite (BW.cov_ite (BW.cov_ite trivial BW.cov_done) BW.cov_put) BW.cov_iluni))))

theorem big5hkscs1999_covers : big5hkscs1999_entry.encOK.Covers pairOwed := pair_covers hk_comp_len (hk_base_cov _)
theorem big5hkscs2001_covers : big5hkscs2001_entry.encOK.Covers pairOwed := pair_covers hk_comp_len (hk_base_cov _)
theorem big5hkscs2004_covers : big5hkscs2004_entry.encOK.Covers pairOwed := pair_covers hk_comp_len (hk_base_cov _)
theorem big5hkscs2008_covers : big5hkscs2008_entry.encOK.Covers pairOwed := pair_covers hk_comp_len (hk_base_cov _)
theorem euc_jisx0213_covers : euc_jisx0213_entry.encOK.Covers pairOwed :=
  pair_covers (fun _ _ _ h => jxCompose_len h) euc_jx_base_cov
theorem shift_jisx0213_covers : shift_jisx0213_entry.encOK.Covers pairOwed :=
  pair_covers (fun _ _ _ h => jxCompose_len h) sjx_base_cov

/-! ## ISO-2022-JP-3 -/

def jp3Owed (os : Nat) : Nat :=
  if jp3Last os = 0 then 0 else if jp3Prev os = jp3State os then 2 else 5

theorem jp3Put_cov {o : Nat → Nat} {c m k d : Nat} : BW.Cov m o (m + c) (jp3Put (m + c) k d) :=
  BW.cov_ite (BW.cov_ite trivial (show m ≤ m + c + _ by omega)) (show m ≤ m + c + _ + _ by omega)

theorem jp3Plane_cov {o : Nat → Nat} {m st k f d : Nat} : BW.Cov m o m (jp3Plane m st k f d) :=
  BW.cov_ite (show BW.Cov m o (m + 4) _ from jp3Put_cov) (jp3Put_cov (c := 0))

theorem jp3_base_cov {o : Nat → Nat} (c st wc : Nat) : BW.Cov c o c (jp3_base c st wc) := by
  unfold jp3_base
  rw [jxFromB_eq]
  exact BW.cov_try1 (fun _ => BW.cov_put) (BW.cov_try1 (fun _ => BW.cov_put) (BW.cov_try2
    (fun _ _ => BW.cov_ite BW.cov_done BW.cov_put) (BW.cov_ite (BW.cov_ite jp3Plane_cov jp3Plane_cov)
    (BW.cov_try1 (fun _ => BW.cov_put) BW.cov_iluni))))

theorem jp3_cov {os : Nat} (hI : jp3EI os) (wc : Nat) : BW.Cov (jp3Owed os) jp3Owed 0 (iso2022_jp3_wctomb os wc) := by
  unfold iso2022_jp3_wctomb jp3Owed
  by_cases hl : jp3Last os = 0
  · rw [if_neg (not_not_intro hl), if_pos hl]
    exact jp3_base_cov 0 _ _
  · rw [if_pos hl, if_neg hl]
    obtain ⟨st, last, prev, h⟩ := hI
    rw [h.last_eq] at hl
    have hh := h.held hl
    rw [h.state_eq, h.last_eq, h.prev_eq]
    cases hx : jxCompose jp3Comp last wc with
    | some bs =>
      have hb := jxCompose_len hx
      show _ ≤ 0 + (List.length _) + _
      rw [List.length_append, hb]
      by_cases h4 : st = 4
      · rw [if_pos (show prev = st by omega), if_neg (not_not_intro h4)]; simp only [List.length_nil]; omega
      · rw [if_pos (show st ≠ 4 from h4)]; simp only [List.length_cons, List.length_nil]
        split <;> omega
    | none =>
      dsimp only
      by_cases hp : prev = st
      · rw [if_pos hp, if_neg (not_not_intro hp), if_neg (not_not_intro hp)]
        exact jp3_base_cov 2 _ _
      · rw [if_neg hp, if_pos hp, if_pos hp, if_neg (show ¬ st ≠ 3 by omega)]
        exact jp3_base_cov 5 _ _

theorem iso2022_jp3_covers : iso2022_jp3_entry.encOK.Covers jp3Owed where
  init := by decide +kernel
  none := fun h => nomatch h
  iluni := fun os wc n r hI h1 h2 => (BW.cov_run _ [] os n r (jp3_cov hI wc) h1).1 h2
  wrote := fun os wc n r k hI h1 h2 => (BW.cov_run _ [] os n r (jp3_cov hI wc) h1).2 k h2
  tail := by
    intro f hf os n r hI h1 h2
    cases hf
    rw [iso2022_jp3_reset_eq hI] at h1
    split at h1
    · cases h1
      show jp3Owed os ≤ ((iso2022_jp3_tail os).map u8).length
      rw [List.length_map]
      unfold jp3Owed iso2022_jp3_tail
      by_cases hl : jp3Last os = 0
      · rw [if_pos hl]; exact Nat.zero_le _
      · rw [if_neg hl, if_pos hl]
        by_cases hp : jp3Prev os = jp3State os
        · rw [if_pos hp, if_neg (not_not_intro hp)]
          simp [jxLast]
        · rw [if_neg hp, if_pos hp]
          simp [jxLast]
    · cases h1; exact absurd rfl h2

end Reiconv
