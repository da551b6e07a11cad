import Verif.Codec.TreeTac

/-!
# Evaluating decoder and encoder programs in the kernel

Statements about all entries of a conversion table are checked by running the programs. `evalN` and
`resN` run them with natural numbers and raw recursors; the `fast` lemmas turn the tests and table
accesses of a program into such a form.
-/

namespace Reiconv

noncomputable def nthF (l : List Nat) : Nat → Nat :=
  List.rec (fun _ => 0) (fun a _ ih n => Nat.rec a (fun n _ => ih n) n) l

noncomputable def lenF (l : List Nat) : Nat := List.rec 0 (fun _ _ ih => Nat.succ ih) l

/-- 0 for `RET_TOOFEW`, 1 for `RET_ILSEQ`, `8 * wc + n + 2` for a character of `n` bytes. -/
noncomputable def codeN (r : MbRet) : Nat :=
  MbRet.rec (fun wc n => Nat.add (Nat.add (Nat.mul 8 wc) n) 2) (fun _ => 1) (fun _ => 0) r

/-- `f x`, after evaluating `x`. -/
noncomputable def forceN {α : Type} (x : Nat) (f : Nat → α) : α :=
  Nat.rec (f 0) (fun n _ => f (Nat.succ n)) x

theorem forceN_eq {α : Type} (x : Nat) (f : Nat → α) : forceN x f = f x := by cases x <;> rfl

noncomputable def M.evalN (l : List Nat) (m : M MbRet) : Nat :=
  M.rec codeN 0 0 (fun k _ ih => cond (Nat.ble k (lenF l)) ih 0)
    (fun i _ ih => forceN (nthF l i) ih) m

/-- The bytes of a character as one number, marked by a leading 1. -/
noncomputable def keyF (l : List Nat) (k : Nat) : Nat :=
  List.rec (fun k => k) (fun b _ ih k => ih (Nat.add (Nat.mul 256 k) (Nat.mod b 256))) l k

/-- 0 if the character is not representable, else the number for its bytes. -/
noncomputable def W.resN (w : W) : Nat :=
  W.rec (fun _ _ ih => ih) (fun bs => keyF bs 1) 0 0 0 w

theorem ite_le_fast {α : Type} (a b : Nat) (x y : α) : (if a ≤ b then x else y) = cond (Nat.ble a b) x y := by
  by_cases h : a ≤ b
  · rw [if_pos h, Nat.ble_eq_true_of_le h]; rfl
  · rw [if_neg h]
    cases hb : Nat.ble a b
    · rfl
    · exact absurd (Nat.le_of_ble_eq_true hb) h

theorem ite_lt_fast {α : Type} (a b : Nat) (x y : α) :
    (if a < b then x else y) = cond (Nat.ble (Nat.succ a) b) x y := ite_le_fast (a + 1) b x y

theorem ite_ge_fast {α : Type} (a b : Nat) (x y : α) :
    (if a ≥ b then x else y) = cond (Nat.ble b a) x y := ite_le_fast b a x y

theorem ite_gt_fast {α : Type} (a b : Nat) (x y : α) :
    (if a > b then x else y) = cond (Nat.ble (Nat.succ b) a) x y := ite_le_fast (b + 1) a x y

theorem ite_eq_fast {α : Type} (a b : Nat) (x y : α) : (if a = b then x else y) = cond (Nat.beq a b) x y := by
  by_cases h : a = b
  · rw [if_pos h, (show Nat.beq a b = true by rw [Nat.beq_eq]; exact h)]; rfl
  · rw [if_neg h]
    cases hb : Nat.beq a b
    · rfl
    · exact absurd (Nat.eq_of_beq_eq_true hb) h

theorem ite_not_fast {α : Type} (p : Prop) [Decidable p] (x y : α) :
    (if ¬ p then x else y) = if p then y else x := by
  by_cases h : p <;> simp [h]

theorem ite_ne_fast {α β : Type} [DecidableEq β] (a b : β) (x y : α) :
    (if a ≠ b then x else y) = if a = b then y else x := ite_not_fast (a = b) x y

theorem ite_and_fast {α : Type} (p q : Prop) [Decidable p] [Decidable q] (x y : α) :
    (if p ∧ q then x else y) = if p then (if q then x else y) else y := by
  by_cases h : p <;> by_cases h2 : q <;> simp [h, h2]

theorem ite_or_fast {α : Type} (p q : Prop) [Decidable p] [Decidable q] (x y : α) :
    (if p ∨ q then x else y) = if p then x else (if q then x else y) := by
  by_cases h : p <;> by_cases h2 : q <;> simp [h, h2]

theorem ilseq_ilseq_fast {α : Type} (x y : α) :
    (if (MbRet.ilseq 0).code = RET_ILSEQ then x else y) = x := rfl

theorem char_ilseq_fast {α : Type} (wc n : Nat) (x y : α) :
    (if (MbRet.char wc n).code = RET_ILSEQ then x else y) = y := by
  rw [if_neg]; intro h; rw [code_char, RET_ILSEQ_eq] at h; omega

theorem iluni_fast {α : Type} (x y : α) : (if (-1 : Int) = RET_ILUNI then x else y) = x := rfl
theorem two_iluni_fast {α : Type} (x y : α) : (if (2 : Int) = RET_ILUNI then x else y) = y := rfl
theorem one_iluni_fast {α : Type} (x y : α) : (if (1 : Int) = RET_ILUNI then x else y) = y := rfl
theorem two_two_fast {α : Type} (x y : α) : (if (2 : Int) = 2 then x else y) = x := rfl
theorem one_one_fast {α : Type} (x y : α) : (if (1 : Int) = 1 then x else y) = x := rfl

theorem Tab.rdM_fast {α : Type} (t : Tab) (i : Nat) (f : Nat → M α) :
    t.rdM i f = cond (Nat.ble (Nat.succ i) t.len) (f (t.getF i)) .ub := by
  rw [← ite_lt_fast]
  by_cases h : i < t.len
  · rw [if_pos h, Tab.rdM_eq h]
  · rw [if_neg h]; unfold Tab.rdM Tab.get; rw [if_neg h]

/-- `Tab.rdW` with the position evaluated first. -/
noncomputable def Tab.rdWF (t : Tab) (i : Nat) (f : Nat → W) : W :=
  forceN i fun i => Bool.rec .ub (f (t.getF i)) (Nat.ble (Nat.succ i) t.len)

theorem Tab.rdW_fast (t : Tab) (i : Nat) (f : Nat → W) : t.rdW i f = t.rdWF i f := by
  unfold Tab.rdWF
  rw [forceN_eq]
  have hc : (Bool.rec .ub (f (t.getF i)) (Nat.ble (Nat.succ i) t.len) : W) =
      cond (Nat.ble (Nat.succ i) t.len) (f (t.getF i)) .ub := by
    cases Nat.ble (Nat.succ i) t.len <;> rfl
  rw [hc, ← ite_lt_fast]
  by_cases h : i < t.len
  · rw [if_pos h, Tab.rdW_eq h]
  · rw [if_neg h]; unfold Tab.rdW Tab.get; rw [if_neg h]

theorem CsDec.on_fast {β : Type} {d : CsDec} (h : d.safeF = true) (a b : Nat) (f : MbRet → M β) :
    d.mbtowc.on [a, b] f = forceN (Nat.mod a 256) fun a => forceN (Nat.mod b 256) fun b =>
      Nat.rec (f (.ilseq 0)) (fun wc _ => f (.char wc 2)) (d.decF a b) := by
  simp only [forceN_eq]
  unfold M.on
  simp only [List.map_cons, List.map_nil]
  rw [d.run_fast h, u8_toNat, u8_toNat]
  show f (csRet (ofCode (d.decF (Nat.mod a 256) (Nat.mod b 256)))) = _
  cases d.decF (Nat.mod a 256) (Nat.mod b 256) <;> rfl

/-- The program of a character set with raw recursors. -/
noncomputable def CsDec.fastM (d : CsDec) : M MbRet :=
  .byte 0 fun c1 => Nat.rec (.ret (.ilseq 0)) (fun r _ => .need 2 (.byte 1 fun c2 =>
    Nat.rec (.ret (.ilseq 0)) (fun c _ => Nat.rec (.ret (.ilseq 0)) (fun wc _ => .ret (.char wc 2))
      (segF d.segs (Nat.add (Nat.mul d.stride r) c))) (spanF d.cols c2))) (spanF d.rows c1)

theorem CsDec.fast {d : CsDec} (h : d.safeF = true) : d.mbtowc = d.fastM := by
  unfold CsDec.mbtowc CsDec.fastM
  congr 1
  funext c1
  rw [spanFind_fast]
  cases spanF d.rows c1 with
  | zero => rfl
  | succ r =>
    simp only [ofCode]
    congr 2
    funext c2
    rw [spanFind_fast]
    cases spanF d.cols c2 with
    | zero => rfl
    | succ c =>
      simp only [ofCode]
      rw [segFind_fast h]
      simp only [nat_add_eq, nat_mul_eq]
      cases segF d.segs (d.stride * r + c) <;> rfl

theorem CsEnc.on_fast {e : CsEnc} (h : e.safeF = true) (wc : Nat) (k : Int → List Nat → W) :
    (e.wctomb wc).on 2 k = Nat.rec (k (-1) [])
      (fun c _ => k 2 [Nat.mod (Nat.shiftRight c 8) 256, Nat.mod (Nat.land c 0xff) 256]) (e.encF wc) := by
  unfold W.on
  rw [e.wctomb_eq h]
  unfold CsEnc.code
  cases e.encF wc with
  | zero => rfl
  | succ c =>
    simp only [ofCode, W.run]
    show (if _ then _ else _) = _
    rw [if_pos (by simp [WcRes.put])]
    simp only [WcRes.put, List.map_cons, List.map_nil, u8_toNat]
    rfl

theorem CsEnc.fast {e : CsEnc} (h : e.safeF = true) (wc : Nat) :
    e.wctomb wc = .room 2 (Nat.rec .iluni
      (fun c _ => .put [Nat.shiftRight c 8, Nat.land c 0xff]) (e.encF wc)) := by
  rw [e.wctomb_eq h]
  unfold CsEnc.code
  cases e.encF wc <;> rfl

theorem bufAt_zero_fast (a : Nat) (l : List Nat) : bufAt (a :: l) 0 = a := rfl
theorem bufAt_one_fast (a b : Nat) (l : List Nat) : bufAt (a :: b :: l) 1 = b := rfl
theorem bufAt_two_fast (a b c : Nat) (l : List Nat) : bufAt (a :: b :: c :: l) 2 = c := rfl

/-- `W.on` for a program asking for `n` bytes. -/
noncomputable def W.onF (n : Int) (k : Int → List Nat → W) (w : W) : W :=
  W.rec (motive := fun _ => W) (fun _ _ ih => ih) (fun bs => k n (bs.map (Nat.mod · 256))) (k (-1) []) .ub .abort w

theorem W.onF_room (n : Int) (k : Int → List Nat → W) (j : Nat) (w : W) :
    W.onF n k (.room j w) = W.onF n k w := rfl

theorem W.onF_res {n : Nat} {k : Int → List Nat → W} : ∀ (w : W) (j : Nat), W.Good j w →
    w.onF n k = match w.res with
      | some bs => k n (bs.map (·.toNat))
      | none => k (-1) [] := by
  intro w
  induction w with
  | room i w ih => intro j h; exact ih _ h
  | put bs =>
    intro j h
    show k n (bs.map (Nat.mod · 256)) = k n ((bs.map u8).map (·.toNat))
    rw [List.map_map]
    congr 1
  | iluni => intro j h; rfl
  | ub => intro j h; exact h.elim
  | abort => intro j h; exact h.elim

/-- A call on a local buffer of a program that asks for the whole buffer. -/
theorem W.on_fast {w : W} {n : Nat} (hg : W.Good 0 w) (hn : w.need = n) (h1 : 1 ≤ n) (k : Int → List Nat → W) :
    w.on n k = w.onF n k := by
  rw [W.onF_res w 0 hg]
  unfold W.on
  rw [W.good_eq w 0 0 n hg, if_pos (by omega)]
  cases hr : w.res with
  | none => rfl
  | some bs =>
    have := W.good_len w 0 bs hg hr
    have hl : bs.length = n := by omega
    show (if bs.length ≤ n then k (bs.length : Int) (bs.map (·.toNat)) else W.ub) = _
    rw [if_pos (by omega), ← hl]

/-- A call on a local buffer of a program that stores `n` bytes or none. -/
theorem W.Clean.on_fast {w : W} {n : Nat} (h : W.Clean n 0 w) (h1 : 1 ≤ n) (h7 : n ≤ 7) (k : Int → List Nat → W) :
    w.on n k = w.onF n k := by
  have hg := W.Clean.good h1 h7 w 0 h
  cases hr : w.res with
  | some bs =>
    have := W.Clean.len w 0 bs h hr
    exact W.on_fast hg (by omega) h1 k
  | none =>
    rw [W.onF_res w 0 hg, hr]
    unfold W.on
    rw [W.good_eq w 0 0 n hg, if_pos (by have := W.Clean.free w 0 h hr; omega), hr]
    rfl

noncomputable def M.andF {α β : Type} (f : α → M β) (m : M α) : M β :=
  M.rec (motive := fun _ => M β) f .ub .abort (fun k _ ih => .need k ih) (fun i _ ih => .byte i ih) m

theorem M.andThen_fast {α β : Type} (m : M α) (f : α → M β) : m.andThen f = M.andF f m := by
  induction m with
  | ret a => rfl
  | ub => rfl
  | abort => rfl
  | need k t ih => show M.need k (t.andThen f) = _; rw [ih]; rfl
  | byte i g ih =>
    show M.byte i (fun b => (g b).andThen f) = M.byte i fun b => M.andF f (g b)
    congr 1; funext b; exact ih b

noncomputable def W.orF (v w : W) : W :=
  W.rec (motive := fun _ => W) (fun j _ ih => .room j ih) .put v .ub .abort w

theorem W.orElse_fast (w v : W) : w.orElse v = W.orF v w := by
  induction w with
  | room j w ih => show W.room j (w.orElse v) = _; rw [ih]; rfl
  | _ => rfl

/-! Calls of small functions, taken apart. -/

theorem M.on_ret {β : Type} (r : MbRet) (l : List Nat) (f : MbRet → M β) : (M.ret r).on l f = f r := rfl

theorem M.on_byte {β : Type} (a : Nat) (l : List Nat) (g : Nat → M MbRet) (f : MbRet → M β) :
    (M.byte 0 g).on (a :: l) f = (g (Nat.mod a 256)).on (a :: l) f := by
  unfold M.on
  show (match (g (u8 a).toNat).run _ with | .ok (some r) => f r | .ok none => _ | .ub => _ | .abort => _ | .diverge => _) = _
  rw [u8_toNat]
  rfl

theorem M.on_ite {β : Type} (c : Prop) [Decidable c] (x y : M MbRet) (l : List Nat) (f : MbRet → M β) :
    (if c then x else y).on l f = if c then x.on l f else y.on l f := by
  by_cases h : c
  · rw [if_pos h, if_pos h]
  · rw [if_neg h, if_neg h]

theorem W.on_put1 (a : Nat) (k : Int → List Nat → W) : (W.put [a]).on 1 k = k 1 [Nat.mod a 256] := by
  show k 1 [(u8 a).toNat] = _
  rw [u8_toNat]
  rfl

theorem W.on_iluni (n : Nat) (k : Int → List Nat → W) : W.iluni.on n k = k (-1) [] := rfl

theorem W.on_ite (c : Prop) [Decidable c] (x y : W) (n : Nat) (k : Int → List Nat → W) :
    (if c then x else y).on n k = if c then x.on n k else y.on n k := by
  by_cases h : c
  · rw [if_pos h, if_pos h]
  · rw [if_neg h, if_neg h]

/-- For a result that is not known yet. -/
theorem code_ilseq_fast {α : Type} (r : MbRet) (x y : α) :
    (if r.code = RET_ILSEQ then x else y) =
    MbRet.rec (motive := fun _ => α) (fun _ _ => y) (fun k => Nat.rec x (fun _ _ => y) k) (fun _ => y) r := by
  cases r with
  | char wc n => exact char_ilseq_fast wc n x y
  | ilseq k =>
    cases k with
    | zero => rfl
    | succ k => exact if_neg (show ¬ (-1 - 2 * ((k + 1 : Nat) : Int)) = -1 by omega)
  | toofew k => exact if_neg (show ¬ (-2 - 2 * (k : Int)) = -1 by omega)

theorem char_one_fast {α : Type} (wc : Nat) (x y : α) : (if (MbRet.char wc 1).code = 1 then x else y) = x := rfl
theorem char_two_fast {α : Type} (wc : Nat) (x y : α) : (if (MbRet.char wc 2).code = 2 then x else y) = x := rfl
theorem char_wc_fast (wc n : Nat) : (MbRet.char wc n).wc = wc := rfl

theorem ascii_w_orElse (wc : Nat) (k : W) : (ascii_w wc).orElse k = if wc < 0x0080 then .put [wc] else k := by
  unfold ascii_w
  by_cases h : wc < 0x0080
  · rw [if_pos h, if_pos h]; rfl
  · rw [if_neg h, if_neg h]; rfl

/-- The tests of a program in the form used for evaluation. -/
macro "fast_simp" "[" ls:Lean.Parser.Tactic.simpLemma,* "]" : conv => `(conv|
  simp only [$ls,*, ascii_w_orElse, ge_iff_le, gt_iff_lt, ite_ne_fast, ite_not_fast, ite_and_fast, ite_or_fast, ite_le_fast, ite_lt_fast,
    ite_eq_fast, ilseq_ilseq_fast, char_ilseq_fast, iluni_fast, two_iluni_fast, one_iluni_fast,
    two_two_fast, one_one_fast, Tab.rdM_fast, Tab.rdW_fast, bufAt_zero_fast, bufAt_one_fast,
    bufAt_two_fast, M.on_ret, M.on_byte, M.on_ite, W.on_put1, W.on_iluni, W.on_ite, char_one_fast, char_two_fast,
    char_wc_fast])

end Reiconv
