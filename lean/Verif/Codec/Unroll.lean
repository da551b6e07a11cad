import Verif.Codec.Fast

/-!
# Table lookups written out for the kernel

The searches through the lists of ranges are turned into nested tests with literal bounds. This needs
that the ranges are in ascending order.
-/

namespace Reiconv

noncomputable def spanS : List Span → Nat → Nat
  | [], _ => 0
  | r :: rs, c => Bool.rec (Bool.rec 0 (Nat.succ (Nat.sub c r.sub)) (Nat.ble r.lo c)) (spanS rs c)
      (Nat.ble r.hi c)

noncomputable def Seg.evalS (r : Seg) (i : Nat) : Nat :=
  match r.kind with
  | .add base => Nat.succ (Nat.add (Nat.sub i r.lo) base)
  | .tab t off => forceN (t.getF (Nat.sub i off)) fun v => Bool.rec (Nat.succ v) 0 (Nat.beq v 0xfffd)
  | .pages t off u sh => forceN (t.getF (Nat.sub i off)) fun swc =>
      forceN (Nat.lor (u.getF (Nat.shiftRight swc sh)) (Nat.land swc (Nat.sub (Nat.pow 2 sh) 1))) fun v =>
        Bool.rec (Nat.succ v) 0 (Nat.beq v 0xfffd)
  | .main v d t => Nat.succ (Nat.add (v.getF (Nat.div i d)) (t.getF i))

noncomputable def segS : List Seg → Nat → Nat
  | [], _ => 0
  | r :: rs, i => Bool.rec (Bool.rec 0 (r.evalS i) (Nat.ble r.lo i)) (segS rs i) (Nat.ble r.hi i)

noncomputable def popS (u : Nat) : Nat :=
  forceN (Nat.add (Nat.land u 0x5555) (Nat.shiftRight (Nat.land u 0xaaaa) 1)) fun u =>
  forceN (Nat.add (Nat.land u 0x3333) (Nat.shiftRight (Nat.land u 0xcccc) 2)) fun u =>
  forceN (Nat.add (Nat.land u 0x0f0f) (Nat.shiftRight (Nat.land u 0xf0f0) 4)) fun u =>
  Nat.add (Nat.land u 0x00ff) (Nat.shiftRight u 8)

noncomputable def CSeg.evalS (k : Codes) (r : CSeg) (wc : Nat) : Nat :=
  match r.kind with
  | .summ t off => forceN (t.getF (Nat.sub (Nat.shiftRight wc 4) off)) fun s =>
      forceN (Nat.shiftRight s 16) fun used => forceN (Nat.shiftLeft 1 (Nat.land wc 0x0f)) fun b =>
        Bool.rec (Nat.succ (k.getF (Nat.add (Nat.mod s 65536) (popS (Nat.land used (Nat.sub b 1)))))) 0
          (Nat.beq (Nat.land used b) 0)
  | .tab t off => forceN (t.getF (Nat.sub wc off)) fun c => Bool.rec (Nat.succ c) 0 (Nat.beq c 0)
  | .const c => Nat.succ c

noncomputable def csegS (k : Codes) : List CSeg → Nat → Nat
  | [], _ => 0
  | r :: rs, wc => Bool.rec (Bool.rec 0 (r.evalS k wc) (Nat.ble r.lo wc)) (csegS k rs wc) (Nat.ble r.hi wc)

/-- Ranges in ascending order. -/
def asc : List (Nat × Nat) → Bool
  | [] => true
  | r :: rs => (decide (r.1 ≤ r.2) && (rs.all fun q => decide (r.2 ≤ q.1))) && asc rs

def CsDec.sorted (d : CsDec) : Bool :=
  asc (d.rows.map fun r => (r.lo, r.hi)) && (asc (d.cols.map fun r => (r.lo, r.hi)) &&
    asc (d.segs.map fun r => (r.lo, r.hi)))

def CsEnc.sorted (e : CsEnc) : Bool := asc (e.segs.map fun r => (r.lo, r.hi))

theorem bool_rec_ble {α : Type} (a b : Nat) (x y : α) :
    (Bool.rec y x (Nat.ble a b) : α) = if a ≤ b then x else y := by
  rw [ite_le_fast]
  cases Nat.ble a b <;> rfl

theorem bool_rec_beq {α : Type} (a b : Nat) (x y : α) :
    (Bool.rec y x (Nat.beq a b) : α) = if a = b then x else y := by
  rw [ite_eq_fast]
  cases Nat.beq a b <;> rfl

theorem cond_rec {α : Type} (c : Bool) (x y : α) : cond c x y = Bool.rec y x c := by cases c <;> rfl

theorem popS_eq (u : Nat) : popS u = popF u := by
  unfold popS popF
  simp only [forceN_eq]

theorem spanF_cons (r : Span) (rs : List Span) (c : Nat) : spanF (r :: rs) c =
    if r.lo ≤ c ∧ c < r.hi then Nat.succ (Nat.sub c r.sub) else spanF rs c := by
  have : spanF (r :: rs) c = cond (Nat.ble r.lo c) (cond (Nat.ble (Nat.succ c) r.hi)
    (Nat.succ (Nat.sub c r.sub)) (spanF rs c)) (spanF rs c) := rfl
  rw [this, ← ite_le_fast, ← ite_lt_fast]
  by_cases h1 : r.lo ≤ c <;> by_cases h2 : c < r.hi <;> simp [h1, h2]

theorem asc_mem {α : Type} (f : α → Nat × Nat) {r : α} {l : List α} (h : asc ((r :: l).map f) = true) :
    (f r).1 ≤ (f r).2 ∧ (∀ q ∈ l, (f r).2 ≤ (f q).1) ∧ asc (l.map f) = true := by
  simp only [List.map_cons, asc, Bool.and_eq_true, decide_eq_true_eq, List.all_eq_true, List.mem_map] at h
  exact ⟨h.1.1, fun q hq => h.1.2 _ ⟨q, hq, rfl⟩, h.2⟩

theorem spanF_low : ∀ (l : List Span) (c : Nat), (∀ q ∈ l, c < q.lo) → spanF l c = 0 := by
  intro l c
  induction l with
  | nil => intro _; rfl
  | cons r rs ih =>
    intro h
    have := h r (List.mem_cons_self ..)
    rw [spanF_cons, if_neg (by omega)]
    exact ih fun q hq => h q (List.mem_cons_of_mem _ hq)

theorem spanS_eq : ∀ (l : List Span) (c : Nat), asc (l.map fun r => (r.lo, r.hi)) = true →
    spanF l c = spanS l c := by
  intro l c
  induction l with
  | nil => intro _; rfl
  | cons r rs ih =>
    intro h
    obtain ⟨h1, h2, h3⟩ := asc_mem _ h
    simp only at h1 h2
    rw [spanF_cons, spanS, bool_rec_ble, bool_rec_ble, ← ih h3]
    by_cases hc : r.hi ≤ c
    · rw [if_pos hc, if_neg (by omega)]
    · rw [if_neg hc]
      by_cases hl : r.lo ≤ c
      · rw [if_pos hl, if_pos (by omega)]
      · rw [if_neg hl, if_neg (by omega)]
        exact spanF_low rs c fun q hq => by have := h2 q hq; omega

theorem segF_low : ∀ (l : List Seg) (c : Nat), (∀ q ∈ l, c < q.lo) → segF l c = 0 := by
  intro l c
  induction l with
  | nil => intro _; rfl
  | cons r rs ih =>
    intro h
    have := h r (List.mem_cons_self ..)
    rw [segF_cons, if_neg (by omega)]
    exact ih fun q hq => h q (List.mem_cons_of_mem _ hq)

theorem holeS_eq (v : Nat) : holeF v = Bool.rec (Nat.succ v) 0 (Nat.beq v 0xfffd) := by
  unfold holeF; rw [cond_rec]

theorem Seg.evalS_eq (r : Seg) (i : Nat) : r.evalF i = r.evalS i := by
  obtain ⟨lo, hi, k⟩ := r
  cases k <;> simp only [Seg.evalS, forceN_eq, ← holeS_eq] <;> rfl

theorem segS_eq : ∀ (l : List Seg) (c : Nat), asc (l.map fun r => (r.lo, r.hi)) = true →
    segF l c = segS l c := by
  intro l c
  induction l with
  | nil => intro _; rfl
  | cons r rs ih =>
    intro h
    obtain ⟨h1, h2, h3⟩ := asc_mem _ h
    simp only at h1 h2
    rw [segF_cons, segS, bool_rec_ble, bool_rec_ble, ← ih h3, Seg.evalS_eq]
    by_cases hc : r.hi ≤ c
    · rw [if_pos hc, if_neg (by omega)]
    · rw [if_neg hc]
      by_cases hl : r.lo ≤ c
      · rw [if_pos hl, if_pos (by omega)]
      · rw [if_neg hl, if_neg (by omega)]
        exact segF_low rs c fun q hq => by have := h2 q hq; omega

theorem CSeg.evalS_eq (k : Codes) (r : CSeg) (i : Nat) : r.evalF k i = r.evalS k i := by
  obtain ⟨lo, hi, kd⟩ := r
  cases kd <;> simp only [CSeg.evalS, forceN_eq, popS_eq, ← cond_rec] <;> rfl

theorem csegF_low (k : Codes) : ∀ (l : List CSeg) (c : Nat), (∀ q ∈ l, c < q.lo) → csegF k l c = 0 := by
  intro l c
  induction l with
  | nil => intro _; rfl
  | cons r rs ih =>
    intro h
    have := h r (List.mem_cons_self ..)
    rw [csegF_cons, if_neg (by omega)]
    exact ih fun q hq => h q (List.mem_cons_of_mem _ hq)

theorem csegS_eq (k : Codes) : ∀ (l : List CSeg) (c : Nat), asc (l.map fun r => (r.lo, r.hi)) = true →
    csegF k l c = csegS k l c := by
  intro l c
  induction l with
  | nil => intro _; rfl
  | cons r rs ih =>
    intro h
    obtain ⟨h1, h2, h3⟩ := asc_mem _ h
    simp only at h1 h2
    rw [csegF_cons, csegS, bool_rec_ble, bool_rec_ble, ← ih h3, CSeg.evalS_eq]
    by_cases hc : r.hi ≤ c
    · rw [if_pos hc, if_neg (by omega)]
    · rw [if_neg hc]
      by_cases hl : r.lo ≤ c
      · rw [if_pos hl, if_pos (by omega)]
      · rw [if_neg hl, if_neg (by omega)]
        exact csegF_low k rs c fun q hq => by have := h2 q hq; omega

noncomputable def CsDec.decS (d : CsDec) (c1 c2 : Nat) : Nat :=
  Nat.rec 0 (fun r _ => Nat.rec 0 (fun c _ =>
    forceN (Nat.add (Nat.mul d.stride r) c) (segS d.segs)) (spanS d.cols c2)) (spanS d.rows c1)

theorem CsDec.decS_eq {d : CsDec} (h : d.sorted = true) (a b : Nat) : d.decF a b = d.decS a b := by
  simp only [CsDec.sorted, Bool.and_eq_true] at h
  unfold CsDec.decF CsDec.decS
  simp only [forceN_eq, spanS_eq _ _ h.1, spanS_eq _ _ h.2.1, segS_eq _ _ h.2.2]

theorem CsEnc.encS_eq {e : CsEnc} (h : e.sorted = true) (wc : Nat) : e.encF wc = csegS e.codes e.segs wc :=
  csegS_eq _ _ _ h

/-- The program of a character set, written out. -/
noncomputable def CsDec.fastS (d : CsDec) : M MbRet :=
  .byte 0 fun c1 => Nat.rec (.ret (.ilseq 0)) (fun r _ => .need 2 (.byte 1 fun c2 =>
    Nat.rec (.ret (.ilseq 0)) (fun c _ => Nat.rec (.ret (.ilseq 0)) (fun wc _ => .ret (.char wc 2))
      (forceN (Nat.add (Nat.mul d.stride r) c) (segS d.segs))) (spanS d.cols c2))) (spanS d.rows c1)

theorem CsDec.fastS_eq {d : CsDec} (h : d.safeF = true) (hs : d.sorted = true) : d.mbtowc = d.fastS := by
  simp only [CsDec.sorted, Bool.and_eq_true] at hs
  rw [CsDec.fast h]
  unfold CsDec.fastM CsDec.fastS
  simp only [forceN_eq, spanS_eq _ _ hs.1, spanS_eq _ _ hs.2.1, segS_eq _ _ hs.2.2]

/-- Write out a lookup. -/
macro "unroll" "[" ls:Lean.Parser.Tactic.simpLemma,* "]" : conv => `(conv|
  simp only [$ls,*, CsDec.decS, CsDec.fastS, segS, spanS, csegS, Seg.evalS, CSeg.evalS])

end Reiconv
