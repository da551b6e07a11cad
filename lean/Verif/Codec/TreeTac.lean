import Verif.Codec.Charset

/-!
# Proving decoder and encoder programs well behaved

Lemmas and two tactics, `mgood` and `wgood`, which take a program apart along its structure.
-/

namespace Reiconv

namespace M

variable {α β : Type}

theorem good_ret {P : Nat → α → Prop} {k : Nat} {a : α} (h : P k a) : Good P k (.ret a) := h

theorem good_byte {P : Nat → α → Prop} {k i : Nat} {f : Nat → M α} (h : i < k)
    (hf : ∀ b, b < 256 → Good P k (f b)) : Good P k (.byte i f) := ⟨h, hf⟩

theorem good_need {P : Nat → α → Prop} {k j : Nat} {t : M α} (h : Good P (max k j) t) :
    Good P k (.need j t) := h

theorem good_mono {P : Nat → α → Prop} (hP : ∀ i j a, i ≤ j → P i a → P j a) :
    ∀ (m : M α) (k l : Nat), k ≤ l → Good P k m → Good P l m := by
  intro m
  induction m with
  | ret a => intro k l hl h; exact hP k l a hl h
  | ub => intro k l hl h; exact h.elim
  | abort => intro k l hl h; exact h.elim
  | need j t ih => intro k l hl h; exact ih _ _ (by omega) h
  | byte i f ih => intro k l hl h; exact ⟨by have := h.1; omega, fun b hb => ih b k l hl (h.2 b hb)⟩

theorem retOK_mono (i j : Nat) (a : MbRet) (hij : i ≤ j) (h : RetOK i a) : RetOK j a := by
  cases a with
  | char w n => exact ⟨h.1, Nat.le_trans h.2 hij⟩
  | ilseq k => exact ⟨h.1, Nat.le_trans h.2 hij⟩
  | toofew k => exact h

theorem good_at {m : M MbRet} {k : Nat} (h : Good RetOK 1 m) (hk : 1 ≤ k) : Good RetOK k m :=
  good_mono retOK_mono m 1 k hk h

theorem retOK_char {k w n : Nat} (h : 1 ≤ n) (h2 : n ≤ k) : RetOK k (.char w n) := ⟨h, h2⟩

theorem retOK_ilseq {k : Nat} (h : 1 ≤ k) : RetOK k (.ilseq 0) := ⟨rfl, h⟩

end M

theorem CsDec.good' {d : CsDec} (h : d.safeF = true) : M.Good M.RetOK 1 d.mbtowc := by
  refine M.good_imp _ 1 ?_ (CsDec.good h)
  rintro j a hj (rfl | ⟨h2, wc, rfl⟩)
  · exact ⟨rfl, hj⟩
  · exact ⟨by omega, h2⟩

theorem W.good_mono : ∀ (w : W) (k : Nat), W.Good 0 w → k ≤ w.need → W.Good k w := by
  intro w
  induction w with
  | room j w ih =>
    intro k h hk
    show W.Good (max k j) w
    have h0 : W.Good (max 0 j) w := h
    rw [Nat.zero_max] at h0
    by_cases hkj : k ≤ j
    · rw [Nat.max_eq_right hkj]; exact h0
    · rw [Nat.max_eq_left (by omega)]
      have hk' : k ≤ w.need := by simp only [W.need] at hk; omega
      -- the room asked for later is at least `k`
      have : ∀ (w : W) (j k : Nat), j ≤ k → W.Good j w → k ≤ w.need → W.Good k w := by
        intro w
        induction w with
        | room i w ih2 =>
          intro j k hjk h hk
          show W.Good (max k i) w
          have h : W.Good (max j i) w := h
          by_cases hki : k ≤ i
          · rw [Nat.max_eq_right hki]; rwa [Nat.max_eq_right (by omega)] at h
          · exact ih2 (max j i) (max k i) (by omega) h (by simp only [W.need] at hk; omega)
        | put bs => intro j k hjk h hk; simp only [W.need] at hk
                    have : k = j := by omega
                    subst this; exact h
        | iluni => intro j k hjk h hk; simp only [W.need] at hk
                   have : k = 0 := by omega
                   subst this; exact (by show 0 ≤ 7; omega)
        | ub => intro j k hjk h; exact h.elim
        | abort => intro j k hjk h; exact h.elim
      exact this w j k (by omega) h0 hk'
  | put bs => intro k h hk; simp only [W.need] at hk
              have : k = 0 := by omega
              subst this; exact h
  | iluni => intro k h hk; simp only [W.need] at hk; show k ≤ 7; omega
  | ub => intro k h; exact h.elim
  | abort => intro k h; exact h.elim

theorem W.good_room {k j : Nat} {w : W} (h : W.Good (max k j) w) : W.Good k (.room j w) := h

theorem W.good_put {k : Nat} {bs : List Nat} (h : 1 ≤ bs.length) (h1 : bs.length ≤ max k 1)
    (h2 : k ≤ bs.length) (h3 : k ≤ 7) : W.Good k (.put bs) :=
  ⟨by rintro rfl; exact absurd h (by simp), h1, h2, h3⟩

theorem W.good_iluni {k : Nat} (h : k ≤ 7) : W.Good k .iluni := h

theorem CsEnc.good2 {e : CsEnc} (h : e.safeF = true) (wc k : Nat) (hk : k ≤ 2) :
    W.Good k (e.wctomb wc) :=
  W.good_mono _ k (CsEnc.good h wc) (by
    rw [e.wctomb_eq h]; simp only [W.need]; omega)

/-- Programs that ask for exactly two bytes. -/
theorem W.two_of_good {w : W} (h : W.Good 0 w) (hn : w.need = 2) : W.Two w := by
  unfold W.Two
  rw [W.good_eq w 0 0 2 h, if_pos (by omega)]
  cases hr : w.res with
  | none => exact .inl rfl
  | some bs =>
    have := W.good_len w 0 bs h hr
    match bs, this with
    | [], h => exact absurd rfl h.1
    | [a], h => simp only [List.length_cons, List.length_nil] at h; omega
    | [a, b], h => exact .inr ⟨a, b, rfl⟩
    | a :: b :: c :: l, h => simp only [List.length_cons] at h; omega

/-- Encoder programs that check for room of `n` bytes when the character is representable only, and then
store `n` bytes. -/
def W.Clean (n : Nat) : Nat → W → Prop
  | k, .room j w => W.Clean n (max k j) w
  | k, .put bs => k = n ∧ bs.length = n
  | k, .iluni => k = 0
  | _, .ub => False
  | _, .abort => False

theorem W.Clean.good {n : Nat} (h1 : 1 ≤ n) (h7 : n ≤ 7) : ∀ (w : W) (k : Nat), W.Clean n k w → W.Good k w := by
  intro w
  induction w with
  | room j w ih => intro k h; exact ih _ h
  | put bs => intro k h; exact W.good_put (by have := h.2; omega) (by have := h.2; have := h.1; omega) (by have := h.2; have := h.1; omega) (by have := h.1; omega)
  | iluni => intro k h; have h : k = 0 := h; exact W.good_iluni (by omega)
  | ub => intro k h; exact h.elim
  | abort => intro k h; exact h.elim

theorem W.Clean.free {n : Nat} : ∀ (w : W) (k : Nat), W.Clean n k w → w.res = none → k = 0 ∧ w.need = 0 := by
  intro w
  induction w with
  | room j w ih =>
    intro k h hr
    have := ih _ h hr
    refine ⟨by omega, ?_⟩
    show max j w.need = 0
    omega
  | put bs => intro k h hr; exact absurd hr (by simp [W.res])
  | iluni => intro k h _; exact ⟨h, rfl⟩
  | ub => intro k h; exact h.elim
  | abort => intro k h; exact h.elim

theorem W.Clean.len {n : Nat} : ∀ (w : W) (k : Nat) (bs : List Byte), W.Clean n k w → w.res = some bs →
    max k w.need = n ∧ bs.length = n := by
  intro w
  induction w with
  | room j w ih =>
    intro k bs h hr
    have := ih _ bs h hr
    refine ⟨?_, this.2⟩
    show max k (max j w.need) = n
    omega
  | put cs =>
    intro k bs h hr
    have hr : some (cs.map u8) = some bs := hr
    injection hr with hr
    refine ⟨?_, by rw [← hr, List.length_map]; exact h.2⟩
    show max k 0 = n
    have := h.1; omega
  | iluni => intro k bs h hr; exact absurd hr (by simp [W.res])
  | ub => intro k bs h; exact h.elim
  | abort => intro k bs h; exact h.elim

theorem W.Clean.two {w : W} (h : W.Clean 2 0 w) : W.Two w := by
  unfold W.Two
  have hg := W.Clean.good (by omega) (by omega) w 0 h
  rw [W.good_eq w 0 0 2 hg]
  cases hr : w.res with
  | none =>
    have := W.Clean.free w 0 h hr
    rw [if_pos (by omega)]; exact .inl rfl
  | some bs =>
    have hl := W.Clean.len w 0 bs h hr
    rw [if_pos (by omega)]
    match bs, hl.2 with
    | [a, b], _ => exact .inr ⟨a, b, rfl⟩

theorem W.orElse_some {v : W} : ∀ (w : W) (bs : List Byte), w.res = some bs → w.orElse v = w := by
  intro w
  induction w with
  | room j w ih => intro bs h; show W.room j (w.orElse v) = _; rw [ih bs h]
  | put cs => intro bs h; rfl
  | iluni => intro bs h; exact absurd h (by simp [W.res])
  | ub => intro bs h; rfl
  | abort => intro bs h; rfl

/-- Trying a clean program first. -/
theorem W.Clean.orElse {n : Nat} (h1 : 1 ≤ n) (h7 : n ≤ 7) {v : W} (hv : W.Good 0 v) : ∀ (w : W),
    W.Clean n 0 w → W.Good 0 (w.orElse v) := by
  intro w h
  cases hr : w.res with
  | some bs => rw [W.orElse_some w bs hr]; exact W.Clean.good h1 h7 w 0 h
  | none => exact W.good_orElse0 w 0 (W.Clean.free w 0 h hr).2 (W.Clean.good h1 h7 w 0 h) hv

theorem W.clean_room {n k j : Nat} {w : W} (h : W.Clean n (max k j) w) : W.Clean n k (.room j w) := h
theorem W.clean_iluni {n k : Nat} (h : k = 0) : W.Clean n k .iluni := h
theorem W.clean_put1 {k a : Nat} (h : k = 1) : W.Clean 1 k (.put [a]) := ⟨h, rfl⟩
theorem W.clean_put2 {k a b : Nat} (h : k = 2) : W.Clean 2 k (.put [a, b]) := ⟨h, rfl⟩
theorem W.clean_put3 {k a b c : Nat} (h : k = 3) : W.Clean 3 k (.put [a, b, c]) := ⟨h, rfl⟩
theorem W.clean_ite {n k : Nat} {c : Prop} [Decidable c] {a b : W}
    (h1 : c → W.Clean n k a) (h2 : ¬ c → W.Clean n k b) : W.Clean n k (if c then a else b) := by
  by_cases h : c
  · rw [if_pos h]; exact h1 h
  · rw [if_neg h]; exact h2 h
theorem W.clean_on2 {n : Nat} {w : W} {j : Nat} {k : Int → List Nat → W} (h : W.Two w)
    (h1 : W.Clean n j (k (-1) [])) (h2 : ∀ a b, a < 256 → b < 256 → W.Clean n j (k 2 [a, b])) :
    W.Clean n j (W.on w 2 k) := by
  unfold W.on
  rcases h with h | ⟨a, b, h⟩
  · rw [h]; exact h1
  · rw [h]; exact h2 a.toNat b.toNat (UInt8.toNat_lt _) (UInt8.toNat_lt _)
theorem W.clean_on1 {n : Nat} {w : W} {j : Nat} {k : Int → List Nat → W} (h : W.One w)
    (h1 : W.Clean n j (k (-1) [])) (h2 : ∀ a, a < 256 → W.Clean n j (k 1 [a])) :
    W.Clean n j (W.on w 1 k) := by
  unfold W.on
  rcases h with h | ⟨a, h⟩
  · rw [h]; exact h1
  · rw [h]; exact h2 a.toNat (UInt8.toNat_lt _)

/-- Trying a character set function on the output first: it checks for two bytes. -/
theorem CsEnc.good_orElse {e : CsEnc} (h : e.safeF = true) {wc k : Nat} {v : W} (hk : k ≤ 2) (hv : W.Good 2 v) :
    W.Good k ((e.wctomb wc).orElse v) := by
  rw [e.wctomb_eq h]
  show W.Good (max k 2) _
  rw [Nat.max_eq_right hk]
  cases e.code wc with
  | none => exact hv
  | some c => exact W.good_put (by simp) (by simp) (by simp) (by omega)

/-- Read a table inside a decoder program. -/
def Tab.rdM {α : Type} (t : Tab) (i : Nat) (f : Nat → M α) : M α :=
  match t.get i with
  | .ok v => f v
  | .abort => .abort
  | _ => .ub

/-- Read a table inside an encoder program. -/
def Tab.rdW (t : Tab) (i : Nat) (f : Nat → W) : W :=
  match t.get i with
  | .ok v => f v
  | .abort => .abort
  | _ => .ub

theorem Tab.rdM_eq {α : Type} {t : Tab} {i : Nat} (h : i < t.len) (f : Nat → M α) :
    t.rdM i f = f (t.getF i) := by
  unfold Tab.rdM; rw [Tab.get_fast h]

theorem Tab.rdW_eq {t : Tab} {i : Nat} (h : i < t.len) (f : Nat → W) :
    t.rdW i f = f (t.getF i) := by
  unfold Tab.rdW; rw [Tab.get_fast h]

theorem Tab.good_rdM {α : Type} {P : Nat → α → Prop} {k : Nat} {t : Tab} {i : Nat} {f : Nat → M α}
    (h : i < t.len) (hf : M.Good P k (f (t.getF i))) : M.Good P k (t.rdM i f) := by
  rw [Tab.rdM_eq h]; exact hf

theorem Tab.good_rdW {k : Nat} {t : Tab} {i : Nat} {f : Nat → W}
    (h : i < t.len) (hf : W.Good k (f (t.getF i))) : W.Good k (t.rdW i f) := by
  rw [Tab.rdW_eq h]; exact hf

theorem code_char (wc n : Nat) : (MbRet.char wc n).code = n := rfl
theorem code_char_self {wc n : Nat} : ¬ (MbRet.char wc n).code ≠ n := fun h => h rfl
theorem code_char_one {wc : Nat} : ¬ (MbRet.char wc 1).code ≠ 1 := fun h => h rfl
theorem code_char_two {wc : Nat} : ¬ (MbRet.char wc 2).code ≠ 2 := fun h => h rfl
theorem code_char_pos {wc n : Nat} : ¬ (MbRet.char wc n).code = RET_ILSEQ := by
  intro h; have h : (n : Int) = -1 := h; omega
theorem M.good_code_one {α : Type} {P : Nat → α → Prop} {k wc : Nat} {a b : M α} (h : M.Good P k b) :
    M.Good P k (if (MbRet.char wc 1).code ≠ 1 then a else b) := by rwa [if_neg code_char_one]
theorem M.good_code_two {α : Type} {P : Nat → α → Prop} {k wc : Nat} {a b : M α} (h : M.Good P k b) :
    M.Good P k (if (MbRet.char wc 2).code ≠ 2 then a else b) := by rwa [if_neg code_char_two]
theorem M.good_code_ilseq {α : Type} {P : Nat → α → Prop} {k wc n : Nat} {a b : M α} (h : M.Good P k b) :
    M.Good P k (if (MbRet.char wc n).code = RET_ILSEQ then a else b) := by rwa [if_neg code_char_pos]
theorem code_ilseq (k : Nat) : (MbRet.ilseq k).code = -1 - 2 * (k : Int) := rfl
theorem RET_ILSEQ_eq : RET_ILSEQ = -1 := rfl
theorem RET_ILUNI_eq : RET_ILUNI = -1 := rfl
theorem RET_TOOSMALL_eq : RET_TOOSMALL = -2 := rfl

/-- `buf[i]` of a local buffer. -/
abbrev bufAt (buf : List Nat) (i : Nat) : Nat := buf.getD i 0

/-- `ascii_mbtowc` (`lib/converters/ascii.h:30-39`) as a decoder program. -/
def ascii_m : M MbRet :=
  .byte 0 fun c => if c < 0x80 then .ret (.char c 1) else .ret (.ilseq 0)

/-- `ascii_wctomb` (`lib/converters/ascii.h:41-49`) as an encoder program. -/
def ascii_w (wc : Nat) : W := if wc < 0x0080 then .put [wc] else .iluni

theorem W.good_put1 {k a : Nat} (h : k ≤ 1) : W.Good k (.put [a]) :=
  W.good_put (Nat.le_refl 1) (by simp only [List.length_cons, List.length_nil]; omega) h (by omega)

theorem W.good_put2 {k a b : Nat} (h : k = 2) : W.Good k (.put [a, b]) :=
  W.good_put (by simp) (by simp only [List.length_cons, List.length_nil]; omega)
    (by simp only [List.length_cons, List.length_nil]; omega) (by omega)

theorem W.good_put3 {k a b c : Nat} (h : k = 3) : W.Good k (.put [a, b, c]) :=
  W.good_put (by simp) (by simp only [List.length_cons, List.length_nil]; omega)
    (by simp only [List.length_cons, List.length_nil]; omega) (by omega)

theorem W.good_put4 {k a b c d : Nat} (h : k = 4) : W.Good k (.put [a, b, c, d]) :=
  W.good_put (by simp) (by simp only [List.length_cons, List.length_nil]; omega)
    (by simp only [List.length_cons, List.length_nil]; omega) (by omega)

/-- Take a decoder program apart. Facts about the character set functions it calls (`M.Two`, `M.One`,
`M.Good M.RetOK 1`) are taken from the context. -/
macro "mgood" : tactic => `(tactic| set_option maxRecDepth 2000 in repeat' (with_reducible first
  | assumption
  | exact absurd ‹(MbRet.ilseq 0).code ≠ RET_ILSEQ› (by decide)
  | exact absurd ‹¬ (MbRet.ilseq 0).code = RET_ILSEQ› (by decide)
  | refine M.retOK_char ?_ ?_
  | refine M.retOK_ilseq ?_
  | refine M.good_ret ?_
  | refine M.good_byte ?_ ?_
  | refine M.good_need ?_
  | refine M.good_code_ilseq ?_
  | refine M.good_code_one ?_
  | refine M.good_code_two ?_
  | refine M.good_ite ?_ ?_
  | refine Tab.good_rdM ?_ ?_
  | (refine M.good_on2 (by assumption) ?_ ?_)
  | (refine M.good_on1 (by assumption) ?_ ?_)
  | (refine M.good_at (by assumption) ?_)
  | (refine M.good_andThen _ _ (M.good_at (by assumption) ?_) ?_)
  | intro _
  | omega
  | dsimp only))

/-- Take an encoder program apart. -/
macro "wgood" : tactic => `(tactic| set_option maxRecDepth 2000 in repeat' (with_reducible first
  | assumption
  | exact absurd ‹(-1 : Int) ≠ RET_ILUNI› (by decide)
  | exact absurd ‹(-1 : Int) ≠ RET_ILUNI ∧ _› (fun h => absurd h.1 (by decide))
  | exact absurd ‹¬ (2 : Int) ≠ RET_ILUNI› (by decide)
  | exact absurd ‹¬ (1 : Int) ≠ RET_ILUNI› (by decide)
  | exact absurd ‹(2 : Int) ≠ 2› (by decide)
  | exact absurd ‹(1 : Int) ≠ 1› (by decide)
  | refine W.good_put1 ?_
  | refine W.good_put2 ?_
  | refine W.good_put3 ?_
  | refine W.good_put4 ?_
  | refine W.good_iluni ?_
  | refine W.good_room ?_
  | refine W.good_ite ?_ ?_
  | refine Tab.good_rdW ?_ ?_
  | (refine W.good_orElse0 _ _ (by apply_assumption) (by apply_assumption) ?_)
  | (refine W.good_on2 (by apply_assumption) ?_ ?_)
  | (refine W.good_on1 (by apply_assumption) ?_ ?_)
  | (refine W.Clean.orElse (by omega) (by omega) ?_ _ (by apply_assumption))
  | (refine CsEnc.good_orElse (by assumption) ?_ ?_)
  | (refine CsEnc.good2 (by assumption) _ _ ?_)
  | intro _
  | omega
  | dsimp only))

/-- Take an encoder program apart that is to be `W.Clean`. -/
macro "wclean" : tactic => `(tactic| set_option maxRecDepth 2000 in repeat' (with_reducible first
  | assumption
  | exact absurd ‹(-1 : Int) ≠ RET_ILUNI› (by decide)
  | exact absurd ‹¬ (2 : Int) ≠ RET_ILUNI› (by decide)
  | exact absurd ‹¬ (1 : Int) ≠ RET_ILUNI› (by decide)
  | exact absurd ‹(2 : Int) ≠ 2› (by decide)
  | exact absurd ‹(1 : Int) ≠ 1› (by decide)
  | refine W.clean_put1 ?_
  | refine W.clean_put2 ?_
  | refine W.clean_put3 ?_
  | refine W.clean_iluni ?_
  | refine W.clean_room ?_
  | refine W.clean_ite ?_ ?_
  | (refine W.clean_on2 (by apply_assumption) ?_ ?_)
  | (refine W.clean_on1 (by apply_assumption) ?_ ?_)
  | intro _
  | omega
  | dsimp only))

theorem ascii_m_good : M.Good M.RetOK 1 ascii_m := by unfold ascii_m; mgood

theorem ascii_w_good (wc : Nat) : W.Good 0 (ascii_w wc) := by unfold ascii_w; wgood

theorem ascii_w_need (wc : Nat) : (ascii_w wc).need = 0 := by
  unfold ascii_w; split <;> rfl

end Reiconv
