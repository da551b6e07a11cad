import Verif.Props.Utf7Read
import Verif.Props.IsoWrite

/-!
# C64: what is written in UTF-7

RFC 2152 leaves a writer many choices: which characters are written as they are, where base64 begins and ends, and when
`-` is written behind it. The specification says which ones are taken.
-/

namespace Reiconv.Utf7W

open Rfc2152 (codes alphabet chr Bits number)

/-! ## Specification -/

/-- The characters that are written as they are: set D of RFC 2152, space, tab, carriage return and line feed. -/
def plain : List Byte := codes "ABCDEFGHIJKLMNOPQRSTUVWXYZabcdefghijklmnopqrstuvwxyz0123456789'(),-./:? \t\r\n"

/-- UTF-16. -/
def units (c : Nat) : List Nat :=
  if c < 0x10000 then [c] else [0xd800 + (c - 0x10000) / 0x400, 0xdc00 + (c - 0x10000) % 0x400]

/-- What is written behind base64: `-` at the end of the text and before a character that could belong to the base64,
or is `-`. -/
inductive Close : List Nat → List Byte → Prop
  | last : Close [] [0x2d]
  | dash {c cs} : c ∈ plain → c ∈ alphabet ∨ c = 0x2d → Close (c.toNat :: cs) [0x2d]
  | none {c cs} : c ∈ plain → c ∉ alphabet → c ≠ 0x2d → Close (c.toNat :: cs) []

/-- What is written for a text. A sequence of characters that are not written as they are is written in base64, as a
whole; a `+` before it is written `+-`. -/
inductive Writes : List Nat → List Byte → Prop
  | nil : Writes [] []
  | plain {c cs out} : c ∈ plain → Writes cs out → Writes (c.toNat :: cs) (c :: out)
  | plus {cs out} : Writes cs out → Writes (0x2b :: cs) (0x2b :: 0x2d :: out)
  | base64 {w ws cs vs m out} : w ≠ 0x2b → (∀ c ∈ w :: ws, ∀ b ∈ plain, b.toNat ≠ c) → Bits vs ((w :: ws).flatMap units) 0 →
      Close cs m → Writes cs out → Writes (w :: ws ++ cs) (0x2b :: (vs.map chr ++ m ++ out))

/-- Numbers from 0x110000 on, which some sources have, are left out with `discard`, and otherwise replaced by U+FFFD. -/
inductive Shown (discard : Bool) : List Nat → List Nat → Nat → Prop
  | nil : Shown discard [] [] 0
  | char {c cs ds n} : c < 0x110000 → Shown discard cs ds n → Shown discard (c :: cs) (c :: ds) n
  | drop {c cs ds n} : 0x110000 ≤ c → discard = true → Shown discard cs ds n → Shown discard (c :: cs) ds (1 + n)
  | replace {c cs ds n} : 0x110000 ≤ c → discard = false → Shown discard cs ds n → Shown discard (c :: cs) (0xfffd :: ds) (1 + n)

def Text (discard : Bool) (cs : List Nat) (out : List Byte) (irr : Nat) : Prop := ∃ ds, Shown discard cs ds irr ∧ Writes ds out

/-! ## Proofs -/

theorem units_eq : units = utf16Units := rfl

theorem plain_iff (c : Nat) : u7_isdirect c = true ↔ ∃ b ∈ plain, b.toNat = c := by
  have key : ∀ c, c < 256 → (u7_isdirect c = true ↔ ∃ b ∈ plain, b.toNat = c) := by decide +kernel
  constructor
  · intro h
    have := u7_direct_lt h
    exact (key c (by omega)).1 h
  · rintro ⟨b, hb, rfl⟩
    exact (key _ b.toNat_lt).2 ⟨b, hb, rfl⟩

theorem plain_not {c : Nat} : u7_isdirect c = false ↔ ∀ b ∈ plain, b.toNat ≠ c := by
  rw [Bool.eq_false_iff, ne_eq, plain_iff]
  simp

theorem close_of {c : Nat} {cs : List Nat} (h : u7_isdirect c = true) :
    Close (c :: cs) (if u7_isxbase64 c then [0x2d] else []) := by
  have key : ∀ c, c < 128 → u7_isdirect c = true → u8 c ∈ plain := by decide +kernel
  have key2 : ∀ c, c < 128 → u7_isxbase64 c = true → u8 c ∈ alphabet ∨ u8 c = 0x2d := by decide +kernel
  obtain ⟨_, h2, h3⟩ := Rfc2152.xbase64_iff h
  have h1 := key c (u7_direct_lt h) h
  have h4 := key2 c (u7_direct_lt h)
  cases hx : u7_isxbase64 c with
  | true =>
    have := Close.dash (cs := cs) h1 (h4 hx)
    rw [h2] at this
    exact this
  | false =>
    have := Close.none (cs := cs) h1 (h3 hx).1 (h3 hx).2
    rw [h2] at this
    exact this

/-- What the encoder writes is so. -/
theorem writes : ∀ (n : Nat) (w : List Nat), w.length ≤ n → (∀ c ∈ w, c < 0x110000) → ∀ bs os, utf7_encoder.text 0 w = some (bs, os) →
    Writes w (bs ++ utf7_encoder.tail os) := by
  intro n
  induction n with
  | zero =>
    intro w hn _ bs os h
    have := List.length_eq_zero_iff.1 (Nat.le_zero.1 hn)
    subst this
    simp only [Encoder.text, Option.some.injEq, Prod.mk.injEq] at h
    obtain ⟨rfl, rfl⟩ := h
    rw [u7_tail (.inl rfl)]
    exact .nil
  | succ n ih =>
    intro w hn hw bs os h
    cases w with
    | nil =>
      simp only [Encoder.text, Option.some.injEq, Prod.mk.injEq] at h
      obtain ⟨rfl, rfl⟩ := h
      rw [u7_tail (.inl rfl)]
      exact .nil
    | cons c w =>
      have hlt := hw c (List.mem_cons_self ..)
      have hw' : ∀ x ∈ w, x < 0x110000 := fun x hx => hw x (List.mem_cons_of_mem _ hx)
      simp only [List.length_cons] at hn
      have one : ∀ b : List Nat, u7enc 0 c = some (b, 0) → ∃ bs', utf7_encoder.text 0 w = some (bs', os) ∧ bs = b.map u8 ++ bs' := by
        intro b hb
        simp only [Encoder.text] at h
        rw [u7_rep (.inl rfl), hb] at h
        simp only [Option.map_some] at h
        cases hx : utf7_encoder.text 0 w with
        | none => rw [hx] at h; cases h
        | some x =>
          obtain ⟨b1, o1⟩ := x
          rw [hx] at h
          simp only [Option.some.injEq, Prod.mk.injEq] at h
          obtain ⟨rfl, rfl⟩ := h
          exact ⟨b1, rfl, rfl⟩
      cases hd : u7_isdirect c with
      | true =>
        obtain ⟨bs', h1, rfl⟩ := one [c] (by unfold u7enc; rw [if_pos hd, if_pos rfl]; rfl)
        obtain ⟨b, hb, rfl⟩ := (plain_iff c).1 hd
        have := Writes.plain hb (ih w (by omega) hw' bs' os h1)
        rw [show List.map u8 [b.toNat] = [b] by simp [u8_of_toNat]]
        exact this
      | false =>
        by_cases hp : c = 0x2b
        · obtain ⟨bs', h1, rfl⟩ := one [0x2b, 0x2d] (by unfold u7enc; rw [hd, if_neg (by simp), if_pos ⟨rfl, hp⟩])
          subst hp
          exact .plus (ih w (by omega) hw' bs' os h1)
        · obtain ⟨cs, rest, hcs, h1, h2⟩ := Rfc2152.span_direct w
          have h1' : ∀ x ∈ c :: cs, u7_isdirect x = false := List.forall_mem_cons.2 ⟨hd, h1⟩
          have hcs' : ∀ x ∈ c :: cs, x < 0x110000 :=
            List.forall_mem_cons.2 ⟨hlt, fun x hx => hw' x (by rw [hcs]; exact List.mem_append_left _ hx)⟩
          obtain ⟨vs, o1, t1, hJ, h0, vs', hv', hB, hm⟩ := Rfc2152.run_bits (cs := c :: cs) fun x hx => ⟨hcs' x hx, h1' x hx⟩
          have ht : utf7_encoder.text 0 (c :: cs) = some (u8 0x2b :: vs.map u7b, o1) := by
            have e0 : u7enc 0 c = some (0x2b :: (u7body 1 c).1.map u7c, (u7body 1 c).2) := by
              unfold u7enc
              rw [hd, if_neg (by simp), if_neg (fun h => hp h.2), if_pos hlt, if_pos rfl]
            have e1 : u7enc 1 c = some ((u7body 1 c).1.map u7c, (u7body 1 c).2) := by
              unfold u7enc
              rw [hd, if_neg (by simp), if_neg (fun h => hp h.2), if_pos hlt, if_neg (by omega)]
            simp only [Encoder.text] at t1 ⊢
            rw [u7_rep (.inr (.inl rfl)), e1] at t1
            rw [u7_rep (.inl rfl), e0]
            simp only [Option.map_some] at t1 ⊢
            cases hx : utf7_encoder.text (u7body 1 c).2 cs with
            | none => rw [hx] at t1; cases t1
            | some x =>
              obtain ⟨r, o⟩ := x
              rw [hx] at t1
              simp only [Option.some.injEq, Prod.mk.injEq] at t1 ⊢
              rw [← t1.1, t1.2]
              exact ⟨rfl, rfl⟩
          have hnp : ∀ x ∈ c :: cs, ∀ b ∈ plain, b.toNat ≠ x := fun x hx => plain_not.1 (h1' x hx)
          rw [← units_eq] at hB
          rw [hcs, ← List.cons_append] at h ⊢
          rw [Encoder.text_append, ht] at h
          rcases h2 with rfl | ⟨x, r, rfl, hx⟩
          · simp only [Encoder.text, Option.some.injEq, Prod.mk.injEq] at h
            obtain ⟨rfl, rfl⟩ := h
            have := Writes.base64 hp hnp hB .last .nil
            rw [show vs'.map chr ++ [0x2d] = _ from hm true] at this
            rw [u7_tail hJ, if_neg h0, List.append_nil]
            simpa [show u8 0x2b = 0x2b from rfl] using this
          · have hr : ∀ y ∈ r, y < 0x110000 := fun y hy => hw' y (by rw [hcs]; simp [hy])
            have hrl : r.length ≤ n := by
              have := congrArg List.length hcs
              simp at this
              omega
            have ex : u7enc o1 x = some (u7leave o1 (u7_isxbase64 x) ++ [x], 0) := by
              unfold u7enc
              rw [if_pos hx, if_neg h0]
            simp only [Encoder.text] at h
            rw [u7_rep hJ, ex] at h
            simp only [Option.map_some] at h
            cases hy : utf7_encoder.text 0 r with
            | none => rw [hy] at h; cases h
            | some y =>
              obtain ⟨b1, o2⟩ := y
              rw [hy] at h
              simp only [Option.some.injEq, Prod.mk.injEq] at h
              obtain ⟨rfl, rfl⟩ := h
              have hR := ih r hrl hr b1 _ hy
              obtain ⟨b, hb, rfl⟩ := (plain_iff x).1 hx
              have goal := Writes.base64 hp hnp hB (close_of hx) (Writes.plain hb hR)
              have em := hm (u7_isxbase64 b.toNat)
              rw [em] at goal
              simpa [show u8 0x2b = 0x2b from rfl, u8_of_toNat] using goal

theorem number_inj : ∀ {vs vs' : List Nat}, (∀ v ∈ vs, v < 64) → (∀ v ∈ vs', v < 64) → vs.length = vs'.length →
    number 64 vs = number 64 vs' → vs = vs' := by
  intro vs
  induction vs with
  | nil => intro vs' _ _ hl _; exact (List.length_eq_zero_iff.1 hl.symm).symm
  | cons v vs ih =>
    intro vs' h h' hl hn
    cases vs' with
    | nil => simp at hl
    | cons v' vs' =>
      simp only [List.length_cons, Nat.add_right_cancel_iff] at hl
      rw [Rfc2152.number_cons, Rfc2152.number_cons, hl] at hn
      have h1 := Rfc2152.number_lt vs fun x hx => h x (List.mem_cons_of_mem _ hx)
      have h2 := Rfc2152.number_lt vs' fun x hx => h' x (List.mem_cons_of_mem _ hx)
      rw [hl] at h1
      have hv : v = v' := by
        have a1 := congrArg (· / 64 ^ vs'.length) hn
        have hpos : 0 < 64 ^ vs'.length := Nat.pow_pos (by omega)
        simp only [Nat.mul_comm _ (64 ^ vs'.length), Nat.mul_add_div hpos, Nat.div_eq_of_lt h1, Nat.div_eq_of_lt h2] at a1
        omega
      subst hv
      rw [ih (fun x hx => h x (List.mem_cons_of_mem _ hx)) (fun x hx => h' x (List.mem_cons_of_mem _ hx)) hl (by omega)]

theorem bits_unique {us vs vs' : List Nat} (h : Bits vs us 0) (h' : Bits vs' us 0) : vs = vs' := by
  obtain ⟨h1, p, h2, h3, _, h4⟩ := h
  obtain ⟨h1', p', h2', h3', _, h4'⟩ := h'
  have hp : p = p' := by omega
  subst hp
  exact number_inj h1 h1' (by omega) (by omega)

theorem close_unique {cs : List Nat} {m m' : List Byte} (h : Close cs m) (h' : Close cs m') : m = m' := by
  generalize hx : cs = ds at h'
  cases h with
  | last =>
    cases h' with
    | last => rfl
    | dash => cases hx
    | none => cases hx
  | dash h1 h2 =>
    cases h' with
    | last => cases hx
    | dash => rfl
    | none h3 h4 h5 =>
      simp only [List.cons.injEq] at hx
      have := UInt8.toNat_inj.1 hx.1
      subst this
      rcases h2 with h2 | h2
      · exact absurd h2 h4
      · exact absurd h2 h5
  | none h3 h4 h5 =>
    cases h' with
    | last => cases hx
    | dash h1 h2 =>
      simp only [List.cons.injEq] at hx
      have := UInt8.toNat_inj.1 hx.1
      subst this
      rcases h2 with h2 | h2
      · exact absurd h2 h4
      · exact absurd h2 h5
    | none => rfl

theorem close_head {cs : List Nat} {m : List Byte} (h : Close cs m) : cs = [] ∨ ∃ c r, cs = c :: r ∧ u7_isdirect c = true := by
  cases h with
  | last => exact .inl rfl
  | dash h _ => exact .inr ⟨_, _, rfl, (plain_iff _).2 ⟨_, h, rfl⟩⟩
  | none h _ _ => exact .inr ⟨_, _, rfl, (plain_iff _).2 ⟨_, h, rfl⟩⟩

theorem split_unique : ∀ {ws ws' cs cs' : List Nat}, (∀ c ∈ ws, u7_isdirect c = false) → (∀ c ∈ ws', u7_isdirect c = false) →
    (cs = [] ∨ ∃ c r, cs = c :: r ∧ u7_isdirect c = true) → (cs' = [] ∨ ∃ c r, cs' = c :: r ∧ u7_isdirect c = true) →
    ws ++ cs = ws' ++ cs' → ws = ws' ∧ cs = cs' := by
  intro ws
  induction ws with
  | nil =>
    intro ws' cs cs' _ h' hc hc' e
    cases ws' with
    | nil => exact ⟨rfl, e⟩
    | cons w ws' =>
      simp only [List.nil_append, List.cons_append] at e
      rcases hc with rfl | ⟨c, r, rfl, hc⟩
      · cases e
      · cases e
        rw [h' _ (List.mem_cons_self ..)] at hc
        cases hc
  | cons w ws ih =>
    intro ws' cs cs' h h' hc hc' e
    cases ws' with
    | nil =>
      simp only [List.nil_append, List.cons_append] at e
      rcases hc' with rfl | ⟨c, r, rfl, hc'⟩
      · cases e
      · cases e
        rw [h _ (List.mem_cons_self ..)] at hc'
        cases hc'
    | cons w' ws' =>
      simp only [List.cons_append, List.cons.injEq] at e
      obtain ⟨rfl, e⟩ := e
      obtain ⟨rfl, rfl⟩ := ih (fun c hx => h c (List.mem_cons_of_mem _ hx)) (fun c hx => h' c (List.mem_cons_of_mem _ hx)) hc hc' e
      exact ⟨rfl, rfl⟩

/-- The specification gives one result for each text. -/
theorem writes_unique {cs : List Nat} {o o' : List Byte} (h : Writes cs o) (h' : Writes cs o') : o = o' := by
  induction h generalizing o' with
  | nil =>
    generalize hx : [] = ds at h'
    cases h' with
    | nil => rfl
    | plain => cases hx
    | plus => cases hx
    | base64 => cases hx
  | @plain c cs out h1 h2 ih =>
    generalize hx : c.toNat :: cs = ds at h'
    cases h' with
    | nil => cases hx
    | plain h3 h4 =>
      simp only [List.cons.injEq] at hx
      obtain ⟨e, rfl⟩ := hx
      rw [UInt8.toNat_inj.1 e, ih h4]
    | plus h4 =>
      simp only [List.cons.injEq] at hx
      have := (plain_iff _).2 ⟨_, h1, hx.1⟩
      rw [u7_plus_not_direct] at this
      cases this
    | base64 _ h3 _ _ _ =>
      simp only [List.cons_append, List.cons.injEq] at hx
      exact absurd hx.1 (h3 _ (List.mem_cons_self ..) _ h1)
  | @plus cs out h2 ih =>
    generalize hx : 0x2b :: cs = ds at h'
    cases h' with
    | nil => cases hx
    | plain h3 h4 =>
      simp only [List.cons.injEq] at hx
      have := (plain_iff _).2 ⟨_, h3, hx.1.symm⟩
      rw [u7_plus_not_direct] at this
      cases this
    | plus h4 =>
      simp only [List.cons.injEq, true_and] at hx
      subst hx
      rw [ih h4]
    | base64 h3 _ _ _ _ =>
      simp only [List.cons_append, List.cons.injEq] at hx
      exact absurd hx.1.symm h3
  | @base64 w ws cs vs m out h1 h2 h3 h4 h5 ih =>
    generalize hx : w :: ws ++ cs = ds at h'
    cases h' with
    | nil => cases hx
    | plain h6 h7 =>
      simp only [List.cons_append, List.cons.injEq] at hx
      exact absurd hx.1.symm (h2 _ (List.mem_cons_self ..) _ h6)
    | plus h7 =>
      simp only [List.cons_append, List.cons.injEq] at hx
      exact absurd hx.1 h1
    | base64 g1 g2 g3 g4 g5 =>
      obtain ⟨e, rfl⟩ := split_unique (fun c hc => plain_not.2 (h2 c hc)) (fun c hc => plain_not.2 (g2 c hc)) (close_head h4) (close_head g4) hx
      cases e
      rw [bits_unique h3 g3, close_unique h4 g4, ih g5]

theorem shown_lt {discard : Bool} {cs ds : List Nat} {n : Nat} (h : Shown discard cs ds n) : ∀ c ∈ ds, c < 0x110000 := by
  induction h with
  | nil => intro _ h; cases h
  | char h _ ih => exact List.forall_mem_cons.2 ⟨h, ih⟩
  | drop _ _ _ ih => exact ih
  | replace _ _ _ ih => exact List.forall_mem_cons.2 ⟨by omega, ih⟩

theorem enc_lt {os c : Nat} (hJ : u7J os) (hc : c < 0x110000) : ∃ b os', utf7_encoder.rep os c = some (b, os') ∧ u7J os' ∧
    ∀ discard, encChar utf7_encoder discard os c = some (b, os', 0) := by
  obtain ⟨bs, os', h, hJ', _⟩ := u7_text [c] os hJ (by simpa using hc)
  simp only [Encoder.text] at h
  cases hr : utf7_encoder.rep os c with
  | none => rw [hr] at h; cases h
  | some x =>
    obtain ⟨b, o⟩ := x
    rw [hr] at h
    simp only [Option.some.injEq, Prod.mk.injEq] at h
    obtain ⟨_, rfl⟩ := h
    refine ⟨b, o, rfl, hJ', fun discard => ?_⟩
    have : utf7_encoder.full os c = some (b, o) := by rw [u7_full hJ, ← u7_rep hJ, hr]
    unfold encChar
    rw [this]

theorem enc_ge {os c : Nat} (hJ : u7J os) (hc : 0x110000 ≤ c) (discard : Bool) : encChar utf7_encoder discard os c =
    if discard then some ([], os, 1) else (utf7_encoder.rep os 0xfffd).map fun x => (x.1, x.2, 1) := by
  have hd : u7_isdirect c = false := by
    cases h : u7_isdirect c with
    | false => rfl
    | true => have := u7_direct_lt h; omega
  have hf : utf7_encoder.full os c = none := by
    rw [u7_full hJ]
    unfold u7enc
    rw [hd, if_neg (by simp), if_neg (by omega), if_neg (by omega)]
    rfl
  have ht : isTag c = false := by
    unfold isTag
    simp only [decide_eq_false_iff_not, Bool.decide_and, Bool.and_eq_false_iff]
    omega
  unfold encChar
  rw [hf, ht, u7_rep hJ, ← u7_full hJ]
  cases discard with
  | true => rfl
  | false => cases utf7_encoder.full os 0xfffd <;> rfl

theorem all_iff {discard : Bool} : ∀ (cs : List Nat) (os : Nat), u7J os → ∀ bs st irr,
    (Reiconv.writeAll (encChar utf7_encoder discard) os cs = some (bs, st, irr) ↔
      ∃ ds, Shown discard cs ds irr ∧ utf7_encoder.text os ds = some (bs, st)) := by
  intro cs
  induction cs with
  | nil =>
    intro os hJ bs st irr
    constructor
    · intro h; cases h; exact ⟨[], .nil, rfl⟩
    · rintro ⟨ds, h, e⟩; cases h; cases e; rfl
  | cons c cs ih =>
    intro os hJ bs st irr
    -- a character is written
    have step : ∀ x i b os', u7J os' → utf7_encoder.rep os x = some (b, os') →
        encChar utf7_encoder discard os c = some (b, os', i) →
        (Reiconv.writeAll (encChar utf7_encoder discard) os (c :: cs) = some (bs, st, irr) ↔
          ∃ ds n, irr = i + n ∧ Shown discard cs ds n ∧ utf7_encoder.text os (x :: ds) = some (bs, st)) := by
      intro x i b os' hJ' hr he
      simp only [Reiconv.writeAll, he, Encoder.text, hr]
      constructor
      · intro h
        cases hw : Reiconv.writeAll (encChar utf7_encoder discard) os' cs with
        | none => rw [hw] at h; cases h
        | some y =>
          obtain ⟨r, s2, j⟩ := y
          rw [hw] at h
          cases h
          obtain ⟨ds, h1, h2⟩ := (ih os' hJ' _ _ _).1 hw
          exact ⟨ds, j, rfl, h1, by rw [h2]⟩
      · rintro ⟨ds, n, rfl, h1, h2⟩
        cases ht : utf7_encoder.text os' ds with
        | none => rw [ht] at h2; cases h2
        | some y =>
          obtain ⟨r, s2⟩ := y
          rw [ht] at h2
          cases h2
          rw [(ih os' hJ' _ _ _).2 ⟨ds, h1, ht⟩]
    by_cases hc : c < 0x110000
    · obtain ⟨b, os', hr, hJ', he⟩ := enc_lt hJ hc
      rw [step c 0 b os' hJ' hr (he discard)]
      constructor
      · rintro ⟨ds, n, rfl, h1, h2⟩
        exact ⟨c :: ds, by rw [Nat.zero_add]; exact .char hc h1, h2⟩
      · rintro ⟨ds, h1, h2⟩
        cases h1 with
        | char _ h1 => exact ⟨_, _, (Nat.zero_add _).symm, h1, h2⟩
        | drop h _ _ => omega
        | replace h _ _ => omega
    · have hge := enc_ge hJ (by omega) discard (c := c)
      cases hd : discard with
      | true =>
        subst hd
        rw [if_pos rfl] at hge
        simp only [Reiconv.writeAll, hge]
        constructor
        · intro h
          cases hw : Reiconv.writeAll (encChar utf7_encoder true) os cs with
          | none => rw [hw] at h; cases h
          | some y =>
            obtain ⟨r, s2, j⟩ := y
            rw [hw] at h
            cases h
            obtain ⟨ds, h1, h2⟩ := (ih os hJ _ _ _).1 hw
            exact ⟨ds, .drop (by omega) rfl h1, h2⟩
        · rintro ⟨ds, h1, h2⟩
          cases h1 with
          | char h _ => omega
          | drop _ _ h1 =>
            rw [(ih os hJ _ _ _).2 ⟨ds, h1, h2⟩]
            rfl
          | replace _ h _ => cases h
      | false =>
        subst hd
        obtain ⟨b, os', hr, hJ', _⟩ := enc_lt hJ (c := 0xfffd) (by omega)
        rw [if_neg (by simp), hr] at hge
        rw [step 0xfffd 1 b os' hJ' hr hge]
        constructor
        · rintro ⟨ds, n, rfl, h1, h2⟩
          exact ⟨_, .replace (by omega) rfl h1, h2⟩
        · rintro ⟨ds, h1, h2⟩
          cases h1 with
          | char h _ => omega
          | drop _ h _ => cases h
          | replace _ _ h1 => exact ⟨_, _, rfl, h1, h2⟩

theorem text_iff {discard : Bool} {cs : List Nat} {out : List Byte} {irr : Nat} : Text discard cs out irr ↔
    ∃ bs st, Reiconv.writeAll (encChar utf7_encoder discard) 0 cs = some (bs, st, irr) ∧ out = bs ++ utf7_encoder.tail st := by
  constructor
  · rintro ⟨ds, h1, h2⟩
    obtain ⟨bs, st, h3, _⟩ := u7_text ds 0 (.inl rfl) (shown_lt h1)
    exact ⟨bs, st, (all_iff cs 0 (.inl rfl) _ _ _).2 ⟨ds, h1, h3⟩,
      writes_unique h2 (writes _ ds (Nat.le_refl _) (shown_lt h1) _ _ h3)⟩
  · rintro ⟨bs, st, h, rfl⟩
    obtain ⟨ds, h1, h2⟩ := (all_iff cs 0 (.inl rfl) _ _ _).1 h
    exact ⟨ds, h1, writes _ ds (Nat.le_refl _) (shown_lt h1) _ _ h2⟩

theorem shown_exists (discard : Bool) (cs : List Nat) : ∃ ds n, Shown discard cs ds n := by
  induction cs with
  | nil => exact ⟨_, _, .nil⟩
  | cons c cs ih =>
    obtain ⟨ds, n, h⟩ := ih
    by_cases hc : c < 0x110000
    · exact ⟨_, _, .char hc h⟩
    · cases hd : discard with
      | true => subst hd; exact ⟨_, _, .drop (by omega) rfl h⟩
      | false => subst hd; exact ⟨_, _, .replace (by omega) rfl h⟩

end Reiconv.Utf7W

namespace Reiconv

/-! ## The property -/

/-- C64: the conversion of a text to UTF-7 is what the specification says, for every source encoding, with and without
the discard flag. -/
theorem C64_writes (A : Entry) (discard : Bool) (inp : List Byte) (cs : List Nat) (h : A.Text inp cs) (out : List Byte) (irr : Nat) :
    Whole A.atom (A.conv utf7_entry discard) St.init inp out irr ↔ Utf7W.Text discard cs out irr :=
  (whole_iff_write h out irr).trans Utf7W.text_iff.symm

/-- Every text has exactly one form. -/
theorem C64_unique (discard : Bool) (cs : List Nat) :
    ∃ out irr, Utf7W.Text discard cs out irr ∧ ∀ o i, Utf7W.Text discard cs o i → o = out ∧ i = irr := by
  obtain ⟨ds, n, h⟩ := Utf7W.shown_exists discard cs
  obtain ⟨bs, st, h3, _⟩ := u7_text ds 0 (.inl rfl) (Utf7W.shown_lt h)
  refine ⟨_, n, ⟨ds, h, Utf7W.writes _ ds (Nat.le_refl _) (Utf7W.shown_lt h) _ _ h3⟩, fun o i ht => ?_⟩
  obtain ⟨b', s', e', rfl⟩ := Utf7W.text_iff.1 ht
  have e := (Utf7W.all_iff cs 0 (.inl rfl) _ _ _).2 ⟨ds, h, h3⟩
  rw [e] at e'
  cases e'
  exact ⟨rfl, rfl⟩

/-- C64 at the API: `reiconv_result_size` returns the number of bytes that the specification gives, and
`reiconv_convert_static_size` writes exactly these bytes into a buffer that has 64 bytes more. -/
theorem C64_api (A : Entry) (discard : Bool) (inp : List Byte) (cs : List Nat) (h : A.Text inp cs) :
    ∃ out irr, Utf7W.Text discard cs out irr ∧
      (∃ s, resultSize (A.conv utf7_entry discard) St.init inp = .ok (.ok out.length, s)) ∧
      ∀ room : List Byte, out.length + 64 ≤ room.length → ∃ s b,
        convertStatic (A.conv utf7_entry discard) St.init inp ⟨false, [], room⟩ = .ok (.ok (), s, b) ∧ b.out = out := by
  obtain ⟨out, irr, hj, _⟩ := C64_unique discard cs
  refine ⟨out, irr, hj, ?_⟩
  obtain ⟨sz, s1, h1, _, _, h2⟩ := size_whole A utf7_entry discard inp
  have hw := (C64_writes A discard inp cs h out irr).2 hj
  constructor
  · rcases h2 with ⟨n, o, i, rfl, hw', rfl, _⟩ | ⟨_, hno⟩
    · obtain ⟨rfl, _⟩ := whole_det hw hw'
      exact ⟨s1, h1⟩
    · exact absurd hw (hno _ _)
  · intro room hroom
    obtain ⟨ret, s2, b, hx, hl, h5⟩ := static_whole A utf7_entry discard St.init A.decOK.inv_init
      utf7_entry.encOK.inv_init inp room hw (.inl (by omega))
    rcases h5 with ⟨rfl, h5, _⟩ | ⟨_, h5, ⟨rest, h6⟩, _⟩
    · exact ⟨s2, b, hx, h5⟩
    · rw [h6, List.length_append] at hroom
      omega

/-- `A≢Α.` (the example of RFC 2152) is `A+ImIDkQ.`: no `-` before the full stop. `+` alone is `+-`, behind é it is part
of the base64. `Hi Mom -☺-!`: the RFC writes `!` as it is, the converter does not. -/
example : Utf7W.Text false [0x41, 0x2262, 0x391, 0x2e] (Rfc2152.codes "A+ImIDkQ.") 0 ∧
    Utf7W.Text false [0x2b, 0xe9, 0x2b, 0x31, 0x110000] (Rfc2152.codes "+-+AOkAKw-1+//0-") 1 ∧
    Utf7W.Text false [0x48, 0x69, 0x20, 0x2d, 0x263a, 0x2d, 0x21] (Rfc2152.codes "Hi -+Jjo--+ACE-") 0 :=
  ⟨Utf7W.text_iff.2 ⟨_, _, by rfl, by decide +kernel⟩, Utf7W.text_iff.2 ⟨_, _, by rfl, by decide +kernel⟩,
    Utf7W.text_iff.2 ⟨_, _, by rfl, by decide +kernel⟩⟩

end Reiconv
