import Verif.ApiProofs

/-!
# Contracts for stateless converters
-/

namespace Reiconv

/-- A decoder that does not use the state: `g s` is its result on the input `s`. -/
structure SimpleDec (D : Decoder) (unit : Nat) where
  g : List Byte → MbRet
  eq : ∀ is s, s ≠ [] → D.mbtowc is s = .ok (g s, is)
  flush : D.flushwc = none
  unit_pos : 1 ≤ unit
  char_ok : ∀ s wc n, s ≠ [] → g s = .char wc n → 1 ≤ n ∧ n ≤ s.length
  ilseq_ok : ∀ s k, s ≠ [] → g s = .ilseq k → k = 0 ∧ unit ≤ s.length
  toofew_ok : ∀ s k, s ≠ [] → g s = .toofew k → k = 0
  ext : ∀ s t, s ≠ [] → g s ≠ .toofew 0 → g (s ++ t) = g s

/-- The items of a stateless decoder. -/
def atomOf (g : List Byte → MbRet) (is : IState) (s : List Byte) : Atom :=
  match g s with
  | .char wc n => .char wc n is
  | .ilseq _ => .ilseq
  | .toofew _ => .more

def SimpleDec.toOK {D : Decoder} {unit : Nat} (h : SimpleDec D unit) : DecOK D unit where
  Inv := fun is => is = IState.init
  atom := atomOf h.g
  pend := fun _ => false
  unit_pos := h.unit_pos
  inv_init := rfl
  inv_clear := by rintro _ rfl; rfl
  char_ok := by
    intro is s wc n is' hI hne ha
    unfold atomOf at ha
    split at ha
    · next wc' n' hg =>
      cases ha
      obtain ⟨h1, h2⟩ := h.char_ok s wc n hne hg
      exact ⟨hI, h2, by omega⟩
    · cases ha
    · cases ha
  shift_ok := by
    intro is s n is' _ hne ha
    unfold atomOf at ha
    split at ha <;> cases ha
  ilseq_ok := by
    intro is s _ hne ha
    unfold atomOf at ha
    split at ha
    · cases ha
    · next k hg => exact (h.ilseq_ok s k hne hg).2
    · cases ha
  ext := by
    intro is s t _ hne ha
    have : h.g s ≠ .toofew 0 := by
      intro hc; apply ha; unfold atomOf; rw [hc]
    unfold atomOf
    rw [h.ext s t hne this]
  batch := by
    intro is s _ hne
    refine ⟨h.g s, is, h.eq is s hne, ?_⟩
    cases hg : h.g s with
    | char wc n => exact .char (by unfold atomOf; rw [hg])
    | ilseq k =>
      obtain ⟨rfl, _⟩ := h.ilseq_ok s k hne hg
      exact .ilseq (by unfold atomOf; rw [hg])
    | toofew k =>
      obtain rfl := h.toofew_ok s k hne hg
      exact .more (by unfold atomOf; rw [hg])
  retry := by
    intro is s wc n is' hI hne hm
    rw [h.eq is s hne] at hm
    simp only [Outcome.ok.injEq, Prod.mk.injEq] at hm
    obtain ⟨h1, rfl⟩ := hm
    refine ⟨hI, ?_⟩
    rw [h.eq _ s hne, h1]
  flush_ok := by
    intro f hf
    rw [h.flush] at hf; cases hf

/-- An encoder without state whose only room check compares the room with `need wc`. -/
structure SimpleEnc (E : Encoder) where
  minRoom : Nat
  minRoom_le : minRoom ≤ 1
  enc : Nat → Option (List Byte)
  need : Nat → Nat
  eq : ∀ os wc n, E.wctomb os wc n =
    .ok (if need wc ≤ n then
      (match enc wc with
        | some bs => .put bs os
        | none => .iluni os)
      else .small os)
  need_le : ∀ wc, need wc ≤ 64
  len : ∀ wc bs, enc wc = some bs → bs ≠ [] ∧ bs.length ≤ max (need wc) minRoom ∧ need wc ≤ bs.length
  reset : E.reset = none

namespace SimpleEnc

variable {E : Encoder}

theorem full_eq (h : SimpleEnc E) (os wc : Nat) :
    E.full os wc = (h.enc wc).map fun bs => (bs, os) := by
  unfold Encoder.full
  rw [h.eq os wc 64, if_pos (h.need_le wc)]
  cases h.enc wc <;> rfl

def toOK (h : SimpleEnc E) : EncOK E where
  Inv := fun os => os = 0
  inv_init := rfl
  minRoom := h.minRoom
  minRoom_le := h.minRoom_le
  safe := by
    intro os wc n hO hn
    refine ⟨_, h.eq os wc n, ?_⟩
    split
    · next hneed =>
      cases he : h.enc wc with
      | some bs =>
        obtain ⟨_, h2, _⟩ := h.len wc bs he
        refine ⟨by simp only [WcRes.put]; omega, ?_, ?_⟩
        · rintro k ⟨⟩; exact ⟨rfl, hO⟩
        · rintro (h | h) <;> cases h
      | none => simp [WcRes.iluni]
    · simp [WcRes.small]
  any := by
    intro os wc n r hO hr _
    rw [h.eq os wc n] at hr
    cases hr
    split
    · cases he : h.enc wc with
      | some bs => exact ⟨by rintro k ⟨⟩; exact ⟨rfl, hO⟩, by rintro (h | h) <;> cases h⟩
      | none => simp [WcRes.iluni]
    · simp [WcRes.small]
  dry := by
    intro os wc n hO _ hf
    rw [h.full_eq] at hf
    refine ⟨_, h.eq os wc n, ?_⟩
    split
    · cases he : h.enc wc with
      | some bs => rw [he] at hf; cases hf
      | none => simp [WcRes.iluni]
    · simp [WcRes.small]
  mono := by
    intro os wc n m r _ hr hl hs hm
    rw [h.eq os wc n] at hr
    rw [h.eq os wc m]
    split at hr
    · next hneed => rw [if_pos (by omega)]; exact hr
    · cases hr; exact absurd rfl hs
  big := by
    intro os wc n r _ hn hr
    rw [h.eq os wc n, if_pos (by have := h.need_le wc; omega)] at hr
    cases hr
    cases h.enc wc <;> simp [WcRes.put, WcRes.iluni]
  reset_safe := by intro f hf; rw [h.reset] at hf; cases hf
  reset_mono := by intro f hf; rw [h.reset] at hf; cases hf
  reset_big := by intro f hf; rw [h.reset] at hf; cases hf

theorem tail_eq (h : SimpleEnc E) (os : Nat) : E.tail os = [] := by
  unfold Encoder.tail; rw [h.reset]

theorem tight (h : SimpleEnc E) : EncTight E h.toOK where
  tight := by
    intro os wc n r bs os' _ hr hs hl hf
    rw [h.eq os wc n] at hr
    rw [h.full_eq] at hf
    simp only [Option.map_eq_some_iff] at hf
    obtain ⟨bs', he, h2⟩ := hf
    cases h2
    split at hr
    · rw [he] at hr; cases hr; cases hs
    · next hneed => have := (h.len wc _ he).2.2; omega
  live := by
    intro os wc bs os' _ hf
    rw [h.full_eq] at hf
    simp only [Option.map_eq_some_iff] at hf
    obtain ⟨bs', he, h2⟩ := hf
    cases h2
    exact Or.inl (h.len wc _ he).1
  reset_tight := by intro f os n r hf; rw [h.reset] at hf; cases hf

theorem rep_eq (h : SimpleEnc E) (os wc : Nat) : E.rep os wc = (h.enc wc).map fun bs => (bs, os) := by
  rw [← h.full_eq]
  apply Encoder.rep_eq
  intro bs os' hf _
  rw [h.full_eq] at hf
  simp only [Option.map_eq_some_iff] at hf
  obtain ⟨bs', he, h2⟩ := hf
  cases h2
  exact (h.len wc _ he).1

/-- Nothing is stored with an error. -/
theorem clean_at (h : SimpleEnc E) {os wc n r} (hr : E.wctomb os wc n = .ok r)
    (hi : r.ret = .iluni) : r.ws = [] := by
  rw [h.eq os wc n] at hr
  cases hr
  split at hi
  · revert hi
    next hx =>
      rw [if_pos hx]
      cases h.enc wc <;> simp [WcRes.put, WcRes.iluni]
  · cases hi

end SimpleEnc

end Reiconv
