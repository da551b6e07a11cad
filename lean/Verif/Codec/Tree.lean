import Verif.Simple

/-!
# Multibyte converter functions as decision trees

The multibyte converters look at the input byte by byte, check `n` before each read past the first
byte, and call converter functions of character sets, on the input itself or on a small local buffer.
`M` is the type of such programs; `M.run` runs one on an input. Encoder functions check the room
before they store; `W` is the type of such programs for one given character.
-/

namespace Reiconv

/-- A decoder program. `need k t`: `if (n < k) return RET_TOOFEW(0);` then `t`. `byte i f`: read
`s[i]`. `ub`, `abort`: undefined behaviour, `abort()`. -/
inductive M (α : Type) where
  | ret (a : α)
  | ub
  | abort
  | need (k : Nat) (t : M α)
  | byte (i : Nat) (f : Nat → M α)

namespace M

variable {α β : Type}

/-- Run a decoder program on the input `s` (`n = s.length`); `none` is `RET_TOOFEW(0)`. -/
def run : M α → List Byte → Outcome (Option α)
  | ret a, _ => .ok (some a)
  | ub, _ => .ub
  | abort, _ => .abort
  | need k t, s => if k ≤ s.length then t.run s else .ok none
  | byte i f, s =>
    match s[i]? with
    | some b => (f b.toNat).run s
    | none => .ub

/-- `ret = g(conv, pwc, s, n)` followed by `f ret`. The programs modelled with it return the
`RET_TOOFEW(0)` of `g` at once. -/
def andThen : M α → (α → M β) → M β
  | ret a, f => f a
  | ub, _ => ub
  | abort, _ => abort
  | need k t, f => need k (t.andThen f)
  | byte i g, f => byte i fun b => (g b).andThen f

/-- `g(conv, pwc, s + j, n - j)` with `n ≥ j`. -/
def shift (j : Nat) : M α → M α
  | ret a => ret a
  | ub => ub
  | abort => abort
  | need k t => need (j + k) (t.shift j)
  | byte i g => byte (j + i) fun b => (g b).shift j

/-- `ret = g(conv, pwc, buf, k)` with a local buffer of contents `buf`, then `f ret`. -/
def on (m : M MbRet) (buf : List Nat) (f : MbRet → M β) : M β :=
  match m.run (buf.map u8) with
  | .ok (some r) => f r
  | .ok none => f (.toofew 0)
  | .ub => .ub
  | .abort => .abort
  | .diverge => .ub

/-- The decoder with the program `m` as its `mbtowc` function. -/
def dec (m : M MbRet) : Decoder where
  mbtowc := fun is s =>
    match m.run s with
    | .ok (some r) => .ok (r, is)
    | .ok none => .ok (.toofew 0, is)
    | .ub => .ub
    | .abort => .abort
    | .diverge => .diverge
  flushwc := none

/-- No undefined behaviour and no abort; every result satisfies `P k` where `k` bytes are known to
be there. -/
def Good (P : Nat → α → Prop) : Nat → M α → Prop
  | k, ret a => P k a
  | _, ub => False
  | _, abort => False
  | k, need j t => Good P (max k j) t
  | k, byte i f => i < k ∧ ∀ b, b < 256 → Good P k (f b)

theorem good_run {P : Nat → α → Prop} : ∀ (m : M α) (k : Nat) (s : List Byte), Good P k m →
    k ≤ s.length → ∃ o, m.run s = .ok o ∧ ∀ a, o = some a → ∃ j, k ≤ j ∧ j ≤ s.length ∧ P j a := by
  intro m
  induction m with
  | ret a => intro k s h hk; exact ⟨_, rfl, by rintro _ ⟨⟩; exact ⟨k, Nat.le_refl _, hk, h⟩⟩
  | ub => intro k s h; exact h.elim
  | abort => intro k s h; exact h.elim
  | need j t ih =>
    intro k s h hk
    simp only [run]
    by_cases hj : j ≤ s.length
    · rw [if_pos hj]
      obtain ⟨o, h1, h2⟩ := ih (max k j) s h (by omega)
      refine ⟨o, h1, fun a ha => ?_⟩
      obtain ⟨j', h3, h4, h5⟩ := h2 a ha
      exact ⟨j', by omega, h4, h5⟩
    · rw [if_neg hj]
      exact ⟨none, rfl, by rintro _ ⟨⟩⟩
  | byte i f ih =>
    intro k s h hk
    have hi : i < s.length := Nat.lt_of_lt_of_le h.1 hk
    simp only [run, List.getElem?_eq_getElem hi]
    exact ih _ k s (h.2 _ (UInt8.toNat_lt _)) hk

theorem run_ext : ∀ (m : M α) (s t : List Byte) (a : α), m.run s = .ok (some a) →
    m.run (s ++ t) = .ok (some a) := by
  intro m
  induction m with
  | ret a => intro s t b h; exact h
  | ub => intro s t b h; cases h
  | abort => intro s t b h; cases h
  | need j u ih =>
    intro s t b h
    simp only [run] at h ⊢
    by_cases hj : j ≤ s.length
    · rw [if_pos hj] at h
      rw [if_pos (by rw [List.length_append]; omega)]
      exact ih s t b h
    · rw [if_neg hj] at h; cases h
  | byte i f ih =>
    intro s t b h
    simp only [run] at h ⊢
    by_cases hi : i < s.length
    · rw [List.getElem?_append_left hi]
      rw [List.getElem?_eq_getElem hi] at h ⊢
      exact ih _ s t b h
    · rw [List.getElem?_eq_none (by omega)] at h; cases h

theorem good_andThen {P : Nat → α → Prop} {Q : Nat → β → Prop} {f : α → M β} :
    ∀ (m : M α) (k : Nat), Good P k m → (∀ j a, k ≤ j → P j a → Good Q j (f a)) →
    Good Q k (m.andThen f) := by
  intro m
  induction m with
  | ret a => intro k h hf; exact hf k a (Nat.le_refl _) h
  | ub => intro k h; exact h.elim
  | abort => intro k h; exact h.elim
  | need j t ih =>
    intro k h hf
    exact ih (max k j) h fun j' a h1 h2 => hf j' a (by omega) h2
  | byte i g ih =>
    intro k h hf
    exact ⟨h.1, fun b hb => ih b k (h.2 b hb) hf⟩

theorem good_shift {P : Nat → α → Prop} : ∀ (m : M α) (j k : Nat),
    Good (fun i a => P (j + i) a) k m → Good P (j + k) (m.shift j) := by
  intro m
  induction m with
  | ret a => intro j k h; exact h
  | ub => intro j k h; exact h.elim
  | abort => intro j k h; exact h.elim
  | need i t ih =>
    intro j k h
    simp only [shift, Good]
    have := ih j (max k i) h
    rwa [show max (j + k) (j + i) = j + max k i by omega]
  | byte i g ih =>
    intro j k h
    exact ⟨Nat.add_lt_add_left h.1 j, fun b hb => ih b j k (h.2 b hb)⟩

theorem good_imp {P Q : Nat → α → Prop} : ∀ (m : M α) (k : Nat),
    (∀ j a, k ≤ j → P j a → Q j a) → Good P k m → Good Q k m := by
  intro m
  induction m with
  | ret a => intro k hi h; exact hi k a (Nat.le_refl _) h
  | ub => intro k hi h; exact h.elim
  | abort => intro k hi h; exact h.elim
  | need i t ih => intro k hi h; exact ih (max k i) (fun j a hj => hi j a (by omega)) h
  | byte i g ih => intro k hi h; exact ⟨h.1, fun b hb => ih b k hi (h.2 b hb)⟩

/-- What a stateless decoder may return when `k` bytes are known to be there. -/
def RetOK (k : Nat) : MbRet → Prop
  | .char _ n => 1 ≤ n ∧ n ≤ k
  | .ilseq j => j = 0 ∧ 1 ≤ k
  | .toofew _ => False

/-- The result of a decoder program. -/
def val (m : M MbRet) (s : List Byte) : MbRet :=
  match m.run s with
  | .ok (some r) => r
  | _ => .toofew 0

theorem val_of_run {m : M MbRet} {s : List Byte} {r : MbRet} (h : m.run s = .ok (some r)) :
    m.val s = r := by unfold val; rw [h]

/-- A decoder given by a program without undefined behaviour satisfies the contract. -/
def simple (m : M MbRet) (h : Good RetOK 1 m) : SimpleDec m.dec 1 where
  g := m.val
  eq := by
    intro is s hs
    have hl : 1 ≤ s.length := by cases s with | nil => exact absurd rfl hs | cons _ _ => simp
    obtain ⟨o, h1, _⟩ := good_run m 1 s h hl
    simp only [dec, val, h1]
    cases o <;> rfl
  flush := rfl
  unit_pos := Nat.le_refl 1
  char_ok := by
    intro s wc n hs hg
    have hl : 1 ≤ s.length := by cases s with | nil => exact absurd rfl hs | cons _ _ => simp
    obtain ⟨o, h1, h2⟩ := good_run m 1 s h hl
    simp only [val, h1] at hg
    cases o with
    | none => cases hg
    | some a =>
      simp only at hg
      obtain ⟨j, _, hj, hp⟩ := h2 a rfl
      rw [hg] at hp
      exact ⟨hp.1, Nat.le_trans hp.2 hj⟩
  ilseq_ok := by
    intro s k hs hg
    have hl : 1 ≤ s.length := by cases s with | nil => exact absurd rfl hs | cons _ _ => simp
    obtain ⟨o, h1, h2⟩ := good_run m 1 s h hl
    simp only [val, h1] at hg
    cases o with
    | none => cases hg
    | some a =>
      simp only at hg
      obtain ⟨j, _, hj, hp⟩ := h2 a rfl
      rw [hg] at hp
      exact ⟨hp.1, hl⟩
  toofew_ok := by
    intro s k hs hg
    have hl : 1 ≤ s.length := by cases s with | nil => exact absurd rfl hs | cons _ _ => simp
    obtain ⟨o, h1, h2⟩ := good_run m 1 s h hl
    simp only [val, h1] at hg
    cases o with
    | none => cases hg; rfl
    | some a =>
      simp only at hg
      obtain ⟨j, _, hj, hp⟩ := h2 a rfl
      rw [hg] at hp
      exact hp.elim
  ext := by
    intro s t hs hg
    have hl : 1 ≤ s.length := by cases s with | nil => exact absurd rfl hs | cons _ _ => simp
    obtain ⟨o, h1, h2⟩ := good_run m 1 s h hl
    cases o with
    | none => simp only [val, h1] at hg; exact absurd rfl hg
    | some a =>
      rw [val_of_run h1, val_of_run (run_ext m s t a h1)]

/-- A function of a two-byte character set: on two bytes it gives a character, having read both, or
`RET_ILSEQ`. -/
def Two (m : M MbRet) : Prop :=
  ∀ a b : Byte, m.run [a, b] = .ok (some (.ilseq 0)) ∨ ∃ wc, m.run [a, b] = .ok (some (.char wc 2))

/-- A function of a one-byte character set. -/
def One (m : M MbRet) : Prop :=
  ∀ a : Byte, m.run [a] = .ok (some (.ilseq 0)) ∨ ∃ wc, m.run [a] = .ok (some (.char wc 1))

theorem good_on2 {P : Nat → β → Prop} {m : M MbRet} {a b k : Nat} {f : MbRet → M β} (h : Two m)
    (h1 : Good P k (f (.ilseq 0))) (h2 : ∀ wc, Good P k (f (.char wc 2))) :
    Good P k (on m [a, b] f) := by
  unfold on
  simp only [List.map_cons, List.map_nil]
  rcases h (u8 a) (u8 b) with h | ⟨wc, h⟩
  · rw [h]; exact h1
  · rw [h]; exact h2 wc

theorem good_on1 {P : Nat → β → Prop} {m : M MbRet} {a k : Nat} {f : MbRet → M β} (h : One m)
    (h1 : Good P k (f (.ilseq 0))) (h2 : ∀ wc, Good P k (f (.char wc 1))) :
    Good P k (on m [a] f) := by
  unfold on
  simp only [List.map_cons, List.map_nil]
  rcases h (u8 a) with h | ⟨wc, h⟩
  · rw [h]; exact h1
  · rw [h]; exact h2 wc

theorem good_ite {P : Nat → α → Prop} {k : Nat} {c : Prop} [Decidable c] {a b : M α}
    (h1 : c → Good P k a) (h2 : ¬ c → Good P k b) : Good P k (if c then a else b) := by
  by_cases h : c
  · rw [if_pos h]; exact h1 h
  · rw [if_neg h]; exact h2 h

end M

/-- An encoder program for one character. `room k w`: `if (n < k) return RET_TOOSMALL;` then `w`;
`put bs`: store `bs` and return their number; `iluni`: `return RET_ILUNI`. -/
inductive W where
  | room (k : Nat) (w : W)
  | put (bs : List Nat)
  | iluni
  | ub
  | abort

namespace W

/-- Run an encoder program with `n` bytes of room and output state `os`. -/
def run : W → Nat → Nat → Outcome WcRes
  | room k w, os, n => if k ≤ n then w.run os n else .ok (.small os)
  | put bs, os, _ => .ok (.put (bs.map u8) os)
  | iluni, os, _ => .ok (.iluni os)
  | ub, _, _ => .ub
  | abort, _, _ => .abort

/-- `ret = f(conv, r, wc, n); if (ret != RET_ILUNI) return ret;` then `k`. -/
def orElse : W → W → W
  | room j w, k => room j (w.orElse k)
  | put bs, _ => put bs
  | iluni, k => k
  | ub, _ => ub
  | abort, _ => abort

/-- `ret = f(conv, buf, wc, n)` with a local buffer of `n` bytes, then `k ret buf`. The contents of
the buffer are given as far as they were stored. Storing more than `n` bytes is undefined
behaviour. -/
def on (w : W) (n : Nat) (k : Int → List Nat → W) : W :=
  match w.run 0 n with
  | .ok r => if r.ws.length ≤ n then k r.ret.code (r.ws.map (·.toNat)) else ub
  | .ub => ub
  | .abort => abort
  | .diverge => ub

/-- The greatest room asked for. -/
def need : W → Nat
  | room k w => max k w.need
  | _ => 0

/-- The bytes stored if there is room. -/
def res : W → Option (List Byte)
  | room _ w => w.res
  | put bs => some (bs.map u8)
  | _ => none

/-- No undefined behaviour and no abort; the room asked for (`k` so far) is exactly the number of
bytes stored, or 0 or 1 if one byte is stored. -/
def Good : Nat → W → Prop
  | k, room j w => Good (max k j) w
  | k, put bs => bs ≠ [] ∧ bs.length ≤ max k 1 ∧ k ≤ bs.length ∧ k ≤ 7
  | k, iluni => k ≤ 7
  | _, ub => False
  | _, abort => False

theorem good_need : ∀ (w : W) (k : Nat), Good k w → max k w.need ≤ 7 := by
  intro w
  induction w with
  | room j w ih =>
    intro k h
    have := ih (max k j) h
    simp only [need]; omega
  | put bs => intro k h; simp only [need]; have := h.2.2.2; omega
  | iluni => intro k h; simp only [need]; have : k ≤ 7 := h; omega
  | ub => intro k h; exact h.elim
  | abort => intro k h; exact h.elim

theorem good_len : ∀ (w : W) (k : Nat) (bs : List Byte), Good k w → w.res = some bs →
    bs ≠ [] ∧ bs.length ≤ max (max k w.need) 1 ∧ max k w.need ≤ bs.length := by
  intro w
  induction w with
  | room j w ih =>
    intro k bs h hr
    obtain ⟨h1, h2, h3⟩ := ih (max k j) bs h hr
    refine ⟨h1, ?_, ?_⟩ <;> simp only [need] <;> omega
  | put b =>
    intro k bs h hr
    simp only [res, Option.some.injEq] at hr
    subst hr
    obtain ⟨h1, h2, h3, _⟩ := h
    refine ⟨by simpa using h1, ?_, ?_⟩ <;> simp only [need, List.length_map] <;> omega
  | iluni => intro k bs h hr; cases hr
  | ub => intro k bs h; exact h.elim
  | abort => intro k bs h; exact h.elim

theorem good_eq : ∀ (w : W) (k os n : Nat), Good k w → w.run os n =
    .ok (if w.need ≤ n then
      (match w.res with
        | some bs => .put bs os
        | none => .iluni os)
      else .small os) := by
  intro w
  induction w with
  | room j w ih =>
    intro k os n h
    have e1 : (room j w).need = max j w.need := rfl
    have e2 : (room j w).res = w.res := rfl
    rw [e2]
    simp only [run]
    by_cases hj : j ≤ n
    · rw [if_pos hj, ih _ os n h]
      by_cases hn : w.need ≤ n
      · rw [if_pos hn, if_pos (show (room j w).need ≤ n by omega)]
      · rw [if_neg hn, if_neg (show ¬ (room j w).need ≤ n by omega)]
    · rw [if_neg hj, if_neg (show ¬ (room j w).need ≤ n by omega)]
  | put bs => intro k os n h; simp [run, need, res]
  | iluni => intro k os n h; simp [run, need, res]
  | ub => intro k os n h; exact h.elim
  | abort => intro k os n h; exact h.elim

/-- The encoder with the programs `w wc` as its `wctomb` function. -/
def enc (w : Nat → W) : Encoder where
  wctomb := fun os wc n => (w wc).run os n
  reset := none

def senc (w : Nat → W) (h : ∀ wc, Good 0 (w wc)) : SimpleEnc (enc w) where
  minRoom := 1
  minRoom_le := Nat.le_refl 1
  enc := fun wc => (w wc).res
  need := fun wc => (w wc).need
  eq := fun os wc n => good_eq (w wc) 0 os n (h wc)
  need_le := fun wc => by have := good_need (w wc) 0 (h wc); omega
  len := fun wc bs hb => by
    obtain ⟨h1, h2, h3⟩ := good_len (w wc) 0 bs (h wc) hb
    exact ⟨h1, by omega, by omega⟩
  reset := rfl

/-- An encoder function of a two-byte character set: with two bytes of room it stores two bytes or
returns `RET_ILUNI` without storing anything. -/
def Two (w : W) : Prop :=
  w.run 0 2 = .ok (.iluni 0) ∨ ∃ a b : Byte, w.run 0 2 = .ok (.put [a, b] 0)

def One (w : W) : Prop :=
  w.run 0 1 = .ok (.iluni 0) ∨ ∃ a : Byte, w.run 0 1 = .ok (.put [a] 0)

theorem good_on2 {w : W} {j : Nat} {k : Int → List Nat → W} (h : Two w)
    (h1 : Good j (k (-1) [])) (h2 : ∀ a b, a < 256 → b < 256 → Good j (k 2 [a, b])) :
    Good j (on w 2 k) := by
  unfold on
  rcases h with h | ⟨a, b, h⟩
  · rw [h]; exact h1
  · rw [h]; exact h2 a.toNat b.toNat (UInt8.toNat_lt _) (UInt8.toNat_lt _)

theorem good_on1 {w : W} {j : Nat} {k : Int → List Nat → W} (h : One w)
    (h1 : Good j (k (-1) [])) (h2 : ∀ a, a < 256 → Good j (k 1 [a])) :
    Good j (on w 1 k) := by
  unfold on
  rcases h with h | ⟨a, h⟩
  · rw [h]; exact h1
  · rw [h]; exact h2 a.toNat (UInt8.toNat_lt _)

theorem good_orElse {v : W} : ∀ (w : W) (k : Nat), Good k w → (∀ j, k ≤ j → j ≤ 7 → Good j v) →
    Good k (w.orElse v) := by
  intro w
  induction w with
  | room j w ih => intro k h hv; exact ih (max k j) h fun i hi => hv i (by omega)
  | put bs => intro k h hv; exact h
  | iluni => intro k h hv; exact hv k (Nat.le_refl _) h
  | ub => intro k h; exact h.elim
  | abort => intro k h; exact h.elim

/-- An alternative without room check. -/
theorem good_orElse0 {v : W} : ∀ (w : W) (k : Nat), w.need = 0 → Good k w → Good k v →
    Good k (w.orElse v) := by
  intro w
  induction w with
  | room j w ih =>
    intro k hn h hv
    simp only [need] at hn
    have hj : j = 0 := by omega
    subst hj
    simp only [orElse, Good, Nat.max_zero] at h ⊢
    exact ih k (by omega) h hv
  | put bs => intro k _ h hv; exact h
  | iluni => intro k _ h hv; exact hv
  | ub => intro k _ h; exact h.elim
  | abort => intro k _ h; exact h.elim

theorem good_ite {k : Nat} {c : Prop} [Decidable c] {a b : W}
    (h1 : c → Good k a) (h2 : ¬ c → Good k b) : Good k (if c then a else b) := by
  by_cases h : c
  · rw [if_pos h]; exact h1 h
  · rw [if_neg h]; exact h2 h

end W

end Reiconv
