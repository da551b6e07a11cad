import Verif.Codec.Utf7

/-!
# UTF-7: the decoder follows the encoder
-/

namespace Reiconv

/-- The byte for a base64 value. -/
def u7b (v : Nat) : Byte := u8 (u7c v)

theorem u7b_toNat {v : Nat} (h : v < 64) : (u7b v).toNat = u7c v := by
  unfold u7b
  rw [u8_toNat]
  have := (u7c_val v h).2
  omega

/-! ## Passes of the loop -/

theorem u7loop_step {fuel j wc k kmax bst v wc' k' bst' : Nat} {s : List Byte} (hs : s[j]? = some (u7b v)) (hv : v < 64)
    (hp : u7push wc k bst v = (wc', k', bst')) (hk : k' ≠ kmax) (hl : j + 2 ≤ s.length) :
    (u7loop (fuel + 1) j wc k kmax bst).run s = (u7loop fuel (j + 1) wc' k' kmax bst').run s := by
  rw [u7loop]
  simp only [M.run, hs, u7b_toNat hv, (u7c_val v hv).1, hp, if_neg hk, if_pos hl]

theorem u7loop_sur {fuel j wc k bst v wc' bst' : Nat} {s : List Byte} (hs : s[j]? = some (u7b v)) (hv : v < 64)
    (hp : u7push wc k bst v = (wc', 2, bst')) (hw : wc' ≥ 0xd800 ∧ wc' < 0xdc00) (hl : j + 2 ≤ s.length) :
    (u7loop (fuel + 1) j wc k 2 bst).run s = (u7loop fuel (j + 1) wc' 2 4 bst').run s := by
  rw [u7loop]
  simp only [M.run, hs, u7b_toNat hv, (u7c_val v hv).1, hp]
  rw [if_pos trivial, if_pos ⟨trivial, hw⟩]
  simp only [M.run, if_pos hl]

theorem u7loop_two {fuel j wc k bst v wc' bst' : Nat} {s : List Byte} (hs : s[j]? = some (u7b v)) (hv : v < 64)
    (hp : u7push wc k bst v = (wc', 2, bst')) (hw : ¬ (wc' ≥ 0xd800 ∧ wc' < 0xdc00)) (hb : bst' % 4 ≠ 0) :
    (u7loop (fuel + 1) j wc k 2 bst).run s = .ok (some (.char wc' (j + 1) bst')) := by
  rw [u7loop]
  simp only [M.run, hs, u7b_toNat hv, (u7c_val v hv).1, hp]
  rw [if_pos trivial, if_neg (fun h => hw h.2)]
  unfold u7fin
  rw [if_neg hb, if_neg (by omega)]
  rfl

theorem u7loop_four {fuel j wc k bst v w bst' c : Nat} {s : List Byte} (hs : s[j]? = some (u7b v)) (hv : v < 64)
    (hp : u7push wc k bst v = (w, 4, bst')) (hc : c ≥ 0x10000 ∧ c < 0x110000) (hw : w = u7pair c) (hb : bst' % 4 ≠ 0) :
    (u7loop (fuel + 1) j wc k 4 bst).run s = .ok (some (.char c (j + 1) bst')) := by
  rw [u7loop]
  simp only [M.run, hs, u7b_toNat hv, (u7c_val v hv).1, hp]
  unfold u7pair at hw
  rw [if_pos trivial, if_neg (by omega)]
  unfold u7fin
  rw [if_neg hb, if_pos rfl, if_neg (by omega), if_neg (by omega)]
  simp only [M.run, Outcome.ok.injEq, Option.some.injEq, SItem.char.injEq, and_true]
  omega

theorem u7push1 {wc k v : Nat} : u7push wc k 1 v = (wc, k, v * 4) := rfl

theorem u7push0 {wc k i v b : Nat} (hi : i = b / 4) (hv : v / 16 = b % 4) :
    u7push wc k (i * 4) v = (wc * 256 + b, k + 1, v % 16 * 16 + 2) := by
  unfold u7push
  rw [if_neg (by omega), if_pos (by omega)]
  simp only [Prod.mk.injEq, and_true]
  omega

theorem u7push2 {wc k d v b : Nat} (hi : d = b / 16) (hv : v / 4 = b % 16) :
    u7push wc k (d * 16 + 2) v = (wc * 256 + b, k + 1, v % 4 * 64 + 3) := by
  unfold u7push
  rw [if_neg (by omega), if_neg (by omega), if_pos (by omega)]
  simp only [Prod.mk.injEq, and_true]
  omega

theorem u7push3 {wc k d v b : Nat} (hi : d = b / 64) (hv : v = b % 64) :
    u7push wc k (d * 64 + 3) v = (wc * 256 + b, k + 1, 1) := by
  unfold u7push
  rw [if_neg (by omega), if_neg (by omega), if_neg (by omega)]
  simp only [Prod.mk.injEq, and_true]
  omega

/-! ## One character -/

/-- From decoder state `st`, the bytes for the values `vs` are the character `wc`, or they are once a value
follows whose upper bits are the ones the encoder keeps in its state `os`. -/
def U7Next (st : Nat) (vs : List Nat) (os wc : Nat) : Prop :=
  (os = 1 ∧ (utf7_item st).run (vs.map u7b) = .ok (some (.char wc vs.length 1))) ∨
  (∃ d, d < 4 ∧ os = d * 16 + 2 ∧ ∀ v, v < 64 → v / 16 = d →
    (utf7_item st).run ((vs ++ [v]).map u7b) = .ok (some (.char wc (vs.length + 1) (v % 16 * 16 + 2)))) ∨
  (∃ d, d < 16 ∧ os = d * 4 + 3 ∧ ∀ v, v < 64 → v / 4 = d →
    (utf7_item st).run ((vs ++ [v]).map u7b) = .ok (some (.char wc (vs.length + 1) (v % 4 * 64 + 3))))

theorem u7item_active {st : Nat} (h : st % 4 ≠ 0) : utf7_item st = u7loop 6 0 0 0 2 st := by
  unfold utf7_item
  rw [if_pos h]

theorem u7next2_1 {b0 b1 : Nat} (h0 : b0 < 256) (h1 : b1 < 256) (hn : ¬ (b0 ≥ 0xd8 ∧ b0 < 0xdc)) :
    U7Next 1 [b0 / 4, b0 % 4 * 16 + b1 / 16] (b1 % 16 * 4 + 3) (b0 * 256 + b1) := by
  refine .inr (.inr ⟨b1 % 16, by omega, rfl, fun v hv hd => ?_⟩)
  rw [u7item_active (by omega)]
  refine (u7loop_step (v := b0 / 4) rfl (by omega) u7push1 (by omega) (by simp)).trans ?_
  refine (u7loop_step (v := b0 % 4 * 16 + b1 / 16) rfl (by omega) (u7push0 (b := b0) rfl (by omega)) (by omega) (by simp)).trans ?_
  refine (u7loop_two (v := v) rfl (by omega) (u7push2 (b := b1) (by omega) (by omega)) (by omega) (by omega)).trans ?_
  simp

theorem u7next2_2 {b0 b1 : Nat} (h0 : b0 < 256) (h1 : b1 < 256) (hn : ¬ (b0 ≥ 0xd8 ∧ b0 < 0xdc)) :
    U7Next (b0 / 16 * 16 + 2) [b0 % 16 * 4 + b1 / 64, b1 % 64] 1 (b0 * 256 + b1) := by
  refine .inl ⟨rfl, ?_⟩
  rw [u7item_active (by omega)]
  refine (u7loop_step (v := b0 % 16 * 4 + b1 / 64) rfl (by omega) (u7push2 (b := b0) rfl (by omega)) (by omega) (by simp)).trans ?_
  refine (u7loop_two (v := b1 % 64) rfl (by omega) (u7push3 (b := b1) (by omega) (by omega)) (by omega) (by omega)).trans ?_
  simp

theorem u7next2_3 {b0 b1 : Nat} (h0 : b0 < 256) (h1 : b1 < 256) (hn : ¬ (b0 ≥ 0xd8 ∧ b0 < 0xdc)) :
    U7Next (b0 / 64 * 64 + 3) [b0 % 64, b1 / 4] (b1 % 4 * 16 + 2) (b0 * 256 + b1) := by
  refine .inr (.inl ⟨b1 % 4, by omega, rfl, fun v hv hd => ?_⟩)
  rw [u7item_active (by omega)]
  refine (u7loop_step (v := b0 % 64) rfl (by omega) (u7push3 (b := b0) rfl (by omega)) (by omega) (by simp)).trans ?_
  refine (u7loop_step (v := b1 / 4) rfl (by omega) u7push1 (by omega) (by simp)).trans ?_
  refine (u7loop_two (v := v) rfl (by omega) (u7push0 (b := b1) (by omega) (by omega)) (by omega) (by omega)).trans ?_
  simp

theorem u7next4_1 {b0 b1 b2 b3 c : Nat} (h0 : b0 ≥ 0xd8 ∧ b0 < 0xdc) (h1 : b1 < 256) (h2 : b2 < 256) (h3 : b3 < 256)
    (hc : c ≥ 0x10000 ∧ c < 0x110000) (hw : ((b0 * 256 + b1) * 256 + b2) * 256 + b3 = u7pair c) :
    U7Next 1 [b0 / 4, b0 % 4 * 16 + b1 / 16, b1 % 16 * 4 + b2 / 64, b2 % 64, b3 / 4] (b3 % 4 * 16 + 2) c := by
  refine .inr (.inl ⟨b3 % 4, by omega, rfl, fun v hv hd => ?_⟩)
  rw [u7item_active (by omega)]
  refine (u7loop_step (v := b0 / 4) rfl (by omega) u7push1 (by omega) (by simp)).trans ?_
  refine (u7loop_step (v := b0 % 4 * 16 + b1 / 16) rfl (by omega) (u7push0 (b := b0) rfl (by omega)) (by omega) (by simp)).trans ?_
  refine (u7loop_sur (v := b1 % 16 * 4 + b2 / 64) rfl (by omega) (u7push2 (b := b1) (by omega) (by omega)) (by omega) (by simp)).trans ?_
  refine (u7loop_step (v := b2 % 64) rfl (by omega) (u7push3 (b := b2) (by omega) (by omega)) (by omega) (by simp)).trans ?_
  refine (u7loop_step (v := b3 / 4) rfl (by omega) u7push1 (by omega) (by simp)).trans ?_
  refine (u7loop_four (v := v) rfl (by omega) (u7push0 (b := b3) (by omega) (by omega)) hc (by rw [← hw]; clear hw; omega) (by omega)).trans ?_
  simp

theorem u7next4_2 {b0 b1 b2 b3 c : Nat} (h0 : b0 ≥ 0xd8 ∧ b0 < 0xdc) (h1 : b1 < 256) (h2 : b2 < 256) (h3 : b3 < 256)
    (hc : c ≥ 0x10000 ∧ c < 0x110000) (hw : ((b0 * 256 + b1) * 256 + b2) * 256 + b3 = u7pair c) :
    U7Next (b0 / 16 * 16 + 2) [b0 % 16 * 4 + b1 / 64, b1 % 64, b2 / 4, b2 % 4 * 16 + b3 / 16] (b3 % 16 * 4 + 3) c := by
  refine .inr (.inr ⟨b3 % 16, by omega, rfl, fun v hv hd => ?_⟩)
  rw [u7item_active (by omega)]
  refine (u7loop_step (v := b0 % 16 * 4 + b1 / 64) rfl (by omega) (u7push2 (b := b0) rfl (by omega)) (by omega) (by simp)).trans ?_
  refine (u7loop_sur (v := b1 % 64) rfl (by omega) (u7push3 (b := b1) (by omega) (by omega)) (by omega) (by simp)).trans ?_
  refine (u7loop_step (v := b2 / 4) rfl (by omega) u7push1 (by omega) (by simp)).trans ?_
  refine (u7loop_step (v := b2 % 4 * 16 + b3 / 16) rfl (by omega) (u7push0 (b := b2) rfl (by omega)) (by omega) (by simp)).trans ?_
  refine (u7loop_four (v := v) rfl (by omega) (u7push2 (b := b3) (by omega) (by omega)) hc (by rw [← hw]; clear hw; omega) (by omega)).trans ?_
  simp

theorem u7next4_3 {b0 b1 b2 b3 c : Nat} (h0 : b0 ≥ 0xd8 ∧ b0 < 0xdc) (h1 : b1 < 256) (h2 : b2 < 256) (h3 : b3 < 256)
    (hc : c ≥ 0x10000 ∧ c < 0x110000) (hw : ((b0 * 256 + b1) * 256 + b2) * 256 + b3 = u7pair c) :
    U7Next (b0 / 64 * 64 + 3) [b0 % 64, b1 / 4, b1 % 4 * 16 + b2 / 16, b2 % 16 * 4 + b3 / 64, b3 % 64] 1 c := by
  refine .inl ⟨rfl, ?_⟩
  rw [u7item_active (by omega)]
  refine (u7loop_step (v := b0 % 64) rfl (by omega) (u7push3 (b := b0) rfl (by omega)) (by omega) (by simp)).trans ?_
  refine (u7loop_step (v := b1 / 4) rfl (by omega) u7push1 (by omega) (by simp)).trans ?_
  refine (u7loop_sur (v := b1 % 4 * 16 + b2 / 16) rfl (by omega) (u7push0 (b := b1) rfl (by omega)) (by omega) (by simp)).trans ?_
  refine (u7loop_step (v := b2 % 16 * 4 + b3 / 64) rfl (by omega) (u7push2 (b := b2) (by omega) (by omega)) (by omega) (by simp)).trans ?_
  refine (u7loop_four (v := b3 % 64) rfl (by omega) (u7push3 (b := b3) (by omega) (by omega)) hc (by rw [← hw]; clear hw; omega) (by omega)).trans ?_
  simp

/-- What is written for a character in base64: in encoder state 1 a decoder in state 1 reads it; in the
other states the first value completes the character before, and what follows is read. -/
theorem u7body_next {os wc : Nat} (hJ : u7J os) (h0 : os % 4 ≠ 0) (hw : wc < 0x110000) (hs : ¬ (wc ≥ 0xd800 ∧ wc < 0xdc00)) :
    (os = 1 ∧ U7Next 1 (u7body os wc).1 (u7body os wc).2 wc) ∨
    (∃ d c vs, os = d * 16 + 2 ∧ (u7body os wc).1 = c :: vs ∧ c < 64 ∧ c / 16 = d ∧
      U7Next (c % 16 * 16 + 2) vs (u7body os wc).2 wc) ∨
    (∃ d c vs, os = d * 4 + 3 ∧ (u7body os wc).1 = c :: vs ∧ c < 64 ∧ c / 4 = d ∧
      U7Next (c % 4 * 64 + 3) vs (u7body os wc).2 wc) := by
  unfold u7J at hJ
  unfold u7body
  by_cases h1 : wc < 0x10000
  · rw [if_pos h1]
    have e : wc / 256 * 256 + wc % 256 = wc := by omega
    generalize hb0 : wc / 256 = b0 at e
    generalize hb1 : wc % 256 = b1 at e
    unfold u7two
    by_cases g1 : os % 4 = 1
    · rw [if_pos g1]
      refine .inl ⟨by omega, ?_⟩
      have := u7next2_1 (b0 := b0) (b1 := b1) (by omega) (by omega) (by omega)
      rwa [e] at this
    rw [if_neg g1]
    by_cases g2 : os % 4 = 2
    · rw [if_pos g2]
      refine .inr (.inl ⟨os / 16, os / 16 * 16 + b0 / 16, _, by omega, rfl, by omega, by omega, ?_⟩)
      have := u7next2_2 (b0 := b0) (b1 := b1) (by omega) (by omega) (by omega)
      rw [e] at this
      rwa [show (os / 16 * 16 + b0 / 16) % 16 = b0 / 16 by omega]
    · rw [if_neg g2]
      refine .inr (.inr ⟨os / 4, os / 4 * 4 + b0 / 64, _, by omega, rfl, by omega, by omega, ?_⟩)
      have := u7next2_3 (b0 := b0) (b1 := b1) (by omega) (by omega) (by omega)
      rw [e] at this
      rwa [show (os / 4 * 4 + b0 / 64) % 4 = b0 / 64 by omega]
  · rw [if_neg h1]
    have hp : u7pair wc / 16777216 ≥ 0xd8 ∧ u7pair wc / 16777216 < 0xdc := by unfold u7pair; omega
    have e : ((u7pair wc / 16777216 * 256 + u7pair wc / 65536 % 256) * 256 + u7pair wc / 256 % 256) * 256 +
        u7pair wc % 256 = u7pair wc := by omega
    generalize hb0 : u7pair wc / 16777216 = b0 at e hp
    generalize hb1 : u7pair wc / 65536 % 256 = b1 at e
    generalize hb2 : u7pair wc / 256 % 256 = b2 at e
    generalize hb3 : u7pair wc % 256 = b3 at e
    unfold u7four
    by_cases g1 : os % 4 = 1
    · rw [if_pos g1]
      exact .inl ⟨by omega, u7next4_1 hp (by omega) (by omega) (by omega) ⟨by omega, hw⟩ e⟩
    rw [if_neg g1]
    by_cases g2 : os % 4 = 2
    · rw [if_pos g2]
      refine .inr (.inl ⟨os / 16, os / 16 * 16 + b0 / 16, _, by omega, rfl, by omega, by omega, ?_⟩)
      rw [show (os / 16 * 16 + b0 / 16) % 16 = b0 / 16 by omega]
      exact u7next4_2 hp (by omega) (by omega) (by omega) ⟨by omega, hw⟩ e
    · rw [if_neg g2]
      refine .inr (.inr ⟨os / 4, os / 4 * 4 + b0 / 64, _, by omega, rfl, by omega, by omega, ?_⟩)
      rw [show (os / 4 * 4 + b0 / 64) % 4 = b0 / 64 by omega]
      exact u7next4_3 hp (by omega) (by omega) (by omega) ⟨by omega, hw⟩ e

/-! ## The simulation -/

/-- The state of the decoder, the bytes `u` it cannot use yet and the characters `k` it has not delivered,
for the state `os` of the encoder. -/
def U7R (os st : Nat) (u : List Byte) (k : List Nat) : Prop :=
  u7J os ∧ u7I st ∧
  ((os = 0 ∧ st = 0 ∧ u = [] ∧ k = []) ∨
   (os = 1 ∧ st = 1 ∧ u = [] ∧ k = []) ∨
   (∃ d wc, os = d * 16 + 2 ∧ k = [wc] ∧ ∀ v, v < 64 → v / 16 = d →
      Chars (satom utf7_item) ⟨0, st⟩ (u ++ [u7b v]) [wc] ⟨0, v % 16 * 16 + 2⟩) ∨
   (∃ d wc, os = d * 4 + 3 ∧ k = [wc] ∧ ∀ v, v < 64 → v / 4 = d →
      Chars (satom utf7_item) ⟨0, st⟩ (u ++ [u7b v]) [wc] ⟨0, v % 4 * 64 + 3⟩))

/-- The facts about the tables that are needed. -/
theorem u7_direct : ∀ c, c < 128 → u7_isdirect c = true → u7_isxdirect c = true ∧ c ≠ 0x2b ∧
    (u7_isxbase64 c = false → u7val c = none ∧ c ≠ 0x2d) := by decide

theorem u7_direct_lt {c : Nat} (h : u7_isdirect c = true) : c < 128 := by
  unfold u7_isdirect u7bit at h
  simp only [Bool.and_eq_true, decide_eq_true_eq] at h
  exact h.1

theorem u7_plus_not_direct : u7_isdirect 0x2b = false := by decide

/-- A direct character outside base64. -/
theorem u7_read_direct {c : Nat} (h : u7_isdirect c = true) :
    Chars (satom utf7_item) ⟨0, 0⟩ [u8 c] [c] ⟨0, 0⟩ := by
  have hl := u7_direct_lt h
  refine chars_char1 (by simp) ?_
  unfold utf7_item
  have e : (u8 c).toNat = c := by rw [u8_toNat]; omega
  rw [if_neg (by omega), M.run_byte0, e, if_pos (u7_direct c hl h).1]
  rfl

theorem u7_read_minus {st : Nat} (h : st % 4 ≠ 0) (h0 : st / 4 * 4 = 0) :
    Chars (satom utf7_item) ⟨0, st⟩ [u8 0x2d] [] ⟨0, 0⟩ := by
  refine chars_shift1 (by simp) ?_
  rw [u7item_active h, u7loop]
  have e : u7val (u8 0x2d).toNat = none := by decide
  have e2 : (u8 0x2d).toNat = 0x2d := by decide
  simp only [M.run, List.getElem?_cons_zero, e, h0]
  rw [if_neg (by simp), if_neg (by simp), if_pos e2]
  rfl

/-- A direct character that ends base64 by itself. -/
theorem u7_read_leave {st c : Nat} (h : st % 4 ≠ 0) (h0 : st / 4 * 4 = 0) (hd : u7_isdirect c = true)
    (hb : u7_isxbase64 c = false) : Chars (satom utf7_item) ⟨0, st⟩ [u8 c] [c] ⟨0, 0⟩ := by
  have hl := u7_direct_lt hd
  have e : (u8 c).toNat = c := by rw [u8_toNat]; omega
  obtain ⟨e1, e2⟩ := (u7_direct c hl hd).2.2 hb
  refine .shift (by simp) (n := 0) (is' := ⟨0, 0⟩) ?_ (u7_read_direct hd)
  have : (utf7_item st).run [u8 c] = .ok (some (.shift 0 0)) := by
    rw [u7item_active h, u7loop]
    simp only [M.run, List.getElem?_cons_zero, e, e1, h0]
    rw [if_neg (by simp), if_neg (by simp), if_neg e2]
    rfl
  unfold satom
  rw [this]

/-- What follows base64 when the bits left are written: with or without a `-`. -/
theorem u7_read_end {st c : Nat} (hI : u7I st) (h : st % 4 ≠ 0) (h0 : st / 4 * 4 = 0) (hd : u7_isdirect c = true) :
    Chars (satom utf7_item) ⟨0, st⟩ (((if u7_isxbase64 c then [0x2d] else []) ++ [c]).map u8) [c] ⟨0, 0⟩ := by
  by_cases hb : u7_isxbase64 c = true
  · rw [if_pos hb]
    exact Chars.st_append utf7_dec (a := [u8 0x2d]) (cs := []) hI (u7_read_minus h h0) (u7_read_direct hd)
  · rw [if_neg hb]
    exact u7_read_leave h h0 hd (by simpa using hb)

/-- The bytes that complete a character and end base64. -/
theorem u7_flush {os st : Nat} {u : List Byte} {k : List Nat} (h : U7R os st u k) (h0 : os % 4 ≠ 0) :
    ∃ st', u7I st' ∧ st' % 4 ≠ 0 ∧ st' / 4 * 4 = 0 ∧
      Chars (satom utf7_item) ⟨0, st⟩ (u ++ ((if os % 4 ≥ 2 then [u7c (os / 4 * 4)] else []) : List Nat).map u8) k ⟨0, st'⟩ := by
  obtain ⟨hJ, hI, h⟩ := h
  rcases h with ⟨h1, _⟩ | ⟨h1, h2, h3, h4⟩ | ⟨d, wc, h1, h2, h3⟩ | ⟨d, wc, h1, h2, h3⟩
  · omega
  · refine ⟨1, .inr (.inl rfl), by omega, by omega, ?_⟩
    rw [if_neg (by omega), h2, h3, h4]
    exact .nil _
  · unfold u7J at hJ
    refine ⟨2, by unfold u7I; omega, by omega, by omega, ?_⟩
    have := h3 (os / 4 * 4) (by omega) (by omega)
    rw [show os / 4 * 4 % 16 * 16 + 2 = 2 by omega] at this
    rw [if_pos (by omega), h2]
    exact this
  · unfold u7J at hJ
    refine ⟨3, by unfold u7I; omega, by omega, by omega, ?_⟩
    have := h3 (os / 4 * 4) (by omega) (by omega)
    rw [show os / 4 * 4 % 4 * 64 + 3 = 3 by omega] at this
    rw [if_pos (by omega), h2]
    exact this

theorem u7c_ne_minus : ∀ v, v < 64 → u7c v ≠ 0x2d := by decide

/-- `+` before base64 characters. -/
theorem u7_read_plus {v : Nat} (hv : v < 64) {t : List Byte} {cs : List Nat} {is : IState}
    (h : Chars (satom utf7_item) ⟨0, 1⟩ (u7b v :: t) cs is) :
    Chars (satom utf7_item) ⟨0, 0⟩ (u8 0x2b :: u7b v :: t) cs is := by
  refine .shift (by simp) (n := 1) (is' := ⟨0, 1⟩) ?_ h
  have : (utf7_item 0).run (u8 0x2b :: u7b v :: t) = .ok (some (.shift 1 1)) := by
    unfold utf7_item
    rw [if_neg (by omega), M.run_byte0, if_neg (by decide), if_pos (by decide), M.run_need (by simp), M.run_byte1,
      if_neg (by rw [u7b_toNat hv]; exact u7c_ne_minus v hv)]
    rfl
  unfold satom
  rw [this]

theorem map_u7b (vs : List Nat) : (vs.map u7c).map u8 = vs.map u7b := by
  rw [List.map_map]; rfl

/-- A decoder at the start of the base64 values of a character. `p` are bytes before them that it reads
together with them. -/
theorem u7_next_R {st st0 os wc : Nat} {p : List Byte} {vs : List Nat} (hI : u7I st0) (hJ : u7J os)
    (hp : ∀ t cs is, t ≠ [] → (∃ v t', v < 64 ∧ t = u7b v :: t') → Chars (satom utf7_item) ⟨0, st⟩ t cs is →
      Chars (satom utf7_item) ⟨0, st0⟩ (p ++ t) cs is)
    (hv : ∀ v ∈ vs, v < 64) (h : U7Next st vs os wc) :
    ∃ used u' cs k' st', p ++ vs.map u7b = used ++ u' ∧ Chars (satom utf7_item) ⟨0, st0⟩ used cs ⟨0, st'⟩ ∧
      [wc] = cs ++ k' ∧ U7R os st' u' k' := by
  have hfirst : ∀ x, x < 64 → ∃ v t', v < 64 ∧ (vs ++ [x]).map u7b = u7b v :: t' := by
    intro x hx
    cases vs with
    | nil => exact ⟨x, [], hx, rfl⟩
    | cons v t => exact ⟨v, _, hv v (List.mem_cons_self ..), rfl⟩
  rcases h with ⟨h1, h2⟩ | ⟨d, hd, h1, h2⟩ | ⟨d, hd, h1, h2⟩
  · have hne : vs ≠ [] := by
      intro e
      subst e
      unfold utf7_item at h2
      by_cases hs : st % 4 ≠ 0
      · rw [if_pos hs] at h2; cases h2
      · rw [if_neg hs] at h2; cases h2
    refine ⟨p ++ vs.map u7b, [], [wc], [], 1, by simp, ?_, rfl, hJ, .inr (.inl rfl), .inr (.inl ⟨h1, rfl, rfl, rfl⟩)⟩
    refine hp _ _ _ (by simpa using hne) ?_ (chars_char1 (by simpa using hne) (by rw [List.length_map]; exact h2))
    cases vs with
    | nil => exact absurd rfl hne
    | cons v t => exact ⟨v, _, hv v (List.mem_cons_self ..), rfl⟩
  · refine ⟨[], p ++ vs.map u7b, [], [wc], st0, rfl, .nil _, rfl, hJ, hI, .inr (.inr (.inl ⟨d, wc, h1, rfl, ?_⟩))⟩
    intro v hv hd
    have := chars_char1 (bo := 0) (by simp) (show _ = Outcome.ok (some (SItem.char wc ((vs ++ [v]).map u7b).length (v % 16 * 16 + 2))) by
      rw [h2 v hv hd]; simp)
    have := hp _ _ _ (by simp) (hfirst v hv) this
    rw [List.map_append, ← List.append_assoc] at this
    exact this
  · refine ⟨[], p ++ vs.map u7b, [], [wc], st0, rfl, .nil _, rfl, hJ, hI, .inr (.inr (.inr ⟨d, wc, h1, rfl, ?_⟩))⟩
    intro v hv hd
    have := chars_char1 (bo := 0) (by simp) (show _ = Outcome.ok (some (SItem.char wc ((vs ++ [v]).map u7b).length (v % 4 * 64 + 3))) by
      rw [h2 v hv hd]; simp)
    have := hp _ _ _ (by simp) (hfirst v hv) this
    rw [List.map_append, ← List.append_assoc] at this
    exact this

theorem u7body_lt {os wc : Nat} (hJ : u7J os) (hw : wc < 0x110000) : ∀ v ∈ (u7body os wc).1, v < 64 := by
  unfold u7J at hJ
  have hp := u7pair_lt hw
  unfold u7body
  by_cases h1 : wc < 0x10000
  · rw [if_pos h1]
    unfold u7two
    repeat' split
    all_goals
      simp only [List.mem_cons, List.not_mem_nil, or_false]
      intro v hv
      omega
  · rw [if_neg h1]
    generalize u7pair wc = w at hp
    unfold u7four
    repeat' split
    all_goals
      simp only [List.mem_cons, List.not_mem_nil, or_false]
      intro v hv
      omega

/-- Not the first half of a surrogate pair. -/
def NotHigh (wc : Nat) : Prop := ¬ (wc ≥ 0xd800 ∧ wc < 0xdc00)

theorem u7_step {os st wc : Nat} {u : List Byte} {k bs : List Nat} {os' : Nat} (h : U7R os st u k) (hP : NotHigh wc)
    (he : u7enc os wc = some (bs, os')) :
    ∃ used u' cs k' st', u ++ bs.map u8 = used ++ u' ∧ Chars (satom utf7_item) ⟨0, st⟩ used cs ⟨0, st'⟩ ∧
      k ++ [wc] = cs ++ k' ∧ U7R os' st' u' k' := by
  unfold u7enc at he
  by_cases h1 : u7_isdirect wc = true
  · rw [if_pos h1] at he
    cases he
    by_cases h0 : os % 4 = 0
    · rw [if_pos h0]
      obtain ⟨hJ, hI, h⟩ := h
      have hz : os = 0 := by unfold u7J at hJ; omega
      subst hz
      rcases h with ⟨_, h2, h3, h4⟩ | ⟨h, _⟩ | ⟨d, _, h, _⟩ | ⟨d, _, h, _⟩
      · subst h2 h3 h4
        exact ⟨[u8 wc], [], [wc], [], 0, by simp, u7_read_direct h1, by simp, .inl rfl, .inl rfl, .inl ⟨rfl, rfl, rfl, rfl⟩⟩
      all_goals omega
    · rw [if_neg h0]
      obtain ⟨st', g1, g2, g3, g4⟩ := u7_flush h h0
      refine ⟨_, [], k ++ [wc], [], 0, (List.append_nil _).symm, ?_, by simp, .inl rfl, .inl rfl, .inl ⟨rfl, rfl, rfl, rfl⟩⟩
      have := Chars.st_append utf7_dec h.2.1 g4 (u7_read_end g1 g2 g3 h1)
      rw [List.append_assoc, ← List.map_append, ← List.append_assoc] at this
      exact this
  rw [if_neg h1] at he
  by_cases h2 : os % 4 = 0 ∧ wc = 0x2b
  · rw [if_pos h2] at he
    cases he
    obtain ⟨hJ, hI, h⟩ := h
    obtain ⟨h0, rfl⟩ := h2
    have hz : os = 0 := by unfold u7J at hJ; omega
    subst hz
    rcases h with ⟨_, h2, h3, h4⟩ | ⟨h, _⟩ | ⟨d, _, h, _⟩ | ⟨d, _, h, _⟩
    · subst h2 h3 h4
      refine ⟨[u8 0x2b, u8 0x2d], [], [0x2b], [], 0, by simp, ?_, by simp, .inl rfl, .inl rfl, .inl ⟨rfl, rfl, rfl, rfl⟩⟩
      exact chars_char1 (by simp) rfl
    all_goals omega
  rw [if_neg h2] at he
  by_cases h3 : wc < 0x110000
  · rw [if_pos h3] at he
    by_cases h0 : os % 4 = 0
    · rw [if_pos h0] at he
      cases he
      obtain ⟨hJ, hI, h⟩ := h
      have hz : os = 0 := by unfold u7J at hJ; omega
      subst hz
      rcases h with ⟨_, g2, g3, g4⟩ | ⟨h, _⟩ | ⟨d, _, h, _⟩ | ⟨d, _, h, _⟩
      · subst g2 g3 g4
        have hn := u7body_next (os := 1) (wc := wc) (.inr (.inl rfl)) (by omega) h3 hP
        rcases hn with ⟨_, hn⟩ | ⟨d, _, _, h, _⟩ | ⟨d, _, _, h, _⟩
        · have := u7_next_R (st0 := 0) (p := [u8 0x2b]) (.inl rfl) u7body_st (by
            rintro t cs is _ ⟨v, t', hv, rfl⟩ hc
            exact u7_read_plus hv hc) (u7body_lt (.inr (.inl rfl)) h3) hn
          rw [List.map_cons, map_u7b]
          exact this
        all_goals omega
      all_goals omega
    · rw [if_neg h0] at he
      cases he
      have hb := u7body_lt h.1 h3
      have hn := u7body_next h.1 h0 h3 hP
      obtain ⟨hJ, hI, h⟩ := h
      rcases hn with ⟨ho, hn⟩ | ⟨d, c, vs, ho, hc, hc1, hc2, hn⟩ | ⟨d, c, vs, ho, hc, hc1, hc2, hn⟩
      · rcases h with ⟨h, _⟩ | ⟨_, g2, g3, g4⟩ | ⟨d, _, h, _⟩ | ⟨d, _, h, _⟩
        · omega
        · subst g2 g3 g4
          have := u7_next_R (st0 := 1) (p := []) (.inr (.inl rfl)) u7body_st (by
            intro t cs is _ _ hc
            exact hc) hb hn
          rw [map_u7b]
          simpa using this
        all_goals omega
      · rcases h with ⟨h, _⟩ | ⟨h, _⟩ | ⟨d', w, g1, g2, g3⟩ | ⟨d', _, h, _⟩
        · omega
        · omega
        · have g3 := g3 c hc1 (by omega)
          have hI2 : u7I (c % 16 * 16 + 2) := by unfold u7I; omega
          obtain ⟨used, u', cs, k', st', e1, e2, e3, e4⟩ := u7_next_R (st0 := c % 16 * 16 + 2) (p := []) hI2 u7body_st (by
            intro t cs is _ _ hc
            exact hc) (fun v hv => hb v (by rw [hc]; exact List.mem_cons_of_mem _ hv)) hn
          refine ⟨(u ++ [u7b c]) ++ used, u', w :: cs, k', st', ?_, ?_, ?_, e4⟩
          · rw [hc, map_u7b, List.append_assoc _ used, ← e1]
            simp
          · exact Chars.st_append utf7_dec (cs := [w]) hI g3 e2
          · rw [g2, e3]; rfl
        · omega
      · rcases h with ⟨h, _⟩ | ⟨h, _⟩ | ⟨d', _, h, _⟩ | ⟨d', w, g1, g2, g3⟩
        · omega
        · omega
        · omega
        · have g3 := g3 c hc1 (by omega)
          have hI2 : u7I (c % 4 * 64 + 3) := by unfold u7I; omega
          obtain ⟨used, u', cs, k', st', e1, e2, e3, e4⟩ := u7_next_R (st0 := c % 4 * 64 + 3) (p := []) hI2 u7body_st (by
            intro t cs is _ _ hc
            exact hc) (fun v hv => hb v (by rw [hc]; exact List.mem_cons_of_mem _ hv)) hn
          refine ⟨(u ++ [u7b c]) ++ used, u', w :: cs, k', st', ?_, ?_, ?_, e4⟩
          · rw [hc, map_u7b, List.append_assoc _ used, ← e1]
            simp
          · exact Chars.st_append utf7_dec (cs := [w]) hI g3 e2
          · rw [g2, e3]; rfl
  · rw [if_neg h3] at he
    cases he

/-- Proof that `utf7_entry` satisfies the contract `Sim`. -/
def utf7_sim : Sim utf7_entry NotHigh where
  R := fun os is u k => is.bo = 0 ∧ U7R os is.st u k
  start := ⟨rfl, .inl rfl, .inl rfl, .inl ⟨rfl, rfl, rfl, rfl⟩⟩
  kept0 := rfl
  inv := by
    rintro os is u k ⟨hb, h⟩
    exact ⟨hb, h.2.1⟩
  step := by
    rintro os ⟨bo, st⟩ u k wc bs os' ⟨hb, h⟩ hP hf
    cases hb
    have hf : utf7_encoder.full os wc = some (bs, os') := Encoder.rep_full hf
    rw [utf7_enc.full_eq h.1] at hf
    have hf : (u7enc os wc).map (fun x => (x.1.map u8, x.2)) = some (bs, os') := hf
    cases he : u7enc os wc with
    | none => rw [he] at hf; cases hf
    | some x =>
      obtain ⟨b, o⟩ := x
      rw [he] at hf
      cases hf
      obtain ⟨used, u', cs, k', st', h1, h2, h3, h4⟩ := u7_step h hP he
      exact ⟨used, u', cs, k', ⟨0, st'⟩, h1, h2, h3, rfl, h4⟩
  tail := by
    rintro os ⟨bo, st⟩ u k ⟨hb, h⟩
    cases hb
    have ht : utf7_entry.enc.tail os = (if os % 4 = 0 then [] else u7leave os true).map u8 :=
      utf7_enc.tail_eq h.1 (by simp [utf7_encoder])
    rw [ht]
    by_cases h0 : os % 4 = 0
    · rw [if_pos h0]
      obtain ⟨hJ, hI, h⟩ := h
      have hz : os = 0 := by unfold u7J at hJ; omega
      subst hz
      rcases h with ⟨_, h2, h3, h4⟩ | ⟨h, _⟩ | ⟨d, _, h, _⟩ | ⟨d, _, h, _⟩
      · simp only at h2
        subst h2 h3 h4
        exact ⟨[], ⟨0, 0⟩, .nil _, rfl, rfl, .inl rfl, .inl rfl, .inl ⟨rfl, rfl, rfl, rfl⟩⟩
      all_goals omega
    · rw [if_neg h0]
      obtain ⟨st', g1, g2, g3, g4⟩ := u7_flush h h0
      refine ⟨k, ⟨0, 0⟩, ?_, (List.append_nil _).symm, rfl, .inl rfl, .inl rfl, .inl ⟨rfl, rfl, rfl, rfl⟩⟩
      have := Chars.st_append utf7_dec h.2.1 g4 (u7_read_minus g2 g3)
      unfold u7leave
      rw [List.map_append, ← List.append_assoc]
      rw [List.append_nil] at this
      exact this

end Reiconv
