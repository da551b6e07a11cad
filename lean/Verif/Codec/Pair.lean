import Verif.Codec.Stateful
import Verif.Codec.Comp

/-!
# Encodings where one byte sequence stands for two characters

The decoder delivers the second character with the next call. The encoder holds back a character that
might be the first of such a pair.
-/

namespace Reiconv

/-- An encoder program that stores bytes before it has checked the room for all of them. `room k w`:
`if (n < k) return RET_TOOSMALL;`, where `n` is the room at the start; `store bs w`: store `bs` behind what has
been stored before; `done st`: set `conv->ostate = st`, return the number of bytes stored. -/
inductive BW where
  | room (k : Nat) (w : BW)
  | store (bs : List Nat) (w : BW)
  | done (st : Nat)
  | iluni
  | ub
  | abort

namespace BW

/-- Run a program; `acc` has been stored already. -/
def run : BW → List Byte → Nat → Nat → Outcome WcRes
  | room k w, acc, os, n => if k ≤ n then w.run acc os n else .ok ⟨.toosmall, acc, os⟩
  | store bs w, acc, os, n => w.run (acc ++ bs.map u8) os n
  | done st, acc, _, _ => .ok (.put acc st)
  | iluni, acc, os, _ => .ok ⟨.iluni, acc, os⟩
  | ub, _, _, _ => .ub
  | abort, _, _, _ => .abort

/-- `ret = f(conv, buf, wc, n)` with a local buffer of `n` bytes, then `k ret buf`. -/
def on (w : W) (n : Nat) (k : Int → List Nat → BW) : BW :=
  match w.run 0 n with
  | .ok r => if r.ws.length ≤ n then k r.ret.code (r.ws.map (·.toNat)) else ub
  | .ub => ub
  | .abort => abort
  | .diverge => ub

/-- A call `ret = f(conv, buf, wc, 1)`: if it succeeds and `buf[0]` satisfies the test `P` then `found buf[0]`,
otherwise `rest`: `if (ret != RET_ILUNI) { if (ret != 1) abort(); if (P) { … return; } }`. -/
def try1 (w : W) (P : Nat → Prop) [DecidablePred P] (found : Nat → BW) (rest : BW) : BW :=
  on w 1 fun ret buf =>
    if ret ≠ RET_ILUNI then
      if ret ≠ 1 then .abort
      else if P (bufAt buf 0) then found (bufAt buf 0)
      else rest
    else rest

/-- The same for a two-byte character set. -/
def try2 (w : W) (P : Nat → Nat → Prop) [∀ a b, Decidable (P a b)] (found : Nat → Nat → BW) (rest : BW) : BW :=
  on w 2 fun ret buf =>
    if ret ≠ RET_ILUNI then
      if ret ≠ 2 then .abort
      else if P (bufAt buf 0) (bufAt buf 1) then found (bufAt buf 0) (bufAt buf 1)
      else rest
    else rest

def need : BW → Nat
  | room k w => max k w.need
  | store _ w => w.need
  | _ => 0

def res : BW → List Byte → Option (List Byte × Nat)
  | room _ w, acc => w.res acc
  | store bs w, acc => w.res (acc ++ bs.map u8)
  | done st, acc => some (acc, st)
  | _, _ => none

/-- What has been stored when an error is returned. -/
def junk : BW → List Byte → Nat → List Byte
  | room k w, acc, n => if k ≤ n then w.junk acc n else acc
  | store bs w, acc, n => w.junk (acc ++ bs.map u8) n
  | _, acc, _ => acc

/-- No undefined behaviour and no abort; there is room (`k`, so far) for what is stored (`a` bytes, so far),
and no more room is asked for. If nothing is stored then the final state satisfies `L`. -/
def Good (I L : Nat → Prop) : Nat → Nat → BW → Prop
  | k, a, room j w => Good I L (max k j) a w
  | k, a, store bs w => a + bs.length ≤ k ∧ Good I L k (a + bs.length) w
  | k, a, done st => I st ∧ a = k ∧ k ≤ 64 ∧ (a ≠ 0 ∨ L st)
  | k, _, iluni => k ≤ 64
  | _, _, ub => False
  | _, _, abort => False

variable {I L : Nat → Prop}

theorem good_eq : ∀ (w : BW) (acc : List Byte) (k a os n : Nat), Good I L k a w → w.run acc os n =
    .ok (if w.need ≤ n then
      (match w.res acc with
        | some (bs, st) => .put bs st
        | none => ⟨.iluni, w.junk acc n, os⟩)
      else ⟨.toosmall, w.junk acc n, os⟩) := by
  intro w
  induction w with
  | room j w ih =>
    intro acc k a os n h
    have e1 : (room j w).need = max j w.need := rfl
    have e2 : (room j w).res acc = w.res acc := rfl
    have e3 : (room j w).junk acc n = if j ≤ n then w.junk acc n else acc := rfl
    rw [e2, e3]
    simp only [run]
    by_cases hj : j ≤ n
    · rw [if_pos hj, if_pos hj, ih acc _ a os n h]
      by_cases hn : w.need ≤ n
      · rw [if_pos hn, if_pos (show (room j w).need ≤ n by omega)]
      · rw [if_neg hn, if_neg (show ¬ (room j w).need ≤ n by omega)]
    · rw [if_neg hj, if_neg hj, if_neg (show ¬ (room j w).need ≤ n by omega)]
  | store bs w ih =>
    intro acc k a os n h
    exact ih _ _ _ os n h.2
  | done st => intro acc k a os n h; simp [run, need, res]
  | iluni => intro acc k a os n h; simp [run, need, res, junk]
  | ub => intro acc k a os n h; exact h.elim
  | abort => intro acc k a os n h; exact h.elim

theorem good_need : ∀ (w : BW) (k a : Nat), Good I L k a w → max k w.need ≤ 64 := by
  intro w
  induction w with
  | room j w ih =>
    intro k a h
    have := ih (max k j) a h
    simp only [need]; omega
  | store bs w ih =>
    intro k a h
    exact ih k _ h.2
  | done st => intro k a h; simp only [need]; have := h.2.2.1; omega
  | iluni => intro k a h; simp only [need]; have : k ≤ 64 := h; omega
  | ub => intro k a h; exact h.elim
  | abort => intro k a h; exact h.elim

theorem good_res : ∀ (w : BW) (acc : List Byte) (k : Nat) (bs : List Byte) (st : Nat), Good I L k acc.length w →
    w.res acc = some (bs, st) → I st ∧ bs.length = max k w.need ∧ (bs ≠ [] ∨ L st) := by
  intro w
  induction w with
  | room j w ih =>
    intro acc k bs st h hr
    obtain ⟨h1, h2, h3⟩ := ih acc (max k j) bs st h hr
    exact ⟨h1, by simp only [need]; omega, h3⟩
  | store b w ih =>
    intro acc k bs st h hr
    refine ih _ k bs st ?_ hr
    rw [List.length_append, List.length_map]
    exact h.2
  | done s =>
    intro acc k bs st h hr
    simp only [res, Option.some.injEq, Prod.mk.injEq] at hr
    obtain ⟨rfl, rfl⟩ := hr
    obtain ⟨h1, h2, h3, h4⟩ := h
    refine ⟨h1, by simp only [need]; omega, h4.imp ?_ id⟩
    rintro h rfl
    exact h rfl
  | iluni => intro acc k bs st h hr; cases hr
  | ub => intro acc k bs st h; exact h.elim
  | abort => intro acc k bs st h; exact h.elim

theorem good_junk : ∀ (w : BW) (acc : List Byte) (k n : Nat), Good I L k acc.length w → acc.length ≤ k → k ≤ n →
    (w.junk acc n).length ≤ n := by
  intro w
  induction w with
  | room j w ih =>
    intro acc k n h ha hk
    simp only [junk]
    split
    · exact ih acc (max k j) n h (by omega) (by omega)
    · omega
  | store b w ih =>
    intro acc k n h ha hk
    have e : (acc ++ b.map u8).length = acc.length + b.length := by rw [List.length_append, List.length_map]
    exact ih _ k n (by rw [e]; exact h.2) (by rw [e]; exact h.1) hk
  | done s => intro acc k n h ha hk; simp only [junk]; omega
  | iluni => intro acc k n h ha hk; simp only [junk]; omega
  | ub => intro acc k n h; exact h.elim
  | abort => intro acc k n h; exact h.elim

theorem junk_mono : ∀ (w : BW) (acc : List Byte) (n m : Nat), w.need ≤ n → n ≤ m → w.junk acc n = w.junk acc m := by
  intro w
  induction w with
  | room j w ih =>
    intro acc n m h hm
    simp only [need] at h
    simp only [junk]
    rw [if_pos (by omega), if_pos (by omega)]
    exact ih acc n m (by omega) hm
  | store b w ih => intro acc n m h hm; exact ih _ n m h hm
  | done s => intro acc n m _ _; rfl
  | iluni => intro acc n m _ _; rfl
  | ub => intro acc n m _ _; rfl
  | abort => intro acc n m _ _; rfl

variable {k a : Nat}

theorem good_room {j : Nat} {w : BW} (h : Good I L (max k j) a w) : Good I L k a (.room j w) := h

theorem good_store {bs : List Nat} {w : BW} (h : a + bs.length ≤ k) (h1 : Good I L k (a + bs.length) w) :
    Good I L k a (.store bs w) := ⟨h, h1⟩

theorem good_done {st : Nat} (h : I st) (h1 : a = k) (h2 : k ≤ 64) (h3 : a ≠ 0 ∨ L st) : Good I L k a (.done st) :=
  ⟨h, h1, h2, h3⟩

theorem good_iluni (h : k ≤ 64) : Good I L k a .iluni := h

theorem good_ite {c : Prop} [Decidable c] {x y : BW}
    (h1 : c → Good I L k a x) (h2 : ¬ c → Good I L k a y) : Good I L k a (if c then x else y) := by
  by_cases h : c
  · rw [if_pos h]; exact h1 h
  · rw [if_neg h]; exact h2 h

/-- What `try1` gives: the byte of the character set or the alternative. -/
theorem try1_cases {w : W} (h : W.One w) (P : Nat → Prop) [DecidablePred P] (found : Nat → BW) (rest : BW) :
    (∃ x : Byte, w.run 0 1 = .ok (.put [x] 0) ∧ P x.toNat ∧ try1 w P found rest = found x.toNat) ∨
      try1 w P found rest = rest := by
  unfold try1 on
  rcases h with h | ⟨x, h⟩
  · rw [h]
    exact .inr rfl
  · rw [h]
    have e : (if (WcRes.put [x] 0).ws.length ≤ 1 then
        (fun (ret : Int) (buf : List Nat) =>
          if ret ≠ RET_ILUNI then
            if ret ≠ 1 then BW.abort
            else if P (bufAt buf 0) then found (bufAt buf 0)
            else rest
          else rest) (WcRes.put [x] 0).ret.code ((WcRes.put [x] 0).ws.map (·.toNat)) else .ub) =
        if P x.toNat then found x.toNat else rest := rfl
    by_cases hp : P x.toNat
    · exact .inl ⟨x, rfl, hp, by rw [if_pos hp] at e; exact e⟩
    · exact .inr (by rw [if_neg hp] at e; exact e)

/-- What `try2` gives. -/
theorem try2_put {w : W} {x y : Byte} (h : w.run 0 2 = .ok (.put [x, y] 0)) (P : Nat → Nat → Prop)
    [∀ a b, Decidable (P a b)] (found : Nat → Nat → BW) (rest : BW) :
    try2 w P found rest = if P x.toNat y.toNat then found x.toNat y.toNat else rest := by
  unfold try2 on
  rw [h]
  rfl

theorem try2_iluni {w : W} (h : w.run 0 2 = .ok (.iluni 0)) (P : Nat → Nat → Prop)
    [∀ a b, Decidable (P a b)] (found : Nat → Nat → BW) (rest : BW) :
    try2 w P found rest = rest := by
  unfold try2 on
  rw [h]
  rfl

theorem good_try1 {w : W} {P : Nat → Prop} [DecidablePred P] {found : Nat → BW}
    {rest : BW} (h : W.One w) (h1 : ∀ x, x < 256 → P x → Good I L k a (found x)) (h2 : Good I L k a rest) :
    Good I L k a (try1 w P found rest) := by
  rcases try1_cases h P found rest with ⟨x, _, hp, e⟩ | e
  · rw [e]; exact h1 _ (UInt8.toNat_lt _) hp
  · rw [e]; exact h2

theorem good_try2 {w : W} {P : Nat → Nat → Prop} [∀ a b, Decidable (P a b)] {found : Nat → Nat → BW}
    {rest : BW} (h : W.Two w) (h1 : ∀ x y, x < 256 → y < 256 → P x y → Good I L k a (found x y))
    (h2 : Good I L k a rest) : Good I L k a (try2 w P found rest) := by
  rcases h with h | ⟨x, y, h⟩
  · rw [try2_iluni h]; exact h2
  · rw [try2_put h]
    exact good_ite (fun hp => h1 _ _ (UInt8.toNat_lt _) (UInt8.toNat_lt _) hp) (fun _ => h2)

end BW

/-- The encoder with the programs `w os wc` as its `wctomb` function and a reset function that writes
`rt os` if there is room. -/
def bencoder (w : Nat → Nat → BW) (rt : Nat → List Nat) : Encoder where
  wctomb := fun os wc n => (w os wc).run [] os n
  reset := some fun os n =>
    if n < (rt os).length then .ok (.small os) else .ok (.put ((rt os).map u8) os)

def BW.toSt {w : Nat → Nat → BW} {rt : Nat → List Nat} {I : Nat → Prop} (h0 : I 0)
    (h : ∀ os wc, I os → BW.Good I (fun st => rt st ≠ []) 0 0 (w os wc)) (hr : ∀ os, I os → (rt os).length ≤ 64) :
    StEnc (bencoder w rt) where
  I := I
  init := h0
  enc := fun os wc => (w os wc).res []
  need := fun os wc => (w os wc).need
  junk := fun os wc n => (w os wc).junk [] n
  eq := fun os wc n hI => BW.good_eq (w os wc) [] 0 0 os n (h os wc hI)
  need_le := fun os wc hI => by have := BW.good_need _ 0 0 (h os wc hI); omega
  len := fun os wc bs os' hI he => by
    obtain ⟨h1, h2, _⟩ := BW.good_res _ [] 0 bs os' (h os wc hI) he
    exact ⟨h1, by omega, by omega⟩
  junk_len := fun os wc n hI _ => BW.good_junk _ [] 0 n (h os wc hI) (Nat.le_refl _) (Nat.zero_le _)
  junk_mono := fun os wc n m _ h1 h2 _ => BW.junk_mono _ [] n m h1 h2
  rtail := fun os => (rt os).map u8
  rtail_len := fun os hI => by rw [List.length_map]; exact hr os hI
  reset := by
    intro f hf os n hI
    cases hf
    simp only [List.length_map]
    by_cases hn : n < (rt os).length
    · rw [if_pos hn, if_neg (by omega)]
    · rw [if_neg hn, if_pos (by omega)]
  live := fun os wc bs os' hI he => (BW.good_res _ [] 0 bs os' (h os wc hI) he).2.2.imp id
    fun h => .inl ⟨by simp [bencoder], by simpa using h⟩

/-! ## Decoders -/

/-- `mbtowc` with a pending character: `last_wc = conv->istate; if (last_wc) { conv->istate = 0; *pwc = last_wc;
return 0; } else …`. -/
def pairItem (body : M SItem) (st : Nat) : M SItem :=
  if st ≠ 0 then .ret (.char st 0 0) else body

/-- The decoder with the function `body` for the case that no character is pending. -/
def pairDec (body : M SItem) : Decoder where
  mbtowc := sdecode (pairItem body)
  flushwc := some normal_flushwc

/-- What `body` may do. -/
def PairItemOK (j : Nat) : SItem → Prop
  | .char _ n st => st < 0x110000 ∧ 1 ≤ n ∧ n ≤ j
  | .shift _ _ => False
  | .ilseq => 1 ≤ j

def pairSt (body : M SItem) (h : M.Good PairItemOK 1 body) : StDec (pairDec body) where
  item := pairItem body
  I := fun st => st < 0x110000
  pend := fun st => st != 0
  eq := rfl
  init := by omega
  good := by
    intro st hI
    unfold pairItem
    by_cases hs : st = 0
    · rw [if_neg (by omega)]
      refine M.good_imp body 1 ?_ h
      intro j x _ hx
      cases x with
      | char wc n st' => exact ⟨hx.1, hx.2.2, fun h0 => by have := hx.2.1; omega⟩
      | shift n st' => exact hx.elim
      | ilseq => exact hx
    · rw [if_pos hs]
      refine M.good_ret ⟨by omega, by omega, fun _ => ⟨by simpa using hs, rfl⟩⟩
  flush_ok := by
    intro f hf is hI
    cases hf
    unfold normal_flushwc
    by_cases hs : is.st = 0
    · rw [if_neg (by omega)]
      exact ⟨hI, rfl, by simp [hs], by rintro _ ⟨⟩⟩
    · rw [if_pos hs]
      refine ⟨by show 0 < 0x110000; omega, rfl, by simp, ?_⟩
      rintro _ ⟨⟩
      exact hI

/-! ## Encoders -/

/-- `wctomb` with a buffered character: if one is held back (`os ≠ 0`) then it is written together with `wc` as
`comp os wc` if there is such a byte sequence, otherwise `last os` is written, followed by what
`base 2 wc` writes. -/
def pairProg (comp : Nat → Nat → Option (List Nat)) (last : Nat → List Nat) (base : Nat → Nat → BW) (os wc : Nat) : BW :=
  if os ≠ 0 then
    match comp os wc with
    | some bs => .room 2 <| .store bs <| .done 0
    | none => .room 2 <| .store (last os) <| base 2 wc
  else base 0 wc

/-- The bytes the reset function writes. -/
def pairTail (last : Nat → List Nat) (os : Nat) : List Nat := if os ≠ 0 then last os else []

structure PairGood (I : Nat → Prop) (comp : Nat → Nat → Option (List Nat)) (last : Nat → List Nat)
    (base : Nat → Nat → BW) : Prop where
  init : I 0
  comp : ∀ os wc bs, I os → comp os wc = some bs → bs.length = 2
  last : ∀ os, (last os).length = 2
  base : ∀ c wc, c = 0 ∨ c = 2 → BW.Good I (fun st => st ≠ 0) c c (base c wc)

theorem BW.Good.imp {I L L' : Nat → Prop} (hi : ∀ st, L st → L' st) : ∀ (w : BW) (k a : Nat), BW.Good I L k a w →
    BW.Good I L' k a w := by
  intro w
  induction w with
  | room j w ih => intro k a h; exact ih _ _ h
  | store bs w ih => intro k a h; exact ⟨h.1, ih _ _ h.2⟩
  | done st => intro k a h; exact ⟨h.1, h.2.1, h.2.2.1, h.2.2.2.imp id (hi st)⟩
  | iluni => intro k a h; exact h
  | ub => intro k a h; exact h
  | abort => intro k a h; exact h

theorem pair_good {I : Nat → Prop} {comp : Nat → Nat → Option (List Nat)} {last : Nat → List Nat}
    {base : Nat → Nat → BW} (h : PairGood I comp last base) : ∀ os wc, I os →
    BW.Good I (fun st => pairTail last st ≠ []) 0 0 (pairProg comp last base os wc) := by
  intro os wc hI
  have hb : ∀ c, c = 0 ∨ c = 2 → BW.Good I (fun st => pairTail last st ≠ []) c c (base c wc) := by
    intro c hc
    refine BW.Good.imp ?_ _ _ _ (h.base c wc hc)
    intro st hs he
    have := h.last st
    unfold pairTail at he
    rw [if_pos hs] at he
    rw [he] at this
    cases this
  unfold pairProg
  refine BW.good_ite (fun hos => ?_) (fun _ => hb 0 (.inl rfl))
  cases hc : comp os wc with
  | some bs =>
    have := h.comp os wc bs hI hc
    refine BW.good_room (BW.good_store (by omega) (BW.good_done h.init (by omega) (by omega) (.inl (by omega))))
  | none =>
    have := h.last os
    refine BW.good_room (BW.good_store (by omega) ?_)
    have e : (0 + (last os).length) = 2 := by omega
    rw [e]
    exact hb 2 (.inr rfl)

def pairEncSt {I : Nat → Prop} {comp : Nat → Nat → Option (List Nat)} {last : Nat → List Nat}
    {base : Nat → Nat → BW} (h : PairGood I comp last base) :
    StEnc (bencoder (pairProg comp last base) (pairTail last)) :=
  BW.toSt h.init (pair_good h)
    (by
      intro os _
      unfold pairTail
      have := h.last os
      split
      · omega
      · simp)

def pairEntry (idx : Nat) (hu : unitOf idx = 1) {body : M SItem} (hd : M.Good PairItemOK 1 body) {I : Nat → Prop}
    {comp : Nat → Nat → Option (List Nat)} {last : Nat → List Nat}
    {base : Nat → Nat → BW} (he : PairGood I comp last base) : Entry :=
  stEntry idx hu (pairSt body hd) (pairEncSt he)

end Reiconv
