import Verif.Codec.TreeTac
import Verif.Entry

/-!
# Encodings with shift states

The decoders of these encodings are loops: they handle escape sequences, which change the state, until
they come to a character, to an invalid sequence or to the end of the input. One pass through the loop
body is an *item*. The encoders write the escape sequence for the character set they need, then the
character.
-/

namespace Reiconv

/-! ## Decoders -/

/-- What one pass through the loop body does: `char wc n st`: return the character `wc` of `n` bytes with
the state `st`; `shift n st`: advance by `n` bytes, continue with the state `st`; `ilseq`: `goto ilseq`. -/
inductive SItem where
  | char (wc n st : Nat)
  | shift (n st : Nat)
  | ilseq

/-- The loop `for (;;) { c = *s; … }` of the stateful decoders. `item st` is the loop body together with
what follows it, with `s` already advanced; `if (n < count+k) goto none` is `need k`. After a shift
sequence: `s += k; count += k; if (n < count+1) goto none; continue;`. At `none:` the state is stored and
`RET_TOOFEW(count)` returned, at `ilseq:` the state is stored and `RET_SHIFT_ILSEQ(count)` returned. -/
def sloop (item : Nat → M SItem) : Nat → Nat → List Byte → Outcome (MbRet × Nat)
  | 0, _, _ => .diverge
  | fuel + 1, st, s =>
    match (item st).run s with
    | .ub => .ub
    | .abort => .abort
    | .diverge => .diverge
    | .ok none => .ok (.toofew 0, st)
    | .ok (some (.char wc n st')) => .ok (.char wc n, st')
    | .ok (some .ilseq) => .ok (.ilseq 0, st)
    | .ok (some (.shift n st')) =>
      if s.drop n = [] then .ok (.toofew n, st')
      else
        match sloop item fuel st' (s.drop n) with
        | .ok (r, st'') => .ok (r.addCount n, st'')
        | .ub => .ub
        | .abort => .abort
        | .diverge => .diverge

/-- The `mbtowc` function with the loop body `item`. -/
def sdecode (item : Nat → M SItem) (is : IState) (s : List Byte) : Outcome (MbRet × IState) :=
  match sloop item (2 * s.length + 2) is.st s with
  | .ok (r, st) => .ok (r, { is with st := st })
  | .ub => .ub
  | .abort => .abort
  | .diverge => .diverge

/-- What an item may be when `j` bytes are known to be there. -/
def ItemOK (I : Nat → Prop) (pend : Nat → Bool) (st : Nat) (j : Nat) : SItem → Prop
  | .char _ n st' => I st' ∧ n ≤ j ∧ (n = 0 → pend st = true ∧ pend st' = false)
  | .shift n st' => I st' ∧ n ≤ j ∧ (n = 0 → pend st = true ∧ pend st' = false)
  | .ilseq => 1 ≤ j

/-- The items of a stateful decoder. -/
def satom (item : Nat → M SItem) (is : IState) (s : List Byte) : Atom :=
  match (item is.st).run s with
  | .ok (some (.char wc n st)) => .char wc n { is with st := st }
  | .ok (some (.shift n st)) => .shift n { is with st := st }
  | .ok (some .ilseq) => .ilseq
  | _ => .more

/-- A decoder given by loop bodies without undefined behaviour. -/
structure StDec (D : Decoder) where
  item : Nat → M SItem
  I : Nat → Prop
  pend : Nat → Bool
  eq : D.mbtowc = sdecode item
  init : I 0
  good : ∀ st, I st → M.Good (ItemOK I pend st) 1 (item st)
  flush_ok : ∀ f, D.flushwc = some f → ∀ is, I is.st →
    I (f is).2.st ∧ (f is).2.bo = is.bo ∧ (f (f is).2).1 = none ∧ ∀ wc, (f is).1 = some wc → wc < 0x110000

theorem one_le_length {s : List Byte} (h : s ≠ []) : 1 ≤ s.length := by
  cases s with
  | nil => exact absurd rfl h
  | cons _ _ => simp

namespace StDec

variable {D : Decoder} (d : StDec D)

theorem run (d : StDec D) {st : Nat} {s : List Byte} (hI : d.I st) (hs : s ≠ []) :
    ∃ o, (d.item st).run s = .ok o ∧ ∀ a, o = some a → ItemOK d.I d.pend st s.length a := by
  obtain ⟨o, h1, h2⟩ := M.good_run (d.item st) 1 s (d.good st hI) (one_le_length hs)
  refine ⟨o, h1, fun a ha => ?_⟩
  obtain ⟨j, _, hj, hp⟩ := h2 a ha
  cases a with
  | char wc n st' => exact ⟨hp.1, Nat.le_trans hp.2.1 hj, hp.2.2⟩
  | shift n st' => exact ⟨hp.1, Nat.le_trans hp.2.1 hj, hp.2.2⟩
  | ilseq => exact Nat.le_trans hp hj

theorem batch (d : StDec D) : ∀ (fuel : Nat) (is : IState) (s : List Byte), d.I is.st → s ≠ [] →
    2 * s.length + (if d.pend is.st then 1 else 0) < fuel →
    ∃ r st', sloop d.item fuel is.st s = .ok (r, st') ∧
      Batch (satom d.item) is s r { is with st := st' } := by
  intro fuel
  induction fuel with
  | zero => intro is s _ _ h; omega
  | succ fuel ih =>
    intro is s hI hs hf
    obtain ⟨o, h1, h2⟩ := d.run hI hs
    unfold sloop
    rw [h1]
    cases o with
    | none => exact ⟨_, _, rfl, .more (by unfold satom; rw [h1])⟩
    | some a =>
      have hp := h2 a rfl
      cases a with
      | char wc n st' => exact ⟨_, _, rfl, .char (by unfold satom; rw [h1])⟩
      | ilseq => exact ⟨_, _, rfl, .ilseq (by unfold satom; rw [h1])⟩
      | shift n st' =>
        have ha : satom d.item is s = .shift n { is with st := st' } := by unfold satom; rw [h1]
        obtain ⟨hI', hn, h0⟩ := hp
        simp only
        have hl := one_le_length hs
        by_cases hd : s.drop n = []
        · rw [if_pos hd]
          refine ⟨_, _, rfl, .pause ?_ ha⟩
          rcases Nat.eq_zero_or_pos n with rfl | h
          · exact absurd hd hs
          · exact h
        · rw [if_neg hd]
          obtain ⟨r, st'', h3, h4⟩ := ih { is with st := st' } (s.drop n) hI' hd (by
            rw [List.length_drop]
            rcases Nat.eq_zero_or_pos n with rfl | h
            · obtain ⟨h5, h6⟩ := h0 rfl
              rw [if_pos h5] at hf
              simp only [h6]
              simp only [Bool.false_eq_true, if_false]
              omega
            · have h5 : (if d.pend st' = true then 1 else 0) ≤ 1 := by split <;> omega
              simp only
              omega)
          simp only at h3
          rw [h3]
          exact ⟨_, _, rfl, .shift ha hd h4⟩

/-- Proof that `D` satisfies the contract `DecOK`. -/
def toOK : DecOK D 1 where
  Inv := fun is => is.bo = 0 ∧ d.I is.st
  atom := satom d.item
  pend := d.pend
  unit_pos := Nat.le_refl 1
  inv_init := ⟨rfl, d.init⟩
  inv_clear := fun is h => ⟨h.1, d.init⟩
  char_ok := by
    intro is s wc n is' hI hs ha
    obtain ⟨o, h1, h2⟩ := d.run hI.2 hs
    unfold satom at ha
    rw [h1] at ha
    cases o with
    | none => cases ha
    | some a =>
      have hp := h2 a rfl
      cases a with
      | char wc n st' => cases ha; exact ⟨⟨hI.1, hp.1⟩, hp.2⟩
      | shift n st' => cases ha
      | ilseq => cases ha
  shift_ok := by
    intro is s n is' hI hs ha
    obtain ⟨o, h1, h2⟩ := d.run hI.2 hs
    unfold satom at ha
    rw [h1] at ha
    cases o with
    | none => cases ha
    | some a =>
      have hp := h2 a rfl
      cases a with
      | char wc n st' => cases ha
      | shift n st' => cases ha; exact ⟨⟨hI.1, hp.1⟩, hp.2⟩
      | ilseq => cases ha
  ilseq_ok := fun is s _ hs _ => one_le_length hs
  ext := by
    intro is s t hI hs ha
    obtain ⟨o, h1, _⟩ := d.run hI.2 hs
    cases o with
    | none => exact absurd (by unfold satom; rw [h1]) ha
    | some a => unfold satom; rw [h1, M.run_ext _ s t a h1]
  batch := by
    intro is s hI hs
    obtain ⟨r, st', h1, h2⟩ := d.batch (2 * s.length + 2) is s hI.2 hs (by split <;> omega)
    exact ⟨r, { is with st := st' }, by rw [d.eq]; unfold sdecode; rw [h1], h2⟩
  retry := by
    intro is s wc n is' hI hs hm
    have hbo : is'.bo = is.bo := by
      rw [d.eq] at hm
      unfold sdecode at hm
      split at hm <;> cases hm
      rfl
    have : { is' with st := is.st } = is := by
      rw [hbo]
    rw [this]
    exact ⟨hI, hm⟩
  flush_ok := by
    intro f hf is hI
    obtain ⟨h1, h2, h3⟩ := d.flush_ok f hf is hI.2
    exact ⟨⟨h2.trans hI.1, h1⟩, h2, h3⟩

end StDec

/-! ## Encoders -/

/-- An encoder that keeps a state. `enc os wc` are the bytes for `wc` in state `os` and the next state;
`need os wc` is the room that is checked for; `junk os wc n` are the bytes stored before an error is returned. -/
structure StEnc (E : Encoder) where
  I : Nat → Prop
  init : I 0
  enc : Nat → Nat → Option (List Byte × Nat)
  need : Nat → Nat → Nat
  junk : Nat → Nat → Nat → List Byte
  eq : ∀ os wc n, I os → E.wctomb os wc n =
    .ok (if need os wc ≤ n then
      (match enc os wc with
        | some (bs, os') => .put bs os'
        | none => ⟨.iluni, junk os wc n, os⟩)
      else ⟨.toosmall, junk os wc n, os⟩)
  need_le : ∀ os wc, I os → need os wc ≤ 64
  len : ∀ os wc bs os', I os → enc os wc = some (bs, os') →
    I os' ∧ bs.length ≤ max (need os wc) 1 ∧ need os wc ≤ bs.length
  junk_len : ∀ os wc n, I os → 1 ≤ n ∨ wc < 0x110000 ∧ enc os wc = none → (junk os wc n).length ≤ n
  /-- What is reported for a character that has no encoding does not depend on the room. -/
  junk_mono : ∀ os wc n m, I os → need os wc ≤ n → n ≤ m → enc os wc = none → junk os wc n = junk os wc m
  /-- The bytes of the reset function. -/
  rtail : Nat → List Byte
  rtail_len : ∀ os, I os → (rtail os).length ≤ 64
  reset : ∀ f, E.reset = some f → ∀ os n, I os → f os n =
    .ok (if (rtail os).length ≤ n then .put (rtail os) os else .small os)
  live : ∀ os wc bs os', I os → enc os wc = some (bs, os') →
    bs ≠ [] ∨ (E.reset ≠ none ∧ rtail os' ≠ []) ∨ isTag wc = true ∧ bs = [] ∧ need os wc = 0

namespace StEnc

variable {E : Encoder}

theorem full_eq (e : StEnc E) {os : Nat} (hI : e.I os) (wc : Nat) : E.full os wc = e.enc os wc := by
  unfold Encoder.full
  rw [e.eq os wc 64 hI, if_pos (e.need_le os wc hI)]
  cases e.enc os wc <;> rfl

theorem tail_eq (e : StEnc E) {os : Nat} (hI : e.I os) (hr : E.reset ≠ none) : E.tail os = e.rtail os := by
  unfold Encoder.tail
  cases h : E.reset with
  | none => exact absurd h hr
  | some f =>
    simp only
    rw [e.reset f h os 64 hI, if_pos (e.rtail_len os hI)]
    rfl

def toOK (e : StEnc E) : EncOK E where
  Inv := e.I
  inv_init := e.init
  minRoom := 1
  minRoom_le := Nat.le_refl 1
  safe := by
    intro os wc n hO hn
    refine ⟨_, e.eq os wc n hO, ?_⟩
    split
    · next hneed =>
      cases he : e.enc os wc with
      | some x =>
        obtain ⟨bs, os'⟩ := x
        obtain ⟨h1, h2, _⟩ := e.len os wc bs os' hO he
        refine ⟨by simp only [WcRes.put]; omega, ?_, ?_⟩
        · rintro k ⟨⟩; exact ⟨rfl, h1⟩
        · rintro (h | h) <;> cases h
      | none =>
        refine ⟨e.junk_len os wc n hO (.inl hn), ?_, ?_⟩
        · rintro k ⟨⟩
        · intro _; rfl
    · refine ⟨e.junk_len os wc n hO (.inl hn), ?_, ?_⟩
      · rintro k ⟨⟩
      · intro _; rfl
  any := by
    intro os wc n r hO hr _
    rw [e.eq os wc n hO] at hr
    cases hr
    split
    · cases he : e.enc os wc with
      | some x =>
        obtain ⟨bs, os'⟩ := x
        exact ⟨by rintro k ⟨⟩; exact ⟨rfl, (e.len os wc bs os' hO he).1⟩, by rintro (h | h) <;> cases h⟩
      | none => exact ⟨by rintro k ⟨⟩, fun _ => rfl⟩
    · exact ⟨by rintro k ⟨⟩, fun _ => rfl⟩
  dry := by
    intro os wc n hO hw hf
    rw [e.full_eq hO] at hf
    refine ⟨_, e.eq os wc n hO, ?_⟩
    rw [hf]
    split
    · exact ⟨e.junk_len os wc n hO (.inr ⟨hw, hf⟩), .inl rfl, rfl⟩
    · exact ⟨e.junk_len os wc n hO (.inr ⟨hw, hf⟩), .inr rfl, rfl⟩
  mono := by
    intro os wc n m r hO hr hl hs hm
    rw [e.eq os wc n hO] at hr
    rw [e.eq os wc m hO]
    split at hr
    · next hneed =>
      rw [if_pos (by omega)]
      cases he : e.enc os wc with
      | some x => rw [he] at hr; exact hr
      | none =>
        rw [he] at hr
        simp only at hr ⊢
        rw [← e.junk_mono os wc n m hO hneed hm he]; exact hr
    · cases hr; exact absurd rfl hs
  big := by
    intro os wc n r hO hn hr
    rw [e.eq os wc n hO, if_pos (by have := e.need_le os wc hO; omega)] at hr
    cases hr
    cases e.enc os wc <;> simp [WcRes.put]
  reset_safe := by
    intro f hf os n hO
    refine ⟨_, e.reset f hf os n hO, ?_⟩
    split
    · next h => exact ⟨h, .inl rfl⟩
    · exact ⟨by simp [WcRes.small], .inr ⟨rfl, rfl⟩⟩
  reset_mono := by
    intro f hf os n m r hO hr hs hm
    rw [e.reset f hf os n hO] at hr
    rw [e.reset f hf os m hO]
    split at hr
    · rw [if_pos (by omega)]; exact hr
    · cases hr; exact absurd rfl hs
  reset_big := by
    intro f hf os n r hO hn hr
    rw [e.reset f hf os n hO, if_pos (by have := e.rtail_len os hO; omega)] at hr
    cases hr
    simp [WcRes.put]

theorem tight (e : StEnc E) : EncTight E e.toOK where
  tight := by
    intro os wc n r bs os' hO hr hs hl hf
    rw [e.eq os wc n hO] at hr
    rw [e.full_eq hO] at hf
    split at hr
    · rw [hf] at hr; cases hr; cases hs
    · next hneed => have := (e.len os wc _ _ hO hf).2.2; omega
  live := by
    intro os wc bs os' hO hf
    rw [e.full_eq hO] at hf
    rcases e.live os wc bs os' hO hf with h | ⟨h1, h2⟩ | ⟨h1, rfl, h3⟩
    · exact .inl h
    · exact .inr (.inl (by rw [e.tail_eq (e.len os wc bs os' hO hf).1 h1]; exact h2))
    · refine .inr (.inr ⟨h1, rfl, fun n => ?_⟩)
      rw [e.eq os wc n hO, if_pos (by omega), hf]
  reset_tight := by
    intro f os n r hf hO hr hs
    rw [e.reset f hf os n hO] at hr
    rw [e.tail_eq hO (by rw [hf]; simp)]
    split at hr
    · cases hr; cases hs
    · omega

end StEnc

/-- An encoder program with a state. `room k w`: `if (n < k) return RET_TOOSMALL;`; `put bs st`: store `bs`,
set `conv->ostate = st`, return the number of bytes. -/
inductive SW where
  | room (k : Nat) (w : SW)
  | put (bs : List Nat) (st : Nat)
  | iluni
  | ub
  | abort

namespace SW

def run : SW → Nat → Nat → Outcome WcRes
  | room k w, os, n => if k ≤ n then w.run os n else .ok (.small os)
  | put bs st, _, _ => .ok (.put (bs.map u8) st)
  | iluni, os, _ => .ok (.iluni os)
  | ub, _, _ => .ub
  | abort, _, _ => .abort

/-- `ret = f(conv, buf, wc, n)` with a local buffer of `n` bytes, then `k ret buf`. -/
def on (w : W) (n : Nat) (k : Int → List Nat → SW) : SW :=
  match w.run 0 n with
  | .ok r => if r.ws.length ≤ n then k r.ret.code (r.ws.map (·.toNat)) else ub
  | .ub => ub
  | .abort => abort
  | .diverge => ub

def need : SW → Nat
  | room k w => max k w.need
  | _ => 0

def res : SW → Option (List Byte × Nat)
  | room _ w => w.res
  | put bs st => some (bs.map u8, st)
  | _ => none

/-- No undefined behaviour and no abort; the room asked for (`k` so far) is the number of bytes stored. -/
def Good (I : Nat → Prop) : Nat → SW → Prop
  | k, room j w => Good I (max k j) w
  | k, put bs st => I st ∧ bs ≠ [] ∧ bs.length = k ∧ k ≤ 64
  | k, iluni => k ≤ 64
  | _, ub => False
  | _, abort => False

theorem good_eq {I : Nat → Prop} : ∀ (w : SW) (k os n : Nat), Good I k w → w.run os n =
    .ok (if w.need ≤ n then
      (match w.res with
        | some (bs, st) => .put bs st
        | none => .iluni os)
      else .small os) := by
  intro w
  induction w with
  | room j w ih =>
    intro k os n h
    have e1 : (room j w).need = max j w.need := rfl
    have e2 : (room j w).res = w.res := rfl
    rw [e2]
    simp only [run]
    by_cases hj : j ≤ n
    · rw [if_pos hj, ih _ os n h]
      by_cases hn : w.need ≤ n
      · rw [if_pos hn, if_pos (show (room j w).need ≤ n by omega)]
      · rw [if_neg hn, if_neg (show ¬ (room j w).need ≤ n by omega)]
    · rw [if_neg hj, if_neg (show ¬ (room j w).need ≤ n by omega)]
  | put bs st => intro k os n h; simp [run, need, res]
  | iluni => intro k os n h; simp [run, need, res]
  | ub => intro k os n h; exact h.elim
  | abort => intro k os n h; exact h.elim

theorem good_need {I : Nat → Prop} : ∀ (w : SW) (k : Nat), Good I k w → max k w.need ≤ 64 := by
  intro w
  induction w with
  | room j w ih =>
    intro k h
    have := ih (max k j) h
    simp only [need]; omega
  | put bs st => intro k h; simp only [need]; have := h.2.2.2; omega
  | iluni => intro k h; simp only [need]; have : k ≤ 64 := h; omega
  | ub => intro k h; exact h.elim
  | abort => intro k h; exact h.elim

theorem good_res {I : Nat → Prop} : ∀ (w : SW) (k : Nat) (bs : List Byte) (st : Nat), Good I k w →
    w.res = some (bs, st) → I st ∧ bs ≠ [] ∧ bs.length = max k w.need := by
  intro w
  induction w with
  | room j w ih =>
    intro k bs st h hr
    obtain ⟨h1, h2, h3⟩ := ih (max k j) bs st h hr
    exact ⟨h1, h2, by simp only [need]; omega⟩
  | put b s =>
    intro k bs st h hr
    simp only [res, Option.some.injEq, Prod.mk.injEq] at hr
    obtain ⟨rfl, rfl⟩ := hr
    obtain ⟨h1, h2, h3, _⟩ := h
    exact ⟨h1, by simpa using h2, by simp only [need, List.length_map]; omega⟩
  | iluni => intro k bs st h hr; cases hr
  | ub => intro k bs st h; exact h.elim
  | abort => intro k bs st h; exact h.elim

theorem good_room {I : Nat → Prop} {k j : Nat} {w : SW} (h : Good I (max k j) w) : Good I k (.room j w) := h

theorem good_put {I : Nat → Prop} {k : Nat} {bs : List Nat} {st : Nat} (h : I st) (h1 : bs ≠ [])
    (h2 : bs.length = k) (h3 : k ≤ 64) : Good I k (.put bs st) := ⟨h, h1, h2, h3⟩

theorem good_iluni {I : Nat → Prop} {k : Nat} (h : k ≤ 64) : Good I k .iluni := h

theorem good_ite {I : Nat → Prop} {k : Nat} {c : Prop} [Decidable c] {a b : SW}
    (h1 : c → Good I k a) (h2 : ¬ c → Good I k b) : Good I k (if c then a else b) := by
  by_cases h : c
  · rw [if_pos h]; exact h1 h
  · rw [if_neg h]; exact h2 h

theorem good_on2 {I : Nat → Prop} {w : W} {j : Nat} {k : Int → List Nat → SW} (h : W.Two w)
    (h1 : Good I j (k (-1) [])) (h2 : ∀ a b, a < 256 → b < 256 → Good I j (k 2 [a, b])) :
    Good I j (on w 2 k) := by
  unfold on
  rcases h with h | ⟨a, b, h⟩
  · rw [h]; exact h1
  · rw [h]; exact h2 a.toNat b.toNat (UInt8.toNat_lt _) (UInt8.toNat_lt _)

theorem good_on1 {I : Nat → Prop} {w : W} {j : Nat} {k : Int → List Nat → SW} (h : W.One w)
    (h1 : Good I j (k (-1) [])) (h2 : ∀ a, a < 256 → Good I j (k 1 [a])) :
    Good I j (on w 1 k) := by
  unfold on
  rcases h with h | ⟨a, h⟩
  · rw [h]; exact h1
  · rw [h]; exact h2 a.toNat (UInt8.toNat_lt _)

end SW

/-- The encoder with the programs `w os wc` as its `wctomb` function and a reset function that writes
`rt os` if there is room. -/
def sencoder (w : Nat → Nat → SW) (rt : Nat → List Nat) : Encoder where
  wctomb := fun os wc n => (w os wc).run os n
  reset := some fun os n =>
    if n < (rt os).length then .ok (.small os) else .ok (.put ((rt os).map u8) os)

def SW.toSt {w : Nat → Nat → SW} {rt : Nat → List Nat} {I : Nat → Prop} (h0 : I 0)
    (h : ∀ os wc, I os → SW.Good I 0 (w os wc)) (hr : ∀ os, I os → (rt os).length ≤ 64) : StEnc (sencoder w rt) where
  I := I
  init := h0
  enc := fun os wc => (w os wc).res
  need := fun os wc => (w os wc).need
  junk := fun _ _ _ => []
  eq := by
    intro os wc n hI
    show (w os wc).run os n = _
    rw [SW.good_eq (w os wc) 0 os n (h os wc hI)]
    cases (w os wc).res <;> rfl
  need_le := fun os wc hI => by have := SW.good_need _ 0 (h os wc hI); omega
  len := fun os wc bs os' hI he => by
    obtain ⟨h1, h2, h3⟩ := SW.good_res _ 0 bs os' (h os wc hI) he
    exact ⟨h1, by omega, by omega⟩
  junk_len := fun _ _ _ _ _ => Nat.zero_le _
  junk_mono := fun _ _ _ _ _ _ _ _ => rfl
  rtail := fun os => (rt os).map u8
  rtail_len := fun os hI => by rw [List.length_map]; exact hr os hI
  reset := by
    intro f hf os n hI
    cases hf
    simp only [List.length_map]
    by_cases hn : n < (rt os).length
    · rw [if_pos hn, if_neg (by omega)]
    · rw [if_neg hn, if_pos (by omega)]
  live := fun os wc bs os' hI he => .inl (SW.good_res _ 0 bs os' (h os wc hI) he).2.1

/-- Entry for an encoding with shift states. -/
def stEntry (idx : Nat) (hu : unitOf idx = 1) {D : Decoder} {E : Encoder} (d : StDec D) (e : StEnc E) : Entry where
  idx := idx
  unit := 1
  unit_eq := hu
  dec := D
  enc := E
  decOK := d.toOK
  encOK := e.toOK
  tight := e.tight

/-! ## Common parts -/

/-- A call of an `mbtowc` function of a character set on one byte, followed by
`if (ret == RET_ILSEQ) goto ilseq; if (ret != 1) abort();`. -/
def sOne (m : M MbRet) (b : Nat) (k : Nat → M SItem) : M SItem :=
  m.on [b] fun ret =>
    if ret.code = RET_ILSEQ then .ret .ilseq
    else if ret.code ≠ 1 then .abort
    else k ret.wc

/-- The same for two bytes. -/
def sTwo (m : M MbRet) (b1 b2 : Nat) (k : Nat → M SItem) : M SItem :=
  m.on [b1, b2] fun ret =>
    if ret.code = RET_ILSEQ then .ret .ilseq
    else if ret.code ≠ 2 then .abort
    else k ret.wc

/-- `if (n < count+2) goto none; if (s[0] < 0x80 && s[1] < 0x80) { … } else goto ilseq;` with a call of the
function of a two-byte character set. -/
def sPair (m : M MbRet) (st : Nat) : M SItem :=
  .need 2 <| .byte 0 fun c1 => .byte 1 fun c2 =>
    if c1 < 0x80 ∧ c2 < 0x80 then sTwo m c1 c2 fun wc => .ret (.char wc 2 st)
    else .ret .ilseq

theorem good_sOne {P : Nat → SItem → Prop} {m : M MbRet} {b k : Nat} {f : Nat → M SItem} (h : M.One m)
    (h1 : P k .ilseq) (h2 : ∀ wc, M.Good P k (f wc)) : M.Good P k (sOne m b f) := by
  unfold sOne
  refine M.good_on1 h ?_ ?_
  · rw [if_pos (show (MbRet.ilseq 0).code = RET_ILSEQ from rfl)]; exact h1
  · intro wc; rw [if_neg code_char_pos, if_neg code_char_one]; exact h2 wc

theorem good_sTwo {P : Nat → SItem → Prop} {m : M MbRet} {b1 b2 k : Nat} {f : Nat → M SItem} (h : M.Two m)
    (h1 : P k .ilseq) (h2 : ∀ wc, M.Good P k (f wc)) : M.Good P k (sTwo m b1 b2 f) := by
  unfold sTwo
  refine M.good_on2 h ?_ ?_
  · rw [if_pos (show (MbRet.ilseq 0).code = RET_ILSEQ from rfl)]; exact h1
  · intro wc; rw [if_neg code_char_pos, if_neg code_char_two]; exact h2 wc

theorem good_sPair {I : Nat → Prop} {pend : Nat → Bool} {m : M MbRet} {k st st' : Nat} (h : M.Two m) (hI : I st') :
    M.Good (ItemOK I pend st) k (sPair m st') := by
  unfold sPair
  refine M.good_need (M.good_byte (by omega) fun c1 _ => M.good_byte (by omega) fun c2 _ => M.good_ite ?_ ?_)
  · intro _
    refine good_sTwo h ?_ ?_
    · show 1 ≤ max k 2; omega
    · intro wc; exact ⟨hI, by show 2 ≤ max k 2; omega, by omega⟩
  · intro _; show 1 ≤ max k 2; omega

theorem ascii_one : M.One ascii_m := by
  intro a
  by_cases h : a.toNat < 0x80
  · exact .inr ⟨a.toNat, by simp [ascii_m, M.run, h]⟩
  · exact .inl (by simp [ascii_m, M.run, h])

theorem ascii_wOne (wc : Nat) : W.One (ascii_w wc) := by
  unfold ascii_w
  by_cases h : wc < 0x0080
  · rw [if_pos h]; exact .inr ⟨u8 wc, rfl⟩
  · rw [if_neg h]; exact .inl rfl

/-- A call `ret = f(conv, buf, wc, 1)`: if it succeeds and `buf[0]` satisfies the test `P` then `found buf[0]`,
otherwise `rest`: `if (ret != RET_ILUNI) { if (ret != 1) abort(); if (P) { … return; } }`. -/
def SW.try1 (w : W) (P : Nat → Prop) [DecidablePred P] (found : Nat → SW) (rest : SW) : SW :=
  SW.on w 1 fun ret buf =>
    if ret ≠ RET_ILUNI then
      if ret ≠ 1 then .abort
      else if P (bufAt buf 0) then found (bufAt buf 0)
      else rest
    else rest

/-- The same for a two-byte character set with the test `buf[0] < 0x80 && buf[1] < 0x80`. -/
def SW.try2 (w : W) (found : Nat → Nat → SW) (rest : SW) : SW :=
  SW.on w 2 fun ret buf =>
    if ret ≠ RET_ILUNI then
      if ret ≠ 2 then .abort
      else if bufAt buf 0 < 0x80 ∧ bufAt buf 1 < 0x80 then found (bufAt buf 0) (bufAt buf 1)
      else rest
    else rest

theorem SW.good_try1 {I : Nat → Prop} {k : Nat} {w : W} {P : Nat → Prop} [DecidablePred P] {found : Nat → SW}
    {rest : SW} (h : W.One w) (h1 : ∀ a, a < 256 → P a → SW.Good I k (found a)) (h2 : SW.Good I k rest) :
    SW.Good I k (SW.try1 w P found rest) := by
  unfold SW.try1
  refine SW.good_on1 h ?_ ?_
  · rw [if_neg (by decide)]; exact h2
  · intro a ha
    rw [if_pos (by decide), if_neg (by decide)]
    exact SW.good_ite (fun hp => h1 a ha hp) (fun _ => h2)

theorem SW.good_try2 {I : Nat → Prop} {k : Nat} {w : W} {found : Nat → Nat → SW}
    {rest : SW} (h : W.Two w) (h1 : ∀ a b, a < 0x80 → b < 0x80 → SW.Good I k (found a b)) (h2 : SW.Good I k rest) :
    SW.Good I k (SW.try2 w found rest) := by
  unfold SW.try2
  refine SW.good_on2 h ?_ ?_
  · rw [if_neg (by decide)]; exact h2
  · intro a b ha hb
    rw [if_pos (by decide), if_neg (by decide)]
    exact SW.good_ite (fun hp => h1 a b hp.1 hp.2) (fun _ => h2)

/-- What `try1` gives: the byte of the character set or the alternative. -/
theorem SW.try1_cases {w : W} (h : W.One w) (P : Nat → Prop) [DecidablePred P] (found : Nat → SW) (rest : SW) :
    (∃ a : Byte, w.run 0 1 = .ok (.put [a] 0) ∧ P a.toNat ∧ SW.try1 w P found rest = found a.toNat) ∨
      SW.try1 w P found rest = rest := by
  unfold SW.try1 SW.on
  rcases h with h | ⟨a, h⟩
  · rw [h]
    exact .inr rfl
  · rw [h]
    have e : (if (WcRes.put [a] 0).ws.length ≤ 1 then
        (fun (ret : Int) (buf : List Nat) =>
          if ret ≠ RET_ILUNI then
            if ret ≠ 1 then SW.abort
            else if P (bufAt buf 0) then found (bufAt buf 0)
            else rest
          else rest) (WcRes.put [a] 0).ret.code ((WcRes.put [a] 0).ws.map (·.toNat)) else .ub) =
        if P a.toNat then found a.toNat else rest := rfl
    by_cases hp : P a.toNat
    · exact .inl ⟨a, rfl, hp, by rw [if_pos hp] at e; exact e⟩
    · exact .inr (by rw [if_neg hp] at e; exact e)

theorem SW.try2_cases {w : W} (h : W.Two w) (found : Nat → Nat → SW) (rest : SW) :
    (∃ a b : Byte, w.run 0 2 = .ok (.put [a, b] 0) ∧ a.toNat < 0x80 ∧ b.toNat < 0x80 ∧
        SW.try2 w found rest = found a.toNat b.toNat) ∨ SW.try2 w found rest = rest := by
  unfold SW.try2 SW.on
  rcases h with h | ⟨a, b, h⟩
  · rw [h]
    exact .inr rfl
  · rw [h]
    have e : (if (WcRes.put [a, b] 0).ws.length ≤ 2 then
        (fun (ret : Int) (buf : List Nat) =>
          if ret ≠ RET_ILUNI then
            if ret ≠ 2 then SW.abort
            else if bufAt buf 0 < 0x80 ∧ bufAt buf 1 < 0x80 then found (bufAt buf 0) (bufAt buf 1)
            else rest
          else rest) (WcRes.put [a, b] 0).ret.code ((WcRes.put [a, b] 0).ws.map (·.toNat)) else .ub) =
        if a.toNat < 0x80 ∧ b.toNat < 0x80 then found a.toNat b.toNat else rest := rfl
    by_cases hp : a.toNat < 0x80 ∧ b.toNat < 0x80
    · exact .inl ⟨a, b, rfl, hp.1, hp.2, by rw [if_pos hp] at e; exact e⟩
    · exact .inr (by rw [if_neg hp] at e; exact e)

/-- Take the loop body of a decoder apart. -/
macro "sgood" : tactic => `(tactic| set_option maxRecDepth 2000 in repeat' (with_reducible first
  | assumption
  | refine M.good_ret ?_
  | refine M.good_byte ?_ ?_
  | refine M.good_need ?_
  | refine M.good_ite ?_ ?_
  | (refine good_sPair (by assumption) ?_)
  | (refine good_sTwo (by assumption) ?_ ?_)
  | (refine good_sOne (by assumption) ?_ ?_)
  | intro _
  | omega
  | dsimp only))

/-- Take an encoder program apart. -/
macro "swgood" : tactic => `(tactic| set_option maxRecDepth 2000 in repeat' (with_reducible first
  | assumption
  | exact absurd ‹(-1 : Int) ≠ RET_ILUNI› (by decide)
  | exact absurd ‹¬ (2 : Int) ≠ RET_ILUNI› (by decide)
  | exact absurd ‹¬ (1 : Int) ≠ RET_ILUNI› (by decide)
  | exact absurd ‹(2 : Int) ≠ 2› (by decide)
  | exact absurd ‹(1 : Int) ≠ 1› (by decide)
  | refine SW.good_room ?_
  | refine SW.good_iluni ?_
  | refine SW.good_ite ?_ ?_
  | (refine SW.good_try1 (by apply_assumption) ?_ ?_)
  | (refine SW.good_try2 (by apply_assumption) ?_ ?_)
  | (refine SW.good_on2 (by apply_assumption) ?_ ?_)
  | (refine SW.good_on1 (by apply_assumption) ?_ ?_)
  | intro _
  | omega
  | dsimp only))

end Reiconv
