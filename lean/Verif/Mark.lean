import Verif.Simple

/-!
# Decoders that accept byte order marks

`ucs2_mbtowc`, `ucs4_mbtowc`, `utf16_mbtowc` and `utf32_mbtowc` share one loop: read a unit in the
current byte order, skip byte order marks, stop at a character or an error.
-/

namespace Reiconv

/-- What the body of the loop finds at the read position. -/
inductive MarkItem where
  /-- U+FEFF in the current byte order: skip it. -/
  | keep
  /-- U+FEFF in the other byte order: skip it and change the byte order. -/
  | flip
  | char (wc n : Nat)
  | ilseq
  /-- `break`: an incomplete character. -/
  | brk
  deriving Repr, DecidableEq

/-- The loop of `ucs2_mbtowc` (`lib/converters/ucs2.h:37-65`), `ucs4_mbtowc` (`ucs4.h:37-66`),
`utf16_mbtowc` (`utf16.h:43-88`) and `utf32_mbtowc` (`utf32.h:43-75`); `unit` is 2, 4, 2, 4. The
result is the return value and the final `state`. -/
def markLoop (unit : Nat) (item : Nat → List Byte → Outcome MarkItem) :
    Nat → Nat → List Byte → Nat → Outcome (MbRet × Nat)
  | 0, _, _, _ => .diverge
  | fuel + 1, state, s, count =>
    if unit ≤ s.length ∧ count ≤ RET_COUNT_MAX ∧ count ≤ INT_MAX - unit then do
      match ← item state s with
      | .keep => markLoop unit item fuel state (s.drop unit) (count + unit)
      | .flip => markLoop unit item fuel (state ^^^ 1) (s.drop unit) (count + unit)
      | .char wc n => .ok (.char wc (count + n), state)
      | .ilseq => .ok (.ilseq count, state)
      | .brk => .ok (.toofew count, state)
    else .ok (.toofew count, state)

/-- A decoder made of `markLoop`: `conv->ibyteorder` is read at the start and written at the end. -/
def markDecoder (unit : Nat) (item : Nat → List Byte → Outcome MarkItem) : Decoder where
  mbtowc := fun is s => do
    let (r, state) ← markLoop unit item (s.length + 1) is.bo s 0
    return (r, { is with bo := state })
  flushwc := none

/-- What a loop body has to satisfy. -/
structure MarkOK (unit : Nat) (item : Nat → List Byte → Outcome MarkItem) where
  kind : Nat → List Byte → MarkItem
  unit_pos : 1 ≤ unit
  unit_le : unit ≤ 4
  eq : ∀ st s, unit ≤ s.length → item st s = .ok (kind st s)
  char_ok : ∀ st s wc n, unit ≤ s.length → kind st s = .char wc n → 1 ≤ n ∧ n ≤ s.length
  ext : ∀ st s t, unit ≤ s.length → kind st s ≠ .brk → kind st (s ++ t) = kind st s
  swap : ∀ st s, st ≤ 1 → unit ≤ s.length → (kind st s = .keep ↔ kind (st ^^^ 1) s = .flip)

/-- The items of a decoder with byte order marks. -/
def markAtom (unit : Nat) (kind : Nat → List Byte → MarkItem) (is : IState) (s : List Byte) : Atom :=
  if s.length < unit then .more
  else
    match kind is.bo s with
    | .keep => .shift unit is
    | .flip => .shift unit { is with bo := is.bo ^^^ 1 }
    | .char wc n => .char wc n is
    | .ilseq => .ilseq
    | .brk => .more

theorem xor_one_le {a : Nat} (h : a ≤ 1) : a ^^^ 1 ≤ 1 := by
  have : a = 0 ∨ a = 1 := by omega
  rcases this with rfl | rfl <;> decide

theorem xor_one_xor_one {a : Nat} (h : a ≤ 1) : a ^^^ 1 ^^^ 1 = a := by
  have : a = 0 ∨ a = 1 := by omega
  rcases this with rfl | rfl <;> decide

theorem xor_one_ne {a : Nat} (h : a ≤ 1) {b : Nat} (hb : b ≤ 1) (hne : b ≠ a) : b = a ^^^ 1 := by
  have : a = 0 ∨ a = 1 := by omega
  have : b = 0 ∨ b = 1 := by omega
  rcases this with rfl | rfl <;> rcases ‹a = 0 ∨ a = 1› with rfl | rfl <;> simp_all

namespace MarkOK

variable {unit : Nat} {item : Nat → List Byte → Outcome MarkItem}

theorem loop (h : MarkOK unit item) (stt : Nat) :
    ∀ fuel st s count, s.length < fuel → st ≤ 1 →
    ∃ r st', markLoop unit item fuel st s count = .ok (r.addCount count, st') ∧ st' ≤ 1 ∧
      ((r = .toofew 0 ∧ st' = st ∧ (s = [] ∨ 0 < count)) ∨
       (s ≠ [] ∧ Batch (markAtom unit h.kind) ⟨st, stt⟩ s r ⟨st', stt⟩)) := by
  intro fuel
  induction fuel with
  | zero => intro st s count hl; omega
  | succ fuel ih =>
    intro st s count hl hst
    have hu := h.unit_pos
    unfold markLoop
    by_cases hlen : unit ≤ s.length
    · have hne : s ≠ [] := by rintro rfl; simp at hlen; omega
      have hatom : markAtom unit h.kind ⟨st, stt⟩ s = match h.kind st s with
          | .keep => .shift unit ⟨st, stt⟩
          | .flip => .shift unit ⟨st ^^^ 1, stt⟩
          | .char wc n => .char wc n ⟨st, stt⟩
          | .ilseq => .ilseq
          | .brk => .more := by
        unfold markAtom; rw [if_neg (by omega)]
      by_cases hg : count ≤ RET_COUNT_MAX ∧ count ≤ INT_MAX - unit
      · rw [if_pos ⟨hlen, hg⟩, h.eq st s hlen]
        simp only [Outcome.bind_ok]
        cases hk : h.kind st s with
        | char wc n =>
          exact ⟨.char wc n, st, rfl, hst, Or.inr ⟨hne, .char (by rw [hatom, hk])⟩⟩
        | ilseq => exact ⟨.ilseq 0, st, rfl, hst, Or.inr ⟨hne, .ilseq (by rw [hatom, hk])⟩⟩
        | brk => exact ⟨.toofew 0, st, rfl, hst, Or.inr ⟨hne, .more (by rw [hatom, hk])⟩⟩
        | keep =>
          rw [hk] at hatom
          obtain ⟨r, st', h1, h2, h3⟩ := ih st (s.drop unit) (count + unit)
            (by rw [List.length_drop]; omega) hst
          refine ⟨r.addCount unit, st', ?_, h2, Or.inr ⟨hne, ?_⟩⟩
          · simp only [h1]
            cases r <;> simp [MbRet.addCount] <;> omega
          · rcases h3 with ⟨rfl, rfl, _⟩ | ⟨hne', hb⟩
            · exact .pause (by omega) hatom
            · exact .shift hatom hne' hb
        | flip =>
          rw [hk] at hatom
          obtain ⟨r, st', h1, h2, h3⟩ := ih (st ^^^ 1) (s.drop unit) (count + unit)
            (by rw [List.length_drop]; omega) (xor_one_le hst)
          refine ⟨r.addCount unit, st', ?_, h2, Or.inr ⟨hne, ?_⟩⟩
          · simp only [h1]
            cases r <;> simp [MbRet.addCount] <;> omega
          · rcases h3 with ⟨rfl, rfl, _⟩ | ⟨hne', hb⟩
            · exact .pause (by omega) hatom
            · exact .shift hatom hne' hb
      · rw [if_neg (by omega)]
        refine ⟨.toofew 0, st, by simp [MbRet.addCount], hst, Or.inl ⟨rfl, rfl, Or.inr ?_⟩⟩
        have := h.unit_le
        simp only [RET_COUNT_MAX, INT_MAX] at hg
        omega
    · rw [if_neg (by omega)]
      refine ⟨.toofew 0, st, by simp [MbRet.addCount], hst, ?_⟩
      by_cases hne : s = []
      · exact Or.inl ⟨rfl, rfl, Or.inl hne⟩
      · exact Or.inr ⟨hne, .more (by unfold markAtom; rw [if_pos (by omega)])⟩

/-- The result does not depend on whether the call starts in the original or the final byte order. -/
theorem loop_again (h : MarkOK unit item) {fuel st s r st'} (hst : st ≤ 1) (hst' : st' ≤ 1)
    (hl : markLoop unit item (fuel + 1) st s 0 = .ok (r, st')) :
    markLoop unit item (fuel + 1) st' s 0 = .ok (r, st') := by
  by_cases hs : st' = st
  · rw [hs] at hl ⊢; exact hl
  have hx := xor_one_ne hst hst' hs
  have hx2 : st' ^^^ 1 = st := by rw [hx, xor_one_xor_one hst]
  unfold markLoop at hl ⊢
  split at hl
  · next hc =>
    rw [if_pos hc]
    rw [h.eq st s hc.1] at hl
    rw [h.eq st' s hc.1]
    simp only [Outcome.bind_ok] at hl ⊢
    cases hk : h.kind st s with
    | keep =>
      rw [hk] at hl
      have : h.kind st' s = .flip := by rw [hx]; exact (h.swap st s hst hc.1).1 hk
      rw [this]
      simp only [hx2]
      exact hl
    | flip =>
      rw [hk] at hl
      have : h.kind st' s = .keep := by
        apply (h.swap st' s hst' hc.1).2; rw [hx2]; exact hk
      rw [this]
      simp only [hx] at hl ⊢
      exact hl
    | char wc n => rw [hk] at hl; simp at hl; exact absurd hl.2.symm hs
    | ilseq => rw [hk] at hl; simp at hl; exact absurd hl.2.symm hs
    | brk => rw [hk] at hl; simp at hl; exact absurd hl.2.symm hs
  · simp at hl; exact absurd hl.2.symm hs

def toOK (h : MarkOK unit item) : DecOK (markDecoder unit item) unit where
  Inv := fun is => is.bo ≤ 1
  atom := markAtom unit h.kind
  pend := fun _ => false
  unit_pos := h.unit_pos
  inv_init := by simp [IState.init]
  inv_clear := fun _ h => h
  char_ok := by
    intro is s wc n is' hi hne ha
    unfold markAtom at ha
    split at ha
    · cases ha
    · next hl =>
      split at ha <;> cases ha
      next hk =>
        obtain ⟨h1, h2⟩ := h.char_ok _ s wc n (by omega) hk
        exact ⟨hi, h2, by omega⟩
  shift_ok := by
    intro is s n is' hi hne ha
    have hu := h.unit_pos
    unfold markAtom at ha
    split at ha
    · cases ha
    · split at ha <;> cases ha
      · exact ⟨hi, by omega, by omega⟩
      · exact ⟨xor_one_le hi, by omega, by omega⟩
  ilseq_ok := by
    intro is s hi hne ha
    unfold markAtom at ha
    split at ha
    · cases ha
    · omega
  ext := by
    intro is s t hi hne ha
    unfold markAtom at ha ⊢
    split at ha
    · exact absurd rfl ha
    · next hl =>
      have hb : h.kind is.bo s ≠ .brk := by
        intro hc; rw [hc] at ha; exact ha rfl
      rw [if_neg hl, if_neg (by simp; omega), h.ext _ s t (by omega) hb]
  batch := by
    intro is s hi hne
    obtain ⟨r, st', h1, h2, h3⟩ := h.loop is.st (s.length + 1) is.bo s 0 (by omega) hi
    refine ⟨r, { is with bo := st' }, ?_, ?_⟩
    · simp only [markDecoder, h1, Outcome.bind_ok]
      cases r <;> simp [MbRet.addCount]
    · rcases h3 with ⟨_, _, h4⟩ | ⟨_, hb⟩
      · rcases h4 with h4 | h4
        · exact absurd h4 hne
        · omega
      · exact hb
  retry := by
    intro is s wc n is' hi hne hm
    obtain ⟨r, st', h1, h2, h3⟩ := h.loop is.st (s.length + 1) is.bo s 0 (by omega) hi
    simp only [markDecoder, h1, Outcome.bind_ok, Outcome.pure_eq, Outcome.ok.injEq,
      Prod.mk.injEq] at hm
    obtain ⟨hr, rfl⟩ := hm
    refine ⟨h2, ?_⟩
    rw [hr] at h1
    simp only [markDecoder, h.loop_again hi h2 h1, Outcome.bind_ok, Outcome.pure_eq]
  flush_ok := by
    intro f hf; cases hf

end MarkOK

end Reiconv
