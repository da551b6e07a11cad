import Verif.Spec

/-!
# Contracts of decoders and encoders

What the loop relies on. Every converter of the library is shown to satisfy these contracts in its
own module; the theorems about the loop and the API are proved for all converters that do.
-/

namespace Reiconv

/-- Add `j` bytes that were read before to a decoder return value. -/
def MbRet.addCount (j : Nat) : MbRet → MbRet
  | .char wc n => .char wc (j + n)
  | .ilseq k => .ilseq (j + k)
  | .toofew k => .toofew (j + k)

/-- One decoder call handles a batch of items: any number of shift items, then possibly a
character or an error. -/
inductive Batch (atom : IState → List Byte → Atom) : IState → List Byte → MbRet → IState → Prop
  | more {is s} : atom is s = .more → Batch atom is s (.toofew 0) is
  | ilseq {is s} : atom is s = .ilseq → Batch atom is s (.ilseq 0) is
  | char {is s wc n is'} : atom is s = .char wc n is' → Batch atom is s (.char wc n) is'
  | pause {is s n is'} : 0 < n → atom is s = .shift n is' → Batch atom is s (.toofew n) is'
  | shift {is s n is' r is''} : atom is s = .shift n is' → s.drop n ≠ [] →
      Batch atom is' (s.drop n) r is'' → Batch atom is s (r.addCount n) is''

/-- Contract of a decoder with respect to its items. `unit` is the number of bytes skipped in
discard mode. `pend` tells whether `istate` holds a character that was read but not delivered. -/
structure DecOK (D : Decoder) (unit : Nat) where
  Inv : IState → Prop
  atom : IState → List Byte → Atom
  pend : Nat → Bool
  unit_pos : 1 ≤ unit
  inv_init : Inv IState.init
  inv_clear : ∀ is, Inv is → Inv { is with st := 0 }
  char_ok : ∀ is s wc n is', Inv is → s ≠ [] → atom is s = .char wc n is' →
    Inv is' ∧ n ≤ s.length ∧ (n = 0 → pend is.st = true ∧ pend is'.st = false)
  shift_ok : ∀ is s n is', Inv is → s ≠ [] → atom is s = .shift n is' →
    Inv is' ∧ n ≤ s.length ∧ (n = 0 → pend is.st = true ∧ pend is'.st = false)
  ilseq_ok : ∀ is s, Inv is → s ≠ [] → atom is s = .ilseq → unit ≤ s.length
  ext : ∀ is s t, Inv is → s ≠ [] → atom is s ≠ .more → atom is (s ++ t) = atom is s
  batch : ∀ is s, Inv is → s ≠ [] →
    ∃ r is', D.mbtowc is s = .ok (r, is') ∧ Batch atom is s r is'
  retry : ∀ is s wc n is', Inv is → s ≠ [] → D.mbtowc is s = .ok (.char wc n, is') →
    Inv { is' with st := is.st } ∧ D.mbtowc { is' with st := is.st } s = .ok (.char wc n, is')
  flush_ok : ∀ f, D.flushwc = some f → ∀ is, Inv is →
    Inv (f is).2 ∧ (f is).2.bo = is.bo ∧ (f (f is).2).1 = none ∧ ∀ wc, (f is).1 = some wc → wc < 0x110000

/-- Contract of an encoder. -/
structure EncOK (E : Encoder) where
  Inv : Nat → Prop
  inv_init : Inv 0
  /-- Least room with which the encoder may be called: 1, or 0 if it checks the room first. -/
  minRoom : Nat
  minRoom_le : minRoom ≤ 1
  /-- With enough room for a call: no undefined behaviour, no abort, no store outside the room;
  the return value is the number of bytes stored; an error leaves the state alone. -/
  safe : ∀ os wc n, Inv os → minRoom ≤ n → ∃ r, E.wctomb os wc n = .ok r ∧ r.ws.length ≤ n ∧
    (∀ k, r.ret = .wrote k → k = r.ws.length ∧ Inv r.st) ∧
    (r.ret = .iluni ∨ r.ret = .toosmall → r.st = os)
  /-- Whatever the room: if the stores fit, a success leaves a good state and an error leaves the
  state alone. -/
  any : ∀ os wc n r, Inv os → E.wctomb os wc n = .ok r → r.ws.length ≤ n →
    (∀ k, r.ret = .wrote k → k = r.ws.length ∧ Inv r.st) ∧
    (r.ret = .iluni ∨ r.ret = .toosmall → r.st = os)
  /-- A Unicode character that cannot be encoded is harmless whatever the room. -/
  dry : ∀ os wc n, Inv os → wc < 0x110000 → E.full os wc = none → ∃ r, E.wctomb os wc n = .ok r ∧
    r.ws.length ≤ n ∧ (r.ret = .iluni ∨ r.ret = .toosmall) ∧ r.st = os
  /-- More room does not change a decision. -/
  mono : ∀ os wc n m r, Inv os → E.wctomb os wc n = .ok r → r.ws.length ≤ n → r.ret ≠ .toosmall →
    n ≤ m → E.wctomb os wc m = .ok r
  /-- 64 bytes are always enough. -/
  big : ∀ os wc n r, Inv os → 64 ≤ n → E.wctomb os wc n = .ok r → r.ret ≠ .toosmall
  reset_safe : ∀ f, E.reset = some f → ∀ os n, Inv os → ∃ r, f os n = .ok r ∧ r.ws.length ≤ n ∧
    (r.ret = .wrote r.ws.length ∨ r.ret = .toosmall ∧ r.st = os)
  reset_mono : ∀ f, E.reset = some f → ∀ os n m r, Inv os → f os n = .ok r → r.ret ≠ .toosmall →
    n ≤ m → f os m = .ok r
  reset_big : ∀ f, E.reset = some f → ∀ os n r, Inv os → 64 ≤ n → f os n = .ok r →
    r.ret ≠ .toosmall

end Reiconv
