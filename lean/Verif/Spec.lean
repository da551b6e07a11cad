import Verif.Loop

/-!
# Specification: what a conversion means, without buffers

A decoder is described by its *items* (`Atom`): from a state and the rest of the input it reads one
character, skips one shift sequence, finds an invalid sequence, or needs more bytes. A conversion
run reads items one after the other and appends the encoding of each character; there are no
buffers, no room, no retries in this specification.
-/

namespace Reiconv

/-- The next item of an input. `char wc n is`: `n` bytes make up `wc`, the state is then `is`;
`shift n is`: `n` bytes of control sequence; `ilseq`: no valid sequence starts here; `more`: the
input ends before the next item is complete. -/
inductive Atom where
  | char (wc n : Nat) (is : IState)
  | shift (n : Nat) (is : IState)
  | ilseq
  | more
  deriving Repr, DecidableEq

/-- Encoding of one character with unlimited room: the bytes and the next output state, or `none`
if the target encoding cannot represent the character. (64 bytes is more than any encoder writes
for one character, this is part of the encoder contract.) -/
def Encoder.full (E : Encoder) (os wc : Nat) : Option (List Byte × Nat) :=
  match E.wctomb os wc 64 with
  | .ok ⟨.wrote _, ws, st⟩ => some (ws, st)
  | _ => none

/-- The bytes that return to the initial output state, with unlimited room. -/
def Encoder.tail (E : Encoder) (os : Nat) : List Byte :=
  match E.reset with
  | none => []
  | some f =>
    match f os 64 with
    | .ok r => r.ws
    | _ => []

/-- Is `wc` a Unicode tag character U+E0000..U+E007F? -/
def isTag (wc : Nat) : Bool := decide (0xe0000 ≤ wc ∧ wc ≤ 0xe007f)

/-- What the library writes for one character: bytes, next output state, and whether it counts as
an irreversible conversion; `none` means `EILSEQ`. A representable character is encoded; otherwise
a tag character is dropped silently; otherwise, with the discard flag, the character is dropped and
counted; otherwise U+FFFD is written in its place, and counted, if that is representable. -/
def encChar (E : Encoder) (discard : Bool) (os wc : Nat) : Option (List Byte × Nat × Nat) :=
  match E.full os wc with
  | some (bs, os') => some (bs, os', 0)
  | none =>
    if isTag wc then some ([], os, 0)
    else if discard then some ([], os, 1)
    else
      match E.full os 0xFFFD with
      | some (bs, os') => some (bs, os', 1)
      | none => none

/-- Encoding of one character that the encoding represents. ISO-2022-JP-2 reads language tags and
writes nothing for them: they are not represented. -/
def Encoder.rep (E : Encoder) (os wc : Nat) : Option (List Byte × Nat) :=
  match E.full os wc with
  | some (bs, os') => if isTag wc = true ∧ bs = [] then none else some (bs, os')
  | none => none

/-- How a run ends: all input read; or the input left is an incomplete sequence; or the next item
is invalid or cannot be encoded. -/
inductive Final where
  | done (s : St)
  | einval (s : St) (rest : List Byte)
  | eilseq
  deriving Repr, DecidableEq

/-- `RunsG atom unit discard ec s inp out irr fin`: converting `inp` from state `s` produces the bytes
`out`, makes `irr` irreversible conversions and ends with `fin`. `ec os wc` is what is written for
one character; invalid input is skipped in steps of `unit` bytes if `discard` is set. -/
inductive RunsG (atom : IState → List Byte → Atom) (unit : Nat) (discard : Bool)
    (ec : Nat → Nat → Option (List Byte × Nat × Nat)) :
    St → List Byte → List Byte → Nat → Final → Prop
  | done (s) : RunsG atom unit discard ec s [] [] 0 (.done s)
  | more {s inp} : inp ≠ [] → atom s.is inp = .more →
      RunsG atom unit discard ec s inp [] 0 (.einval s inp)
  | stop {s inp} : inp ≠ [] → atom s.is inp = .ilseq → discard = false →
      RunsG atom unit discard ec s inp [] 0 .eilseq
  | skip {s inp out irr fin} : inp ≠ [] → atom s.is inp = .ilseq → discard = true →
      RunsG atom unit discard ec s (inp.drop unit) out irr fin →
      RunsG atom unit discard ec s inp out irr fin
  | shift {s inp n is out irr fin} : inp ≠ [] → atom s.is inp = .shift n is →
      RunsG atom unit discard ec ⟨is, s.os⟩ (inp.drop n) out irr fin →
      RunsG atom unit discard ec s inp out irr fin
  | char {s inp wc n is bs os i out irr fin} : inp ≠ [] → atom s.is inp = .char wc n is →
      ec s.os wc = some (bs, os, i) →
      RunsG atom unit discard ec ⟨is, os⟩ (inp.drop n) out irr fin →
      RunsG atom unit discard ec s inp (bs ++ out) (i + irr) fin
  | unenc {s inp wc n is} : inp ≠ [] → atom s.is inp = .char wc n is →
      ec s.os wc = none → RunsG atom unit discard ec s inp [] 0 .eilseq

/-- The meaning of a conversion with descriptor `c`. -/
abbrev Runs (atom : IState → List Byte → Atom) (c : Conv) :=
  RunsG atom c.unit c.discard (encChar c.enc c.discard)

/-- A conversion in which every character of the input is representable in the target encoding:
no character is dropped or replaced. -/
abbrev RunsExact (atom : IState → List Byte → Atom) (c : Conv) :=
  RunsG atom c.unit c.discard (fun os wc => (c.enc.rep os wc).map fun x => (x.1, x.2, 0))

/-- The character still pending in the input state, and the state after it was taken out. -/
def pending (c : Conv) (s : St) : Option Nat × IState :=
  match c.dec.flushwc with
  | none => (none, s.is)
  | some f => f s.is

/-- What finishing a conversion writes: the pending character, then the return to the initial
output state. Gives the bytes and the number of irreversible conversions; `none` means `EILSEQ`. -/
def finish (c : Conv) (s : St) : Option (List Byte × Nat) :=
  match (pending c s).1 with
  | none => some (c.enc.tail s.os, 0)
  | some wc =>
    match encChar c.enc c.discard s.os wc with
    | some (bs, os, i) => some (bs ++ c.enc.tail os, i)
    | none => none

/-- `Whole atom c s inp out irr s'`: the conversion of the complete text `inp` from state `s`,
including the final return to the initial state, is `out`. -/
def Whole (atom : IState → List Byte → Atom) (c : Conv) (s : St) (inp out : List Byte) (irr : Nat) :
    Prop :=
  ∃ o i s' fo fi, Runs atom c s inp o i (.done s') ∧ finish c s' = some (fo, fi) ∧
    out = o ++ fo ∧ irr = i + fi

/-- The same without dropping or replacing the pending character. -/
def finishExact (c : Conv) (s : St) : Option (List Byte) :=
  match (pending c s).1 with
  | none => some (c.enc.tail s.os)
  | some wc => (c.enc.rep s.os wc).map fun x => x.1 ++ c.enc.tail x.2

/-- `Faithful atom c s inp out`: every character of the complete text `inp` is representable in the
target encoding, and `out` is the conversion. -/
def Faithful (atom : IState → List Byte → Atom) (c : Conv) (s : St) (inp out : List Byte) : Prop :=
  ∃ o i s' fo, RunsExact atom c s inp o i (.done s') ∧ finishExact c s' = some fo ∧ out = o ++ fo

/-- `Valid atom is inp`: from state `is` the text `inp` is a sequence of valid items (characters and
shift sequences) of the source encoding and nothing else. -/
inductive Valid (atom : IState → List Byte → Atom) : IState → List Byte → Prop
  | nil (is) : Valid atom is []
  | char {is inp wc n is'} : inp ≠ [] → atom is inp = .char wc n is' → Valid atom is' (inp.drop n) →
      Valid atom is inp
  | shift {is inp n is'} : inp ≠ [] → atom is inp = .shift n is' → Valid atom is' (inp.drop n) →
      Valid atom is inp

/-- `Truncated atom is inp`: a sequence of valid items, then a beginning of another one. -/
inductive Truncated (atom : IState → List Byte → Atom) : IState → List Byte → Prop
  | more {is inp} : inp ≠ [] → atom is inp = .more → Truncated atom is inp
  | char {is inp wc n is'} : inp ≠ [] → atom is inp = .char wc n is' →
      Truncated atom is' (inp.drop n) → Truncated atom is inp
  | shift {is inp n is'} : inp ≠ [] → atom is inp = .shift n is' →
      Truncated atom is' (inp.drop n) → Truncated atom is inp

theorem Encoder.rep_full {E : Encoder} {os wc : Nat} {x : List Byte × Nat} (h : E.rep os wc = some x) :
    E.full os wc = some x := by
  unfold Encoder.rep at h
  cases hf : E.full os wc with
  | none => rw [hf] at h; cases h
  | some y =>
    obtain ⟨bs, os'⟩ := y
    rw [hf] at h
    simp only at h
    split at h
    · cases h
    · exact h

theorem Encoder.rep_some {E : Encoder} {os wc : Nat} {bs : List Byte} {os' : Nat} (h : E.full os wc = some (bs, os'))
    (hl : isTag wc = true → bs ≠ []) : E.rep os wc = some (bs, os') := by
  unfold Encoder.rep
  rw [h]
  exact if_neg fun hc => hl hc.1 hc.2

theorem Encoder.rep_ne {E : Encoder} {os wc : Nat} {bs : List Byte} {os' : Nat} (h : E.rep os wc = some (bs, os')) :
    isTag wc = true → bs ≠ [] := by
  have hf := Encoder.rep_full h
  unfold Encoder.rep at h
  rw [hf] at h
  simp only at h
  split at h
  · cases h
  · next hn => exact fun h1 h2 => hn ⟨h1, h2⟩

/-- If nothing is not what is written for any tag, everything that can be encoded is represented. -/
theorem Encoder.rep_eq {E : Encoder} {os wc : Nat} (hl : ∀ bs os', E.full os wc = some (bs, os') → isTag wc = true → bs ≠ []) :
    E.rep os wc = E.full os wc := by
  cases hf : E.full os wc with
  | none => unfold Encoder.rep; rw [hf]
  | some x => exact Encoder.rep_some hf (hl _ _ hf)

end Reiconv
