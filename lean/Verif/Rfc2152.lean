import Verif.Basic

/-!
# UTF-7: specification

The texts of UTF-7 after RFC 2152, without any of the code. A `Variant` says what is accepted beyond the RFC.
-/

namespace Reiconv.Rfc2152

/-- The bytes of a string of ASCII characters. -/
def codes (s : String) : List Byte := s.toList.map fun c => u8 c.toNat

/-- Sets D and O of RFC 2152 with space, tab, carriage return and line feed: the characters that stand for themselves
(rules 1 and 3). -/
def direct : List Byte := codes "ABCDEFGHIJKLMNOPQRSTUVWXYZabcdefghijklmnopqrstuvwxyz0123456789'(),-./:? \t\r\n" ++
  codes "!\"#$%&*;<=>@[]^_`{|}"

/-- Set B: the base64 alphabet, in the order of the values. -/
def alphabet : List Byte := codes "ABCDEFGHIJKLMNOPQRSTUVWXYZabcdefghijklmnopqrstuvwxyz0123456789+/"

/-- The base64 character of a value below 64. -/
def chr (v : Nat) : Byte := alphabet.getD v 0

/-- What is accepted beyond the RFC: `+` before a byte that is neither in set B nor `-`, which then stands for nothing;
the second half of a surrogate pair without the first; bits other than zero behind the last 16-bit unit, at the end of
the input. -/
structure Variant where
  emptyRun : Bool
  loneLow : Bool
  anyPad : Bool

/-- RFC 2152. -/
def documented : Variant := ⟨false, false, false⟩

/-- The converter. -/
def implemented : Variant := ⟨true, true, true⟩

/-- First and second half of a surrogate pair. -/
def High (u : Nat) : Prop := 0xd800 ≤ u ∧ u < 0xdc00
def Low (u : Nat) : Prop := 0xdc00 ≤ u ∧ u < 0xe000

/-- The 16-bit units are UTF-16 for the characters. -/
inductive Units (v : Variant) : List Nat → List Nat → Prop
  | nil : Units v [] []
  | one {u us ws} : u < 0x10000 → ¬ High u → ¬ Low u → Units v us ws → Units v (u :: us) (u :: ws)
  | pair {u1 u2 us ws} : High u1 → Low u2 → Units v us ws →
      Units v (u1 :: u2 :: us) ((0x10000 + (u1 - 0xd800) * 0x400 + (u2 - 0xdc00)) :: ws)
  | low {u us ws} : v.loneLow = true → Low u → Units v us ws → Units v (u :: us) (u :: ws)

/-- The number with the digits `ds` in base `b`. -/
def number (b : Nat) (ds : List Nat) : Nat := ds.foldl (fun a d => a * b + d) 0

/-- The groups of six bits `vs` are the 16-bit units `us` and fewer than six bits more, with the value `r`. -/
def Bits (vs us : List Nat) (r : Nat) : Prop :=
  (∀ v ∈ vs, v < 64) ∧ ∃ pad, pad < 6 ∧ 6 * vs.length = 16 * us.length + pad ∧ r < 2 ^ pad ∧
    number 64 vs = number 65536 us * 2 ^ pad + r

/-- The bytes are a text with these characters. -/
inductive Reads (v : Variant) : List Byte → List Nat → Prop
  | nil : Reads v [] []
  /-- A character that stands for itself. -/
  | direct {c s w} : c ∈ direct → Reads v s w → Reads v (c :: s) (c.toNat :: w)
  /-- `+-` stands for `+`. -/
  | plus {s w} : Reads v s w → Reads v (0x2b :: 0x2d :: s) (0x2b :: w)
  /-- `+`, characters in base64, `-`. -/
  | dash {vs us ws s w} : vs ≠ [] → Bits vs us 0 → Units v us ws → Reads v s w →
      Reads v (0x2b :: (vs.map chr ++ 0x2d :: s)) (ws ++ w)
  /-- `+`, characters in base64, and then another byte that is neither in set B nor `-`. -/
  | stop {vs us ws c s w} : (vs ≠ [] ∨ v.emptyRun = true) → Bits vs us 0 → Units v us ws → c ∉ alphabet → c ≠ 0x2d →
      Reads v (c :: s) w → Reads v (0x2b :: (vs.map chr ++ c :: s)) (ws ++ w)
  /-- `+`, characters in base64, and the end of the input. -/
  | last {vs us ws r} : vs ≠ [] → Bits vs us r → (r = 0 ∨ v.anyPad = true) → Units v us ws →
      Reads v (0x2b :: vs.map chr) ws

end Reiconv.Rfc2152
