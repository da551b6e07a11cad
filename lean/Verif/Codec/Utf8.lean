import Verif.Simple

/-!
# ASCII, ISO-8859-1 and UTF-8
-/

namespace Reiconv

/-- `ascii_mbtowc` (`lib/converters/ascii.h:30-39`). -/
def ascii_mbtowc (is : IState) (s : List Byte) : Outcome (MbRet × IState) := do
  let c ← rd s 0
  if c < 0x80 then return (.char c 1, is)
  return (.ilseq 0, is)

/-- `ascii_wctomb` (`lib/converters/ascii.h:41-49`): does not look at `n`. -/
def ascii_wctomb (os wc _n : Nat) : Outcome WcRes :=
  if wc < 0x0080 then .ok (.put [u8 wc] os)
  else .ok (.iluni os)

/-- `iso8859_1_mbtowc` (`lib/converters/iso8859_1.h:30-35`). -/
def iso8859_1_mbtowc (is : IState) (s : List Byte) : Outcome (MbRet × IState) := do
  let c ← rd s 0
  return (.char c 1, is)

/-- `iso8859_1_wctomb` (`lib/converters/iso8859_1.h:37-45`). -/
def iso8859_1_wctomb (os wc _n : Nat) : Outcome WcRes :=
  if wc < 0x0100 then .ok (.put [u8 wc] os)
  else .ok (.iluni os)

/-- `utf8_mbtowc` (`lib/converters/utf8.h:32-76`). `&&` and `||` are modelled without short circuit;
all reads are in bounds when the length check before them passes. -/
def utf8_mbtowc (is : IState) (s : List Byte) : Outcome (MbRet × IState) := do
  let n := s.length
  let c ← rd s 0
  if c < 0x80 then return (.char c 1, is)
  else if c < 0xc2 then return (.ilseq 0, is)
  else if c < 0xe0 then
    if n < 2 then return (.toofew 0, is)
    let s1 ← rd s 1
    if ¬ (s1 ^^^ 0x80 < 0x40) then return (.ilseq 0, is)
    return (.char (((c &&& 0x1f) <<< 6) ||| (s1 ^^^ 0x80)) 2, is)
  else if c < 0xf0 then
    if n < 3 then return (.toofew 0, is)
    let s1 ← rd s 1
    let s2 ← rd s 2
    if ¬ (s1 ^^^ 0x80 < 0x40 ∧ s2 ^^^ 0x80 < 0x40 ∧ (c ≥ 0xe1 ∨ s1 ≥ 0xa0) ∧
        (c ≠ 0xed ∨ s1 < 0xa0)) then return (.ilseq 0, is)
    return (.char (((c &&& 0x0f) <<< 12) ||| ((s1 ^^^ 0x80) <<< 6) ||| (s2 ^^^ 0x80)) 3, is)
  else if c < 0xf8 then
    if n < 4 then return (.toofew 0, is)
    let s1 ← rd s 1
    let s2 ← rd s 2
    let s3 ← rd s 3
    if ¬ (s1 ^^^ 0x80 < 0x40 ∧ s2 ^^^ 0x80 < 0x40 ∧ s3 ^^^ 0x80 < 0x40 ∧
        (c ≥ 0xf1 ∨ s1 ≥ 0x90) ∧ (c < 0xf4 ∨ (c = 0xf4 ∧ s1 < 0x90))) then return (.ilseq 0, is)
    return (.char (((c &&& 0x07) <<< 18) ||| ((s1 ^^^ 0x80) <<< 12) ||| ((s2 ^^^ 0x80) <<< 6) |||
      (s3 ^^^ 0x80)) 4, is)
  else return (.ilseq 0, is)

/-- The fall-through `switch` of `utf8_wctomb` (`lib/converters/utf8.h:97-102`): the bytes
`r[0] … r[count-1]`. -/
def utf8Store (count wc : Nat) : List Byte :=
  -- case 4
  let r3 := u8 (0x80 ||| (wc &&& 0x3f))
  let wc := if count = 4 then (wc >>> 6) ||| 0x10000 else wc
  -- case 3
  let r2 := u8 (0x80 ||| (wc &&& 0x3f))
  let wc := if 3 ≤ count then (wc >>> 6) ||| 0x800 else wc
  -- case 2
  let r1 := u8 (0x80 ||| (wc &&& 0x3f))
  let wc := if 2 ≤ count then (wc >>> 6) ||| 0xc0 else wc
  -- case 1
  let r0 := u8 wc
  [r0, r1, r2, r3].take count

/-- `utf8_wctomb` (`lib/converters/utf8.h:78-104`). -/
def utf8_wctomb (os wc n : Nat) : Outcome WcRes :=
  let count : Option Nat :=
    if wc < 0x80 then some 1
    else if wc < 0x800 then some 2
    else if wc < 0x10000 then
      if wc < 0xd800 ∨ wc ≥ 0xe000 then some 3 else none
    else if wc < 0x110000 then some 4
    else none
  match count with
  | none => .ok (.iluni os)
  | some count =>
    if n < count then .ok (.small os)
    else .ok (.put (utf8Store count wc) os)

/-- `ifuncs` of ASCII (`lib/encodings.h.snippet`, `lib/all_encodings.h`). -/
def ascii_dec : Decoder := ⟨ascii_mbtowc, none⟩
/-- The functions `ascii_wctomb` (`lib/converters/ascii.h:41-49`). -/
def ascii_enc : Encoder := ⟨ascii_wctomb, none⟩
/-- The functions `iso8859_1_mbtowc` (`lib/converters/iso8859_1.h:30-35`). -/
def iso8859_1_dec : Decoder := ⟨iso8859_1_mbtowc, none⟩
/-- The functions `iso8859_1_wctomb` (`lib/converters/iso8859_1.h:37-45`). -/
def iso8859_1_enc : Encoder := ⟨iso8859_1_wctomb, none⟩
/-- The functions `utf8_mbtowc` (`lib/converters/utf8.h:33-76`). -/
def utf8_dec : Decoder := ⟨utf8_mbtowc, none⟩
/-- The functions `utf8_wctomb` (`lib/converters/utf8.h:79-104`). -/
def utf8_enc : Encoder := ⟨utf8_wctomb, none⟩

/-! ## Specification -/

/-- A Unicode scalar value. -/
def Scalar (wc : Nat) : Prop := wc < 0xd800 ∨ (0xe000 ≤ wc ∧ wc < 0x110000)

instance (wc : Nat) : Decidable (Scalar wc) := by unfold Scalar; infer_instance

/-- The UTF-8 form of a code point (RFC 3629, section 3). -/
def utf8Enc (wc : Nat) : List Byte :=
  if wc < 0x80 then [u8 wc]
  else if wc < 0x800 then [u8 (0xc0 + wc / 64), u8 (0x80 + wc % 64)]
  else if wc < 0x10000 then
    [u8 (0xe0 + wc / 4096), u8 (0x80 + wc / 64 % 64), u8 (0x80 + wc % 64)]
  else [u8 (0xf0 + wc / 262144), u8 (0x80 + wc / 4096 % 64), u8 (0x80 + wc / 64 % 64),
    u8 (0x80 + wc % 64)]

end Reiconv
