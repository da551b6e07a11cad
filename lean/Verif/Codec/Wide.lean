import Verif.Mark

/-!
# UCS-2, UCS-4, UTF-16 and UTF-32 in all byte orders

Simplification: `int` is 32 bits and the machine is little endian (the `*internal` and `*swapped`
converters read and write in machine order); the alignment of their accesses is not modelled.
-/

namespace Reiconv

/-- `(s[i] << 8) + s[i+1]`. -/
def be16At (s : List Byte) (i : Nat) : Outcome Nat := do
  let a ← rd s i
  let b ← rd s (i + 1)
  return (a <<< 8) + b

/-- `s[i] + (s[i+1] << 8)`. -/
def le16At (s : List Byte) (i : Nat) : Outcome Nat := do
  let a ← rd s i
  let b ← rd s (i + 1)
  return a + (b <<< 8)

/-- `(s[0] << 24) + (s[1] << 16) + (s[2] << 8) + s[3]`. -/
def be32At (s : List Byte) : Outcome Nat := do
  let a ← rd s 0
  let b ← rd s 1
  let c ← rd s 2
  let d ← rd s 3
  return (a <<< 24) + (b <<< 16) + (c <<< 8) + d

/-- `s[0] + (s[1] << 8) + (s[2] << 16) + (s[3] << 24)`. -/
def le32At (s : List Byte) : Outcome Nat := do
  let a ← rd s 0
  let b ← rd s 1
  let c ← rd s 2
  let d ← rd s 3
  return a + (b <<< 8) + (c <<< 16) + (d <<< 24)

/-- The 16 bit unit at `s[i]` in the byte order `state` (`ucs2.h:41`, `utf16.h:47`, `utf16.h:59`). -/
def unit16 (state : Nat) (s : List Byte) (i : Nat) : Outcome Nat :=
  if state ≠ 0 then le16At s i else be16At s i

/-- The 32 bit unit at `s[0]` in the byte order `state` (`ucs4.h:41-42`, `utf32.h:47-48`). -/
def unit32 (state : Nat) (s : List Byte) : Outcome Nat :=
  if state ≠ 0 then le32At s else be32At s

/-- Loop body of `ucs2_mbtowc` (`lib/converters/ucs2.h:41-59`). -/
def ucs2_item (state : Nat) (s : List Byte) : Outcome MarkItem := do
  let wc ← unit16 state s 0
  if wc = 0xfeff then return .keep
  else if wc = 0xfffe then return .flip
  else if wc ≥ 0xd800 ∧ wc < 0xe000 then return .ilseq
  else return .char wc 2

/-- `ucs2_mbtowc` (`lib/converters/ucs2.h:35-66`). -/
def ucs2_dec : Decoder := markDecoder 2 ucs2_item

/-- `ucs2_wctomb` (`lib/converters/ucs2.h:72-87`). -/
def ucs2_wctomb (os wc n : Nat) : Outcome WcRes :=
  if wc < 0x10000 ∧ wc ≠ 0xfffe ∧ ¬ (wc ≥ 0xd800 ∧ wc < 0xe000) then
    if n ≥ 2 then .ok (.put [u8 (wc >>> 8), u8 wc] os)
    else .ok (.small os)
  else .ok (.iluni os)

/-- The functions `ucs2_wctomb` (`lib/converters/ucs2.h:72-87`). -/
def ucs2_enc : Encoder := ⟨ucs2_wctomb, none⟩

/-- `ucs2be_mbtowc` (`lib/converters/ucs2be.h:30-45`). -/
def ucs2be_mbtowc (is : IState) (s : List Byte) : Outcome (MbRet × IState) := do
  if s.length ≥ 2 then
    let s0 ← rd s 0
    if s0 ≥ 0xd8 ∧ s0 < 0xe0 then return (.ilseq 0, is)
    else
      let wc ← be16At s 0
      return (.char wc 2, is)
  return (.toofew 0, is)

/-- `ucs2be_wctomb` (`lib/converters/ucs2be.h:47-61`). -/
def ucs2be_wctomb (os wc n : Nat) : Outcome WcRes :=
  if wc < 0x10000 ∧ ¬ (wc ≥ 0xd800 ∧ wc < 0xe000) then
    if n ≥ 2 then .ok (.put [u8 (wc >>> 8), u8 wc] os)
    else .ok (.small os)
  else .ok (.iluni os)

/-- The functions `ucs2be_mbtowc` (`lib/converters/ucs2be.h:30-45`). -/
def ucs2be_dec : Decoder := ⟨ucs2be_mbtowc, none⟩
/-- The functions `ucs2be_wctomb` (`lib/converters/ucs2be.h:47-61`). -/
def ucs2be_enc : Encoder := ⟨ucs2be_wctomb, none⟩

/-- `ucs2le_mbtowc` (`lib/converters/ucs2le.h:30-45`). -/
def ucs2le_mbtowc (is : IState) (s : List Byte) : Outcome (MbRet × IState) := do
  if s.length ≥ 2 then
    let s1 ← rd s 1
    if s1 ≥ 0xd8 ∧ s1 < 0xe0 then return (.ilseq 0, is)
    else
      let wc ← le16At s 0
      return (.char wc 2, is)
  return (.toofew 0, is)

/-- `ucs2le_wctomb` (`lib/converters/ucs2le.h:47-61`). -/
def ucs2le_wctomb (os wc n : Nat) : Outcome WcRes :=
  if wc < 0x10000 ∧ ¬ (wc ≥ 0xd800 ∧ wc < 0xe000) then
    if n ≥ 2 then .ok (.put [u8 wc, u8 (wc >>> 8)] os)
    else .ok (.small os)
  else .ok (.iluni os)

/-- The functions `ucs2le_mbtowc` (`lib/converters/ucs2le.h:30-45`). -/
def ucs2le_dec : Decoder := ⟨ucs2le_mbtowc, none⟩
/-- The functions `ucs2le_wctomb` (`lib/converters/ucs2le.h:47-61`). -/
def ucs2le_enc : Encoder := ⟨ucs2le_wctomb, none⟩

/-- `*(const unsigned short *)s` on a little endian machine. -/
def load16 (s : List Byte) : Outcome Nat := le16At s 0

/-- `*(unsigned short *)r = x` on a little endian machine. -/
def store16 (x : Nat) : List Byte := [u8 x, u8 (x >>> 8)]

/-- `x = (x >> 8) | (x << 8)` for an `unsigned short`. -/
def swap16 (x : Nat) : Nat := ((x >>> 8) ||| (x <<< 8)) % 65536

/-- `ucs2internal_mbtowc` (`lib/converters/ucs2internal.h:30-46`). -/
def ucs2internal_mbtowc (is : IState) (s : List Byte) : Outcome (MbRet × IState) := do
  if s.length ≥ 2 then
    let x ← load16 s
    if x ≥ 0xd800 ∧ x < 0xe000 then return (.ilseq 0, is)
    else return (.char x 2, is)
  return (.toofew 0, is)

/-- `ucs2internal_wctomb` (`lib/converters/ucs2internal.h:48-62`). -/
def ucs2internal_wctomb (os wc n : Nat) : Outcome WcRes :=
  if wc < 0x10000 ∧ ¬ (wc ≥ 0xd800 ∧ wc < 0xe000) then
    if n ≥ 2 then .ok (.put (store16 wc) os)
    else .ok (.small os)
  else .ok (.iluni os)

/-- The functions `ucs2internal_mbtowc` (`lib/converters/ucs2internal.h:30-46`). -/
def ucs2internal_dec : Decoder := ⟨ucs2internal_mbtowc, none⟩
/-- The functions `ucs2internal_wctomb` (`lib/converters/ucs2internal.h:48-62`). -/
def ucs2internal_enc : Encoder := ⟨ucs2internal_wctomb, none⟩

/-- `ucs2swapped_mbtowc` (`lib/converters/ucs2swapped.h:32-53`); `sizeof(unsigned short)` is 2. -/
def ucs2swapped_mbtowc (is : IState) (s : List Byte) : Outcome (MbRet × IState) := do
  if s.length ≥ 2 then
    let x ← load16 s
    let x := swap16 x
    if x ≥ 0xd800 ∧ x < 0xe000 then return (.ilseq 0, is)
    else return (.char x 2, is)
  return (.toofew 0, is)

/-- `ucs2swapped_wctomb` (`lib/converters/ucs2swapped.h:55-75`). -/
def ucs2swapped_wctomb (os wc n : Nat) : Outcome WcRes :=
  if wc < 0x10000 ∧ ¬ (wc ≥ 0xd800 ∧ wc < 0xe000) then
    if n ≥ 2 then .ok (.put (store16 (swap16 wc)) os)
    else .ok (.small os)
  else .ok (.iluni os)

/-- The functions `ucs2swapped_mbtowc` (`lib/converters/ucs2swapped.h:32-53`). -/
def ucs2swapped_dec : Decoder := ⟨ucs2swapped_mbtowc, none⟩
/-- The functions `ucs2swapped_wctomb` (`lib/converters/ucs2swapped.h:55-75`). -/
def ucs2swapped_enc : Encoder := ⟨ucs2swapped_wctomb, none⟩

/-- Loop body of `ucs4_mbtowc` (`lib/converters/ucs4.h:41-60`). -/
def ucs4_item (state : Nat) (s : List Byte) : Outcome MarkItem := do
  let wc ← unit32 state s
  if wc = 0x0000feff then return .keep
  else if wc = 0xfffe0000 then return .flip
  else if wc ≤ 0x7fffffff then return .char wc 4
  else return .ilseq

/-- `ucs4_mbtowc` (`lib/converters/ucs4.h:35-67`). -/
def ucs4_dec : Decoder := markDecoder 4 ucs4_item

/-- `ucs4_wctomb` (`lib/converters/ucs4.h:70-87`). -/
def ucs4_wctomb (os wc n : Nat) : Outcome WcRes :=
  if wc ≤ 0x7fffffff then
    if n ≥ 4 then .ok (.put [u8 (wc >>> 24), u8 (wc >>> 16), u8 (wc >>> 8), u8 wc] os)
    else .ok (.small os)
  else .ok (.iluni os)

/-- The functions `ucs4_wctomb` (`lib/converters/ucs4.h:70-87`). -/
def ucs4_enc : Encoder := ⟨ucs4_wctomb, none⟩

/-- `ucs4be_mbtowc` (`lib/converters/ucs4be.h:30-38`). -/
def ucs4be_mbtowc (is : IState) (s : List Byte) : Outcome (MbRet × IState) := do
  if s.length ≥ 4 then
    let wc ← be32At s
    return (.char wc 4, is)
  return (.toofew 0, is)

/-- `ucs4be_wctomb` (`lib/converters/ucs4be.h:40-52`). -/
def ucs4be_wctomb (os wc n : Nat) : Outcome WcRes :=
  if n ≥ 4 then .ok (.put [u8 (wc >>> 24), u8 (wc >>> 16), u8 (wc >>> 8), u8 wc] os)
  else .ok (.small os)

/-- The functions `ucs4be_mbtowc` (`lib/converters/ucs4be.h:30-38`). -/
def ucs4be_dec : Decoder := ⟨ucs4be_mbtowc, none⟩
/-- The functions `ucs4be_wctomb` (`lib/converters/ucs4be.h:40-52`). -/
def ucs4be_enc : Encoder := ⟨ucs4be_wctomb, none⟩

/-- `ucs4le_mbtowc` (`lib/converters/ucs4le.h:30-38`). -/
def ucs4le_mbtowc (is : IState) (s : List Byte) : Outcome (MbRet × IState) := do
  if s.length ≥ 4 then
    let wc ← le32At s
    return (.char wc 4, is)
  return (.toofew 0, is)

/-- `ucs4le_wctomb` (`lib/converters/ucs4le.h:40-52`). -/
def ucs4le_wctomb (os wc n : Nat) : Outcome WcRes :=
  if n ≥ 4 then .ok (.put [u8 wc, u8 (wc >>> 8), u8 (wc >>> 16), u8 (wc >>> 24)] os)
  else .ok (.small os)

/-- The functions `ucs4le_mbtowc` (`lib/converters/ucs4le.h:30-38`). -/
def ucs4le_dec : Decoder := ⟨ucs4le_mbtowc, none⟩
/-- The functions `ucs4le_wctomb` (`lib/converters/ucs4le.h:40-52`). -/
def ucs4le_enc : Encoder := ⟨ucs4le_wctomb, none⟩

/-- `*(const unsigned int *)s` on a little endian machine. -/
def load32 (s : List Byte) : Outcome Nat := le32At s

/-- `*(unsigned int *)r = x` on a little endian machine. -/
def store32 (x : Nat) : List Byte := [u8 x, u8 (x >>> 8), u8 (x >>> 16), u8 (x >>> 24)]

/-- `(x >> 24) | ((x >> 8) & 0xff00) | ((x & 0xff00) << 8) | (x << 24)` for an `unsigned int`. -/
def swap32 (x : Nat) : Nat :=
  ((x >>> 24) ||| ((x >>> 8) &&& 0xff00) ||| ((x &&& 0xff00) <<< 8) ||| (x <<< 24)) % 4294967296

/-- `ucs4internal_mbtowc` (`lib/converters/ucs4internal.h:30-38`). -/
def ucs4internal_mbtowc (is : IState) (s : List Byte) : Outcome (MbRet × IState) := do
  if s.length ≥ 4 then
    let x ← load32 s
    return (.char x 4, is)
  return (.toofew 0, is)

/-- `ucs4internal_wctomb` (`lib/converters/ucs4internal.h:40-49`). -/
def ucs4internal_wctomb (os wc n : Nat) : Outcome WcRes :=
  if n ≥ 4 then .ok (.put (store32 wc) os)
  else .ok (.small os)

/-- The functions `ucs4internal_mbtowc` (`lib/converters/ucs4internal.h:30-38`). -/
def ucs4internal_dec : Decoder := ⟨ucs4internal_mbtowc, none⟩
/-- The functions `ucs4internal_wctomb` (`lib/converters/ucs4internal.h:40-49`). -/
def ucs4internal_enc : Encoder := ⟨ucs4internal_wctomb, none⟩

/-- `ucs4swapped_mbtowc` (`lib/converters/ucs4swapped.h:32-46`); `sizeof(unsigned int)` is 4. -/
def ucs4swapped_mbtowc (is : IState) (s : List Byte) : Outcome (MbRet × IState) := do
  if s.length ≥ 4 then
    let x ← load32 s
    return (.char (swap32 x) 4, is)
  return (.toofew 0, is)

/-- `ucs4swapped_wctomb` (`lib/converters/ucs4swapped.h:48-63`). -/
def ucs4swapped_wctomb (os wc n : Nat) : Outcome WcRes :=
  if n ≥ 4 then .ok (.put (store32 (swap32 wc)) os)
  else .ok (.small os)

/-- The functions `ucs4swapped_mbtowc` (`lib/converters/ucs4swapped.h:32-46`). -/
def ucs4swapped_dec : Decoder := ⟨ucs4swapped_mbtowc, none⟩
/-- The functions `ucs4swapped_wctomb` (`lib/converters/ucs4swapped.h:48-63`). -/
def ucs4swapped_enc : Encoder := ⟨ucs4swapped_wctomb, none⟩

/-- Loop body of `utf16_mbtowc` (`lib/converters/utf16.h:47-78`). -/
def utf16_item (state : Nat) (s : List Byte) : Outcome MarkItem := do
  let wc ← unit16 state s 0
  if wc = 0xfeff then return .keep
  else if wc = 0xfffe then return .flip
  else if wc ≥ 0xd800 ∧ wc < 0xdc00 then
    if s.length ≥ 4 then
      let wc2 ← unit16 state s 2
      if ¬ (wc2 ≥ 0xdc00 ∧ wc2 < 0xe000) then return .ilseq
      return .char (0x10000 + ((wc - 0xd800) <<< 10) + (wc2 - 0xdc00)) 4
    else return .brk
  else if wc ≥ 0xdc00 ∧ wc < 0xe000 then return .ilseq
  else return .char wc 2

/-- `utf16_mbtowc` (`lib/converters/utf16.h:41-89`). -/
def utf16_dec : Decoder := markDecoder 2 utf16_item

/-- `utf16_wctomb` (`lib/converters/utf16.h:96-144`). The byte order mark stored before an error
return stays in the buffer. -/
def utf16_wctomb (os wc n : Nat) : Outcome WcRes :=
  if wc ≠ 0xfffe ∧ ¬ (wc ≥ 0xd800 ∧ wc < 0xe000) then
    if os = 0 ∧ n < 2 then .ok (.small os)
    else
      let bom : List Byte := if os = 0 then [0xFE, 0xFF] else []
      let n := n - bom.length
      if wc < 0x10000 then
        if n ≥ 2 then .ok (.put (bom ++ [u8 (wc >>> 8), u8 wc]) 1)
        else .ok ⟨.toosmall, bom, os⟩
      else if wc < 0x110000 then
        if n ≥ 4 then
          let wc1 := 0xd800 + ((wc - 0x10000) >>> 10)
          let wc2 := 0xdc00 + ((wc - 0x10000) &&& 0x3ff)
          .ok (.put (bom ++ [u8 (wc1 >>> 8), u8 wc1, u8 (wc2 >>> 8), u8 wc2]) 1)
        else .ok ⟨.toosmall, bom, os⟩
      else .ok ⟨.iluni, bom, os⟩
  else .ok (.iluni os)

/-- The functions `utf16_wctomb` (`lib/converters/utf16.h:96-144`). -/
def utf16_enc : Encoder := ⟨utf16_wctomb, none⟩

/-- `utf16be_mbtowc` (`lib/converters/utf16be.h:32-63`). -/
def utf16be_mbtowc (is : IState) (s : List Byte) : Outcome (MbRet × IState) := do
  if s.length ≥ 2 then
    let wc ← be16At s 0
    if wc ≥ 0xd800 ∧ wc < 0xdc00 then
      if s.length ≥ 4 then
        let wc2 ← be16At s 2
        if ¬ (wc2 ≥ 0xdc00 ∧ wc2 < 0xe000) then return (.ilseq 0, is)
        return (.char (0x10000 + ((wc - 0xd800) <<< 10) + (wc2 - 0xdc00)) 4, is)
      return (.toofew 0, is)
    else if wc ≥ 0xdc00 ∧ wc < 0xe000 then return (.ilseq 0, is)
    else return (.char wc 2, is)
  return (.toofew 0, is)

/-- `utf16be_wctomb` (`lib/converters/utf16be.h:65-97`). -/
def utf16be_wctomb (os wc n : Nat) : Outcome WcRes :=
  if ¬ (wc ≥ 0xd800 ∧ wc < 0xe000) then
    if wc < 0x10000 then
      if n ≥ 2 then .ok (.put [u8 (wc >>> 8), u8 wc] os)
      else .ok (.small os)
    else if wc < 0x110000 then
      if n ≥ 4 then
        let wc1 := 0xd800 + ((wc - 0x10000) >>> 10)
        let wc2 := 0xdc00 + ((wc - 0x10000) &&& 0x3ff)
        .ok (.put [u8 (wc1 >>> 8), u8 wc1, u8 (wc2 >>> 8), u8 wc2] os)
      else .ok (.small os)
    else .ok (.iluni os)
  else .ok (.iluni os)

/-- The functions `utf16be_mbtowc` (`lib/converters/utf16be.h:32-63`). -/
def utf16be_dec : Decoder := ⟨utf16be_mbtowc, none⟩
/-- The functions `utf16be_wctomb` (`lib/converters/utf16be.h:65-97`). -/
def utf16be_enc : Encoder := ⟨utf16be_wctomb, none⟩

/-- `utf16le_mbtowc` (`lib/converters/utf16le.h:32-63`). -/
def utf16le_mbtowc (is : IState) (s : List Byte) : Outcome (MbRet × IState) := do
  if s.length ≥ 2 then
    let wc ← le16At s 0
    if wc ≥ 0xd800 ∧ wc < 0xdc00 then
      if s.length ≥ 4 then
        let wc2 ← le16At s 2
        if ¬ (wc2 ≥ 0xdc00 ∧ wc2 < 0xe000) then return (.ilseq 0, is)
        return (.char (0x10000 + ((wc - 0xd800) <<< 10) + (wc2 - 0xdc00)) 4, is)
      return (.toofew 0, is)
    else if wc ≥ 0xdc00 ∧ wc < 0xe000 then return (.ilseq 0, is)
    else return (.char wc 2, is)
  return (.toofew 0, is)

/-- `utf16le_wctomb` (`lib/converters/utf16le.h:65-97`). -/
def utf16le_wctomb (os wc n : Nat) : Outcome WcRes :=
  if ¬ (wc ≥ 0xd800 ∧ wc < 0xe000) then
    if wc < 0x10000 then
      if n ≥ 2 then .ok (.put [u8 wc, u8 (wc >>> 8)] os)
      else .ok (.small os)
    else if wc < 0x110000 then
      if n ≥ 4 then
        let wc1 := 0xd800 + ((wc - 0x10000) >>> 10)
        let wc2 := 0xdc00 + ((wc - 0x10000) &&& 0x3ff)
        .ok (.put [u8 wc1, u8 (wc1 >>> 8), u8 wc2, u8 (wc2 >>> 8)] os)
      else .ok (.small os)
    else .ok (.iluni os)
  else .ok (.iluni os)

/-- The functions `utf16le_mbtowc` (`lib/converters/utf16le.h:32-63`). -/
def utf16le_dec : Decoder := ⟨utf16le_mbtowc, none⟩
/-- The functions `utf16le_wctomb` (`lib/converters/utf16le.h:65-97`). -/
def utf16le_enc : Encoder := ⟨utf16le_wctomb, none⟩

/-- Loop body of `utf32_mbtowc` (`lib/converters/utf32.h:47-69`). -/
def utf32_item (state : Nat) (s : List Byte) : Outcome MarkItem := do
  let wc ← unit32 state s
  if wc = 0x0000feff then return .keep
  else if wc = 0xfffe0000 then return .flip
  else if wc < 0x110000 ∧ ¬ (wc ≥ 0xd800 ∧ wc < 0xe000) then return .char wc 4
  else return .ilseq

/-- `utf32_mbtowc` (`lib/converters/utf32.h:41-76`). -/
def utf32_dec : Decoder := markDecoder 4 utf32_item

/-- `utf32_wctomb` (`lib/converters/utf32.h:80-116`). -/
def utf32_wctomb (os wc n : Nat) : Outcome WcRes :=
  if wc < 0x110000 ∧ ¬ (wc ≥ 0xd800 ∧ wc < 0xe000) then
    if os = 0 ∧ n < 4 then .ok (.small os)
    else
      let bom : List Byte := if os = 0 then [0x00, 0x00, 0xFE, 0xFF] else []
      let n := n - bom.length
      if wc < 0x110000 then
        if n ≥ 4 then .ok (.put (bom ++ [0, u8 (wc >>> 16), u8 (wc >>> 8), u8 wc]) 1)
        else .ok ⟨.toosmall, bom, os⟩
      else .ok ⟨.iluni, bom, os⟩
  else .ok (.iluni os)

/-- The functions `utf32_wctomb` (`lib/converters/utf32.h:80-116`). -/
def utf32_enc : Encoder := ⟨utf32_wctomb, none⟩

/-- `utf32be_mbtowc` (`lib/converters/utf32be.h:32-48`). -/
def utf32be_mbtowc (is : IState) (s : List Byte) : Outcome (MbRet × IState) := do
  if s.length ≥ 4 then
    let wc ← be32At s
    if wc < 0x110000 ∧ ¬ (wc ≥ 0xd800 ∧ wc < 0xe000) then return (.char wc 4, is)
    else return (.ilseq 0, is)
  return (.toofew 0, is)

/-- `utf32be_wctomb` (`lib/converters/utf32be.h:50-68`). -/
def utf32be_wctomb (os wc n : Nat) : Outcome WcRes :=
  if wc < 0x110000 ∧ ¬ (wc ≥ 0xd800 ∧ wc < 0xe000) then
    if n ≥ 4 then .ok (.put [0, u8 (wc >>> 16), u8 (wc >>> 8), u8 wc] os)
    else .ok (.small os)
  else .ok (.iluni os)

/-- The functions `utf32be_mbtowc` (`lib/converters/utf32be.h:32-48`). -/
def utf32be_dec : Decoder := ⟨utf32be_mbtowc, none⟩
/-- The functions `utf32be_wctomb` (`lib/converters/utf32be.h:50-68`). -/
def utf32be_enc : Encoder := ⟨utf32be_wctomb, none⟩

/-- `utf32le_mbtowc` (`lib/converters/utf32le.h:32-47`). -/
def utf32le_mbtowc (is : IState) (s : List Byte) : Outcome (MbRet × IState) := do
  if s.length ≥ 4 then
    let wc ← le32At s
    if wc < 0x110000 ∧ ¬ (wc ≥ 0xd800 ∧ wc < 0xe000) then return (.char wc 4, is)
    else return (.ilseq 0, is)
  return (.toofew 0, is)

/-- `utf32le_wctomb` (`lib/converters/utf32le.h:49-63`). -/
def utf32le_wctomb (os wc n : Nat) : Outcome WcRes :=
  if wc < 0x110000 ∧ ¬ (wc ≥ 0xd800 ∧ wc < 0xe000) then
    if n ≥ 4 then .ok (.put [u8 wc, u8 (wc >>> 8), u8 (wc >>> 16), 0] os)
    else .ok (.small os)
  else .ok (.iluni os)

/-- The functions `utf32le_mbtowc` (`lib/converters/utf32le.h:33-47`). -/
def utf32le_dec : Decoder := ⟨utf32le_mbtowc, none⟩
/-- The functions `utf32le_wctomb` (`lib/converters/utf32le.h:50-63`). -/
def utf32le_enc : Encoder := ⟨utf32le_wctomb, none⟩

end Reiconv
