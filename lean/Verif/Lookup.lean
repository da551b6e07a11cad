import Verif.Api
import Verif.Gen.Index
import Verif.Gen.Aliases
import Verif.Gen.Names

/-!
# Finding encodings and opening descriptors (`lib/iconv.c:51-203`, `lib/generated/aliases.h`)

A C string is a list of bytes: the memory from its first byte to the end of the object it is in. A
read that finds no byte is undefined behaviour.
-/

namespace Reiconv

/-- The bytes of a string literal, without the terminating NUL. All literals concerned are ASCII. -/
def lit (s : String) : List Byte := s.toList.map fun c => u8 c.toNat

/-- `buf[i] = v`. -/
def wr (buf : List Byte) (i : Nat) (v : Byte) : Outcome (List Byte) :=
  if i < buf.length then .ok (buf.set i v) else .ub

/-- `if (c >= 'a' && c <= 'z') c -= 'a' - 'A';` (`lib/iconv.c:58-61`). -/
def upCase (c : Byte) : Byte := if 0x61 ≤ c.toNat ∧ c.toNat ≤ 0x7a then u8 (c.toNat - 0x20) else c

/-- The loop of `reiconv_name_canonicalize` (`lib/iconv.c:55-71`) from `cp` on, with `bp` at index `i` of
`outbuf`. Simplification: for `'-'` and `'_'` the code sets `bp` back and then forward again; if the name
begins with one of them `bp` points before `outbuf` in between, which C does not allow although nothing
is accessed there. -/
def canonLoop : List Byte → List Byte → Nat → Outcome (Nat × List Byte)
  | [], _, _ => .ub
  | c0 :: cp, outbuf, i =>
    if c0 = 0 then do
      let outbuf ← wr outbuf i 0
      .ok (i, outbuf)
    else
      let c := upCase c0
      if c = 0x2d ∨ c = 0x5f then canonLoop cp outbuf i
      else do
        let outbuf ← wr outbuf i c
        canonLoop cp outbuf (i + 1)

/-- `reiconv_name_canonicalize` (`lib/iconv.c:51-73`): the result and the contents of `outbuf`. -/
def canonicalize (name outbuf : List Byte) : Outcome (Nat × List Byte) := canonLoop name outbuf 0

/-- `MAX_WORD_LENGTH` (`lib/generated/aliases.h:39`). -/
def MAX_WORD_LENGTH : Nat := 39
/-- `MIN_WORD_LENGTH` (`lib/generated/aliases.h:38`). -/
def MIN_WORD_LENGTH : Nat := 2
/-- `MAX_HASH_VALUE` (`lib/generated/aliases.h:41`). -/
def MAX_HASH_VALUE : Nat := 4067

/-- `asso_values[i]`. -/
def asso (i : Nat) : Outcome Nat :=
  match assoValues[i]? with
  | some v => .ok v
  | none => .ub

/-- One `case` of the `switch` in `aliases_hash`: `hval += asso_values[(unsigned char)str[i] + off]`. -/
def hashStep (str : List Byte) (i off hval : Nat) : Outcome Nat := do
  let c ← rd str i
  let v ← asso (c + off)
  .ok (hval + v)

/-- The `switch` in `aliases_hash` (`lib/generated/aliases.h:71-103`), entered at `case k` (`default` for
`k = 10`) and falling through. -/
def hashCases (str : List Byte) : Nat → Nat → Outcome Nat
  | 0, hval => .ok hval
  | k + 1, hval => do
    let hval ← hashStep str k (if k = 1 then 2 else if k = 5 then 4 else 0) hval
    hashCases str k hval

/-- `aliases_hash` (`lib/generated/aliases.h:49-105`). `len` is not 0 when it is called. -/
def aliasesHash (str : List Byte) (len : Nat) : Outcome Nat := do
  let hval ← hashCases str (if 1 ≤ len ∧ len ≤ 9 then len else 10) len
  hashStep str (len - 1) 0 hval

/-- `!strcmp(a, b)`. -/
def strEq : List Byte → List Byte → Outcome Bool
  | x :: a, y :: b => if x ≠ y then .ok false else if x = 0 then .ok true else strEq a b
  | _, _ => .ub

/-- `aliases[key]`, `none` for `{-1}`. -/
def aliasAt (key : Nat) : Option (String × Nat) :=
  (aliasRows.find? fun r => Nat.beq r.1 key).map (·.2)

/-- `aliases_lookup` (`lib/generated/aliases.h:4212-4231`), giving `encoding_index` of the element
found. -/
def aliasesLookup (str : List Byte) (len : Nat) : Outcome (Option Nat) := do
  if len ≤ MAX_WORD_LENGTH ∧ MIN_WORD_LENGTH ≤ len then
    let key ← aliasesHash str len
    if key ≤ MAX_HASH_VALUE then
      match aliasAt key with
      | none => .ok none
      | some (s, ei) =>
        let eq ← strEq str (lit s ++ [0])
        .ok (if eq then some ei else none)
    else .ok none
  else .ok none

/-- `reiconv_lookup_from_name` (`lib/iconv.c:75-82`). `buf` is the uninitialised local array of
`MAX_WORD_LENGTH + 2` bytes. -/
def lookupFromName (buf encoding : List Byte) : Outcome Int := do
  let (bufLen, buf) ← canonicalize encoding buf
  let ap ← aliasesLookup buf bufLen
  match ap with
  | some ei => .ok ei
  | none => .ok (-1)

/-- The size of the array `codepage_to_eindex` (`lib/codepage_to_ei.h:16-18`): one more than the largest
code page. -/
def CODEPAGE_SIZE : Nat := 65002

/-- `codepage_to_eindex[i]` for `i` in range: the designated initialisers, 0 elsewhere. -/
def codepageToEi (i : Nat) : Nat :=
  match codepages.find? fun r => Nat.beq r.1 i with
  | some r => r.2 + 1
  | none => 0

/-- `reiconv_lookup_from_codepage` (`lib/iconv.c:84-87`). -/
def lookupFromCodepage (codepage : Int) : Outcome Int :=
  if 0 ≤ codepage ∧ codepage < CODEPAGE_SIZE then .ok ((codepageToEi codepage.toNat : Int) - 1) else .ub

/-- A descriptor as `reiconv_open_from_index` fills it in: `struct conv_struct`
(`lib/reiconv_defines.h:127-142`), the functions being those of the encodings `iindex` and `oindex`. -/
structure Desc where
  iindex : Nat
  oindex : Nat
  discard : Bool
  st : St
  deriving Repr, DecidableEq

/-- `REICONV_DISCARD_ILSEQ` (`include/cppp/reiconv.h.in`). -/
def REICONV_DISCARD_ILSEQ : Nat := 1

/-- `all_encodings[i]`: the array has `ei_end` elements (`lib/all_encodings.h:30-41`). -/
def encodingAt (i : Int) : Outcome Nat := if 0 ≤ i ∧ i < ei_end then .ok i.toNat else .ub

/-- `reiconv_open_from_index` (`lib/iconv.c:89-117`). `mem`: `malloc` succeeds. -/
def openFromIndex (mem : Bool) (fromcode tocode : Int) (flags : Nat) : Outcome (Except Errno Desc) :=
  if mem then do
    let i ← encodingAt fromcode
    let o ← encodingAt tocode
    .ok (.ok ⟨i, o, Nat.testBit flags 0, St.init⟩)
  else .ok (.error .ENOMEM)

/-- `reiconv_open_from_codepage` (`lib/iconv.c:119-130`). -/
def openFromCodepage (mem : Bool) (fromcode tocode : Int) (flags : Nat) : Outcome (Except Errno Desc) := do
  let fromIndex ← lookupFromCodepage fromcode
  let toIndex ← lookupFromCodepage tocode
  if fromIndex = -1 ∨ toIndex = -1 then .ok (.error .EINVAL)
  else openFromIndex mem fromIndex toIndex flags

/-- `reiconv_open_from_name` (`lib/iconv.c:132-143`). `b1`, `b2` are the local arrays of the two calls of
`reiconv_lookup_from_name`. -/
def openFromName (mem : Bool) (b1 b2 fromcode tocode : List Byte) (flags : Nat) :
    Outcome (Except Errno Desc) := do
  let fromIndex ← lookupFromName b1 fromcode
  let toIndex ← lookupFromName b2 tocode
  if fromIndex = -1 ∨ toIndex = -1 then .ok (.error .EINVAL)
  else openFromIndex mem fromIndex toIndex flags

/-- `memcmp(buf + i, pat, pat.length) == 0`. -/
def memEq (buf : List Byte) (i : Nat) (pat : List Byte) : Outcome Bool :=
  if i + pat.length ≤ buf.length then .ok (decide ((buf.drop i).take pat.length = pat)) else .ub

/-- One of the two loops of `reiconv_open` (`lib/iconv.c:155-177`): `len - n` iterations are left, `pat` is
what `memcmp` compares with. -/
def slashLoop (pat : List Byte) (len : Nat) : Nat → Nat → List Byte → Bool → Outcome (List Byte × Bool)
  | 0, _, buf, flag => .ok (buf, flag)
  | n + 1, i, buf, flag => do
    let c ← rd buf i
    if c = 0x2f then do
      let buf ← wr buf i 0
      if i + 7 < len then do
        let eq ← memEq buf (i + 1) pat
        slashLoop pat len n (i + 1) buf (flag || eq)
      else slashLoop pat len n (i + 1) buf flag
    else slashLoop pat len n (i + 1) buf flag

/-- `"/IGNORE"`, 7 bytes. -/
def ignorePat : List Byte := [0x2f, 0x49, 0x47, 0x4e, 0x4f, 0x52, 0x45]

/-- The local arrays of `reiconv_open` and of the two calls of `reiconv_lookup_from_name`, all of
`MAX_WORD_LENGTH + 2` bytes and uninitialised. -/
structure Stack where
  fromBuf : List Byte
  toBuf : List Byte
  buf1 : List Byte
  buf2 : List Byte

/-- The arrays have their declared sizes. -/
def Stack.Sized (k : Stack) : Prop :=
  k.fromBuf.length = MAX_WORD_LENGTH + 2 ∧ k.toBuf.length = MAX_WORD_LENGTH + 2 ∧
  k.buf1.length = MAX_WORD_LENGTH + 2 ∧ k.buf2.length = MAX_WORD_LENGTH + 2

/-- `reiconv_open` (`lib/iconv.c:145-188`). -/
def openDesc (mem : Bool) (k : Stack) (tocode fromcode : List Byte) : Outcome (Except Errno Desc) := do
  let (fromLen, fromBuf) ← canonicalize fromcode k.fromBuf
  let (toLen, toBuf) ← canonicalize tocode k.toBuf
  let (fromBuf, flag) ← slashLoop (ignorePat ++ [0]) fromLen fromLen 0 fromBuf false
  let (toBuf, flag) ← slashLoop ignorePat toLen toLen 0 toBuf flag
  let fromIndex ← lookupFromName k.buf1 fromBuf
  let toIndex ← lookupFromName k.buf2 toBuf
  if fromIndex = -1 ∨ toIndex = -1 then .ok (.error .EINVAL)
  else openFromIndex mem fromIndex toIndex (if flag then REICONV_DISCARD_ILSEQ else 0)

end Reiconv
