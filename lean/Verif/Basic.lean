/-!
# Basic vocabulary of the model

Outcomes of C code, bytes, converter return codes, decoders and encoders, and the conversion
descriptor. Models `lib/reiconv_defines.h`.
-/

namespace Reiconv

/-- Result of running a piece of C code: a value, undefined behaviour (an out-of-bounds access),
a call of `abort()`, or no return within the step bound of a loop. -/
inductive Outcome (α : Type) where
  | ok (a : α)
  | ub
  | abort
  | diverge
  deriving Repr, DecidableEq

namespace Outcome

@[inline] def bind {α β : Type} (x : Outcome α) (f : α → Outcome β) : Outcome β :=
  match x with
  | ok a => f a
  | ub => ub
  | abort => abort
  | diverge => diverge

instance : Monad Outcome where
  pure := ok
  bind := bind

/-- The code returned normally. -/
def isOk {α : Type} : Outcome α → Bool
  | ok _ => true
  | _ => false

@[simp] theorem pure_eq {α : Type} (a : α) : (pure a : Outcome α) = ok a := rfl
@[simp] theorem bind_ok {α β : Type} (a : α) (f : α → Outcome β) : (ok a >>= f) = f a := rfl
@[simp] theorem bind_ub {α β : Type} (f : α → Outcome β) : ((ub : Outcome α) >>= f) = ub := rfl
@[simp] theorem bind_abort {α β : Type} (f : α → Outcome β) :
    ((abort : Outcome α) >>= f) = abort := rfl
@[simp] theorem bind_diverge {α β : Type} (f : α → Outcome β) :
    ((diverge : Outcome α) >>= f) = diverge := rfl

end Outcome

/-- A byte, `unsigned char`. -/
abbrev Byte := UInt8

/-- Conversion to `unsigned char` (truncation modulo 256), as in `*r = (unsigned char)x`. -/
@[inline] def u8 (x : Nat) : Byte := UInt8.ofNat x

@[simp] theorem u8_toNat (x : Nat) : (u8 x).toNat = x % 256 := by
  simp [u8]

/-- Reading `s[i]` when `s` has `s.length` readable bytes: undefined behaviour out of bounds. -/
@[inline] def rd (s : List Byte) (i : Nat) : Outcome Nat :=
  match s[i]? with
  | some b => .ok b.toNat
  | none => .ub

@[simp] theorem rd_zero (b : Byte) (s : List Byte) : rd (b :: s) 0 = .ok b.toNat := rfl
@[simp] theorem rd_succ (b : Byte) (s : List Byte) (i : Nat) : rd (b :: s) (i + 1) = rd s i := by
  simp [rd]

/-- Input side state of a descriptor: `conv_struct.ibyteorder` and `conv_struct.istate`
(`lib/reiconv_defines.h:133-134`). -/
structure IState where
  bo : Nat
  st : Nat
  deriving Repr, DecidableEq

/-- The initial input state (`lib/iconv.c:109-111`). -/
def IState.init : IState := ⟨0, 0⟩

/-- Return value of an `xxx_mbtowc` function, structured. `char wc n`: `n` bytes read, making up
the wide character `wc`; `ilseq k`: `RET_SHIFT_ILSEQ(k)`; `toofew k`: `RET_TOOFEW(k)`. -/
inductive MbRet where
  | char (wc cnt : Nat)
  | ilseq (k : Nat)
  | toofew (k : Nat)
  deriving Repr, DecidableEq

/-- `RET_SHIFT_ILSEQ(n)` (`lib/reiconv_defines.h:75`). -/
def RET_SHIFT_ILSEQ (n : Int) : Int := -1 - 2 * n
/-- `RET_ILSEQ` (`lib/reiconv_defines.h:78`). -/
def RET_ILSEQ : Int := RET_SHIFT_ILSEQ 0
/-- `RET_TOOFEW(n)` (`lib/reiconv_defines.h:81`). -/
def RET_TOOFEW (n : Int) : Int := -2 - 2 * n
/-- `DECODE_SHIFT_ILSEQ(r)` (`lib/reiconv_defines.h:84`); the argument of the cast is never negative
where the macro is used. -/
def DECODE_SHIFT_ILSEQ (r : Int) : Int := (RET_SHIFT_ILSEQ 0 - r) / 2
/-- `DECODE_TOOFEW(r)` (`lib/reiconv_defines.h:86`). -/
def DECODE_TOOFEW (r : Int) : Int := (RET_TOOFEW 0 - r) / 2
/-- `RET_COUNT_MAX` (`lib/reiconv_defines.h:89`) for a 32 bit `int`. -/
def RET_COUNT_MAX : Nat := 2147483647 / 2 - 1
/-- `INT_MAX` for a 32 bit `int`. -/
def INT_MAX : Nat := 2147483647

/-- The C `int` an `xxx_mbtowc` function returns. -/
def MbRet.code : MbRet → Int
  | .char _ n => n
  | .ilseq k => RET_SHIFT_ILSEQ k
  | .toofew k => RET_TOOFEW k

/-- The character stored in `*pwc` (0 if none was stored; the loop only reads it after a
non-negative return). -/
def MbRet.wc : MbRet → Nat
  | .char w _ => w
  | _ => 0

/-- Return value of an `xxx_wctomb` or `xxx_reset` function, structured. -/
inductive WcRet where
  | wrote (n : Nat)
  | iluni
  | toosmall
  deriving Repr, DecidableEq

/-- `RET_ILUNI` (`lib/reiconv_defines.h:119`). -/
def RET_ILUNI : Int := -1
/-- `RET_TOOSMALL` (`lib/reiconv_defines.h:122`). -/
def RET_TOOSMALL : Int := -2

/-- The C `int` an `xxx_wctomb` function returns. -/
def WcRet.code : WcRet → Int
  | .wrote n => n
  | .iluni => RET_ILUNI
  | .toosmall => RET_TOOSMALL

/-- Everything an `xxx_wctomb` call did: return value, the bytes it stored at `r[0], r[1], …`
(including bytes stored before returning an error), and the new `conv->ostate`.
Simplification: the order in which the bytes are stored is not modelled, all converters fill a
prefix of `r`. -/
structure WcRes where
  ret : WcRet
  ws : List Byte
  st : Nat
  deriving Repr, DecidableEq

/-- Input functions of an encoding, `struct mbtowc_funcs` (`lib/reiconv_defines.h:49-72`).
`mbtowc is s`: `s` is the input from the read position on, `n = s.length`.
Simplification: `flushwc` never fails in any converter, so it is a plain function; it gives the
pending character, if any, and the new state. -/
structure Decoder where
  mbtowc : IState → List Byte → Outcome (MbRet × IState)
  flushwc : Option (IState → Option Nat × IState)

/-- Output functions of an encoding, `struct wctomb_funcs` (`lib/reiconv_defines.h:94-117`).
`wctomb os wc n`, `reset os n` with `n` the room at `r`. -/
structure Encoder where
  wctomb : Nat → Nat → Nat → Outcome WcRes
  reset : Option (Nat → Nat → Outcome WcRes)

/-- Stored `bs` and returned their number. -/
@[inline] def WcRes.put (bs : List Byte) (st : Nat) : WcRes := ⟨.wrote bs.length, bs, st⟩
/-- Returned `RET_ILUNI` without storing anything. -/
@[inline] def WcRes.iluni (st : Nat) : WcRes := ⟨.iluni, [], st⟩
/-- Returned `RET_TOOSMALL` without storing anything. -/
@[inline] def WcRes.small (st : Nat) : WcRes := ⟨.toosmall, [], st⟩

/-- The `errno` values set by the library. -/
inductive Errno where
  | E2BIG | EILSEQ | EINVAL | ENOMEM
  deriving Repr, DecidableEq

/-- The constant part of a descriptor, `struct conv_struct` (`lib/reiconv_defines.h:127-142`), as
set up by `reiconv_open_from_index` (`lib/iconv.c:89-117`). `unit` is what the `switch (cd->iindex)`
of the loop (`lib/loop_unicode.h:60-84`) adds for the input encoding. -/
structure Conv where
  dec : Decoder
  enc : Encoder
  unit : Nat
  discard : Bool

/-- The changing part of a descriptor. -/
structure St where
  is : IState
  os : Nat
  deriving Repr, DecidableEq

/-- State of a newly opened descriptor (`lib/iconv.c:108-111`). -/
def St.init : St := ⟨IState.init, 0⟩

/-- An output buffer during a conversion: whether the pointer is NULL, the bytes already passed by
the output pointer, and the memory contents from the output pointer to the end of the buffer
(so `outbytesleft = room.length`). -/
structure Buf where
  null : Bool
  out : List Byte
  room : List Byte
  deriving Repr, DecidableEq

deriving instance DecidableEq for Except

end Reiconv
