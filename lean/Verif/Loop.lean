import Verif.Basic

/-!
# The conversion loop and the reset function (`lib/loop_unicode.h`)
-/

namespace Reiconv

/-- A converter storing `ws` at the output pointer: undefined behaviour if it stores more bytes than
there is room, or stores through a NULL pointer. -/
def Buf.store (b : Buf) (ws : List Byte) : Outcome Buf :=
  if ws = [] then .ok b
  else if b.null || decide (b.room.length < ws.length) then .ub
  else .ok { b with room := ws ++ b.room.drop ws.length }

/-- `outptr += outcount; outleft -= outcount;` guarded by the `abort()` of
`lib/loop_unicode.h:142-145`. -/
def Buf.advance (b : Buf) (n : Nat) : Outcome Buf :=
  if n ≤ b.room.length then
    .ok { b with out := b.out ++ b.room.take n, room := b.room.drop n }
  else .abort

/-- Outcome of one attempt to write a character: bytes were passed (`wrote`), or an error. -/
inductive PutRes where
  | done (irr : Nat)
  | err (e : Errno)
  deriving Repr, DecidableEq

/-- Call `cd->ofuncs.xxx_wctomb(cd, outptr, wc, outleft)`: gives the return code, the new `ostate`
and the buffer with what was stored. -/
def callWctomb (c : Conv) (os : Nat) (wc : Nat) (b : Buf) : Outcome (Int × Nat × Buf) := do
  let r ← c.enc.wctomb os wc b.room.length
  let b ← b.store r.ws
  return (r.ret.code, r.st, b)

/-- Label `outcount_ok` (`lib/loop_unicode.h:134-145`, `199-209`). -/
def outcountOk (outcount : Int) (os : Nat) (b : Buf) (irr : Nat) : Outcome (PutRes × Nat × Buf) :=
  if outcount < 0 then .ok (.err .E2BIG, os, b)
  else do
    let b ← b.advance outcount.toNat
    return (.done irr, os, b)

/-- Write one character (`lib/loop_unicode.h:115-145`, and the same code in the reset function,
`lib/loop_unicode.h:181-212`). `irr` is the increment of `result`. -/
def putChar (c : Conv) (os : Nat) (wc : Nat) (b : Buf) : Outcome (PutRes × Nat × Buf) := do
  let (oc, os, b) ← callWctomb c os wc b
  if oc ≠ RET_ILUNI then outcountOk oc os b 0
  else if wc / 128 = 0xe0000 / 128 then .ok (.done 0, os, b)   -- `goto outcount_zero`
  else if c.discard then outcountOk 0 os b 1
  else do
    let (oc, os, b) ← callWctomb c os 0xFFFD b
    if oc ≠ RET_ILUNI then outcountOk oc os b 1
    else .ok (.err .EILSEQ, os, b)

/-- What a call of `reiconv_iconv` returns and leaves behind: the return value (`error e` is
`(size_t)(-1)` with `errno = e`), the descriptor state, the unread input, the output buffer. -/
structure CallRes where
  ret : Except Errno Nat
  st : St
  inp : List Byte
  buf : Buf

/-- `inptr += incount; inleft -= incount;` guarded by the `abort()` of `lib/loop_unicode.h:148-149`. -/
def advanceIn (inp : List Byte) (incount : Int) : Outcome (List Byte) :=
  if incount ≤ inp.length then .ok (inp.drop incount.toNat) else .abort

/-- `unicode_loop_convert` (`lib/loop_unicode.h:37-158`). `fuel` bounds the number of iterations;
`result` is the counter of irreversible conversions. -/
def loopConvert (c : Conv) : Nat → St → List Byte → Buf → Nat → Outcome CallRes
  | 0, _, _, _, _ => .diverge
  | fuel + 1, s, inp, b, result =>
    if inp = [] then .ok ⟨.ok result, s, inp, b⟩
    else do
      let lastIstate := s.is.st
      let (r, is) ← c.dec.mbtowc s.is inp
      let incount := r.code
      if incount < 0 then
        if (-1 - incount) % 2 = (-1 - RET_ILSEQ) % 2 then
          -- Case 1: invalid input, possibly after a shift sequence
          let incount := DECODE_SHIFT_ILSEQ incount
          if c.discard then
            let inp ← advanceIn inp (incount + c.unit)
            loopConvert c fuel ⟨is, s.os⟩ inp b result
          else
            -- no `abort()` guard on this path: going past the end is undefined behaviour
            if incount ≤ inp.length then
              .ok ⟨.error .EILSEQ, ⟨is, s.os⟩, inp.drop incount.toNat, b⟩
            else .ub
        else if incount = RET_TOOFEW 0 then
          -- Case 2: not enough bytes available to detect anything
          .ok ⟨.error .EINVAL, ⟨is, s.os⟩, inp, b⟩
        else
          -- Case 3: k bytes read, but only a shift sequence
          let incount := DECODE_TOOFEW incount
          let inp ← advanceIn inp incount
          loopConvert c fuel ⟨is, s.os⟩ inp b result
      else
        -- Case 4: k bytes read, making up a wide character
        if b.room.length = 0 then
          .ok ⟨.error .E2BIG, ⟨{ is with st := lastIstate }, s.os⟩, inp, b⟩
        else do
          let (p, os, b) ← putChar c s.os r.wc b
          match p with
          | .err e => .ok ⟨.error e, ⟨{ is with st := lastIstate }, os⟩, inp, b⟩
          | .done irr =>
            let inp ← advanceIn inp incount
            loopConvert c fuel ⟨is, os⟩ inp b (result + irr)

/-- Zero `istate` and `ostate`; `ibyteorder` is kept (`lib/loop_unicode.h:166-167`, `230-231`). -/
def St.clear (s : St) : St := ⟨{ s.is with st := 0 }, 0⟩

/-- Second half of the reset function: the output reset sequence (`lib/loop_unicode.h:215-232`). -/
def resetOut (c : Conv) (s : St) (b : Buf) (result : Nat) : Outcome CallRes :=
  match c.enc.reset with
  | none => .ok ⟨.ok result, s.clear, [], b⟩
  | some f => do
    let r ← f s.os b.room.length
    let b ← b.store r.ws
    if r.ret.code < 0 then .ok ⟨.error .E2BIG, ⟨s.is, r.st⟩, [], b⟩
    else do
      let b ← b.advance r.ret.code.toNat
      return ⟨.ok result, s.clear, [], b⟩

/-- `unicode_loop_reset` with a non-NULL `outbuf` argument (`lib/loop_unicode.h:160-234`); `b.null`
is `*outbuf == NULL`. -/
def loopReset (c : Conv) (s : St) (b : Buf) : Outcome CallRes :=
  if b.null then .ok ⟨.ok 0, s.clear, [], b⟩
  else
    match c.dec.flushwc with
    | none => resetOut c s b 0
    | some f =>
      let lastIstate := s.is.st
      let (wc, is) := f s.is
      match wc with
      | none => resetOut c ⟨is, s.os⟩ b 0
      | some wc => do
        let (p, os, b) ← putChar c s.os wc b
        match p with
        | .err e => .ok ⟨.error e, ⟨{ is with st := lastIstate }, os⟩, [], b⟩
        | .done irr => resetOut c ⟨is, os⟩ b irr

/-- `unicode_loop_reset` with `outbuf == NULL` (`lib/loop_unicode.h:163-169`): returns 0. -/
def plainReset (s : St) : St := s.clear

end Reiconv
