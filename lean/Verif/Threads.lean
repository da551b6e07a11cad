import Verif.World

/-!
# Threads that share the memory

Several threads convert at the same time. Here a conversion is not one step, as in `Verif.World`, but many: one for each
call of a function of a converter, and the steps of the threads come in any order. The memory is one array of bytes and
the descriptors, and is shared by all threads; a thread has no other memory but the local variables of
`unicode_loop_convert`. (The library has no writable static variables, and `errno` is one per thread.)
-/

namespace Reiconv.Threads

/-- The memory: bytes by address, and the states of the descriptors (`istate`, `ibyteorder`, `ostate`; the other fields
of `struct conv_struct` are never written after the descriptor was opened) by handle. -/
structure Mem where
  byte : Nat → Byte
  desc : Nat → St

/-- The `n` bytes from the address `p` on. -/
def Mem.read (m : Mem) (p n : Nat) : List Byte := (List.range n).map fun i => m.byte (p + i)

/-- Store the bytes `ws` at the address `p` and the following ones. -/
def Mem.write (m : Mem) (p : Nat) (ws : List Byte) : Mem :=
  { m with byte := fun a => if p ≤ a then (ws[a - p]?).getD (m.byte a) else m.byte a }

/-- Change the state of the descriptor `h`. -/
def Mem.setDesc (m : Mem) (h : Nat) (s : St) : Mem := { m with desc := setAt m.desc h s }

/-- The descriptor, and the local variables `inptr`, `inleft`, `outptr`, `outleft` of `unicode_loop_convert`
(`lib/loop_unicode.h:40-45`). -/
structure Io where
  cd : Nat
  inptr : Nat
  inleft : Nat
  outptr : Nat
  outleft : Nat
  deriving DecidableEq

/-- Where a thread is. `top`: at the `while` of `unicode_loop_convert` (`lib/loop_unicode.h:46`); `put`: `mbtowc` has
returned the character `wc` and the count `n`, next is the call of `wctomb` (line 115); `subst`: `wctomb` has returned
`RET_ILUNI`, next is the call of `wctomb` with U+FFFD (line 126); `ret`: the loop is over, next are the assignments to the
arguments and the `return` (lines 152-157); `idle`: not in a call of the library; `bad`: undefined behaviour or `abort()`.
`res` is the counter `result`, `last` is `last_istate`. -/
inductive Pc where
  | idle
  | top (j : Io) (res : Nat)
  | put (j : Io) (res last wc : Nat) (n : Int)
  | subst (j : Io) (res last : Nat) (n : Int)
  | ret (r : Except Errno Nat) (j : Io)
  | bad

/-- `inptr += incount; inleft -= incount;` guarded by the `abort()` of `lib/loop_unicode.h:148-149`. -/
def Io.skip (j : Io) (n : Int) : Outcome Io :=
  if n ≤ j.inleft then .ok { j with inptr := j.inptr + n.toNat, inleft := j.inleft - n.toNat } else .abort

/-- `cd->istate = last_istate;`. -/
def Mem.restore (m : Mem) (h last : Nat) : Mem := m.setDesc h ⟨{ (m.desc h).is with st := last }, (m.desc h).os⟩

/-- The call of `cd->ofuncs.xxx_wctomb(cd, outptr, wc, outleft)`: the return code and the memory after it. -/
def wctombAt (c : Conv) (m : Mem) (j : Io) (wc : Nat) : Outcome (Int × Mem) := do
  let r ← c.enc.wctomb (m.desc j.cd).os wc j.outleft
  if j.outleft < r.ws.length then .ub
  else .ok (r.ret.code, (m.write j.outptr r.ws).setDesc j.cd ⟨(m.desc j.cd).is, r.st⟩)

/-- From `outcount_ok` on (`lib/loop_unicode.h:134-150`). -/
def countOk (m : Mem) (j : Io) (res last : Nat) (n oc : Int) : Outcome (Mem × Pc) :=
  if oc < 0 then .ok (m.restore j.cd last, .ret (.error .E2BIG) j)
  else if oc.toNat ≤ j.outleft then do
    let j ← { j with outptr := j.outptr + oc.toNat, outleft := j.outleft - oc.toNat : Io }.skip n
    .ok (m, .top j res)
  else .abort

/-- One step inside a call of `unicode_loop_convert` (`lib/loop_unicode.h:37-158`): up to the next call of a function of a
converter, and that call. Simplification: the call of a function of a converter is one step; it reads the input and writes
the output and the descriptor at one moment. -/
def stepCall (c : Conv) (m : Mem) : Pc → Outcome (Mem × Pc)
  | .top j res =>
    if j.inleft = 0 then .ok (m, .ret (.ok res) j)
    else do
      let last := (m.desc j.cd).is.st
      let (r, is) ← c.dec.mbtowc (m.desc j.cd).is (m.read j.inptr j.inleft)
      let m := m.setDesc j.cd ⟨is, (m.desc j.cd).os⟩
      let incount := r.code
      if incount < 0 then
        if (-1 - incount) % 2 = (-1 - RET_ILSEQ) % 2 then
          let incount := DECODE_SHIFT_ILSEQ incount
          if c.discard then do
            let j ← j.skip (incount + c.unit)
            .ok (m, .top j res)
          else if incount ≤ j.inleft then
            .ok (m, .ret (.error .EILSEQ)
              { j with inptr := j.inptr + incount.toNat, inleft := j.inleft - incount.toNat })
          else .ub
        else if incount = RET_TOOFEW 0 then .ok (m, .ret (.error .EINVAL) j)
        else do
          let j ← j.skip (DECODE_TOOFEW incount)
          .ok (m, .top j res)
      else if j.outleft = 0 then .ok (m.restore j.cd last, .ret (.error .E2BIG) j)
      else .ok (m, .put j res last r.wc incount)
  | .put j res last wc n => do
    let (oc, m) ← wctombAt c m j wc
    if oc ≠ RET_ILUNI then countOk m j res last n oc
    else if wc / 128 = 0xe0000 / 128 then do
      let j ← j.skip n
      .ok (m, .top j res)
    else if c.discard then countOk m j (res + 1) last n 0
    else .ok (m, .subst j res last n)
  | .subst j res last n => do
    let (oc, m) ← wctombAt c m j 0xFFFD
    if oc ≠ RET_ILUNI then countOk m j (res + 1) last n oc
    else .ok (m.restore j.cd last, .ret (.error .EILSEQ) j)
  | _ => .ub

/-- What a thread does next: a call of `reiconv_iconv` with input and output, a call of `reiconv_iconv` without input
(`none`: the argument `outbuf` is NULL; else the output pointer and the bytes left), storing bytes, reading bytes. -/
inductive Act where
  | call (j : Io)
  | reset (h : Nat) (out : Option (Nat × Nat))
  | store (p : Nat) (bs : List Byte)
  | load (p n : Nat)

/-- What the thread sees of it: the return value and the values of the pointers and counters after the call, the bytes
read. -/
inductive Seen where
  | called (r : Except Errno Nat) (j : Io)
  | reset (r : Except Errno Nat) (out : Option (Nat × Nat))
  | stored
  | loaded (bs : List Byte)

/-- A thread: where it is, and what it has seen so far. -/
structure Thread where
  pc : Pc
  log : List Seen

/-- The program of a thread: what to do next, given what it has seen so far; `none`: it is over. -/
abbrev Prog := List Seen → Option Act

/-- `reiconv_iconv` without input (`lib/loop_unicode.h:160-234`). Simplification: one step. -/
def resetAt (c : Conv) (m : Mem) (h : Nat) : Option (Nat × Nat) → Outcome (Seen × Mem)
  | none => do
    let r ← iconv c (m.desc h) none none
    .ok (.reset r.ret none, m.setDesc h r.st)
  | some (p, n) => do
    let r ← iconv c (m.desc h) none (some ⟨false, [], m.read p n⟩)
    .ok (.reset r.ret (some (p + r.buf.out.length, r.buf.room.length)),
      (m.write p (r.buf.out ++ r.buf.room)).setDesc h r.st)

/-- One step of a thread. `conv h`: the functions of the descriptor `h`. -/
def stepThread (conv : Nat → Conv) (prog : Prog) (m : Mem) (t : Thread) : Mem × Thread :=
  match t.pc with
  | .idle =>
    match prog t.log with
    | none => (m, t)
    | some (.call j) => (m, ⟨.top j 0, t.log⟩)
    | some (.reset h out) =>
      match resetAt (conv h) m h out with
      | .ok (a, m) => (m, ⟨.idle, t.log ++ [a]⟩)
      | _ => (m, ⟨.bad, t.log⟩)
    | some (.store p bs) => (m.write p bs, ⟨.idle, t.log ++ [.stored]⟩)
    | some (.load p n) => (m, ⟨.idle, t.log ++ [.loaded (m.read p n)]⟩)
  | .ret r j => (m, ⟨.idle, t.log ++ [.called r j]⟩)
  | .bad => (m, t)
  | .top j _ | .put j .. | .subst j .. =>
    match stepCall (conv j.cd) m t.pc with
    | .ok (m, pc) => (m, ⟨pc, t.log⟩)
    | _ => (m, ⟨.bad, t.log⟩)

/-- All threads run: `sched` says whose step comes next. -/
def runAll (conv : Nat → Conv) (prog : Nat → Prog) : List Nat → Mem → (Nat → Thread) → Mem × (Nat → Thread)
  | [], m, ts => (m, ts)
  | i :: sched, m, ts =>
    let (m, t) := stepThread conv (prog i) m (ts i)
    runAll conv prog sched m (setAt ts i t)

end Reiconv.Threads
