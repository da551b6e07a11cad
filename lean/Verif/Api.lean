import Verif.Loop

/-!
# The conversion API (`lib/iconv.c:190-299`)
-/

namespace Reiconv

/-- `reiconv_iconv` (`lib/iconv.c:190-197`). `inp = none`: `inbuf` or `*inbuf` is NULL; `out = none`:
`outbuf` is NULL. With input but a NULL `outbuf` the loop dereferences NULL
(`lib/loop_unicode.h:44`). The loop needs at most `2 * inbytesleft + 1` iterations, see
`loop_spec`. -/
def iconv (c : Conv) (s : St) (inp : Option (List Byte)) (out : Option Buf) : Outcome CallRes :=
  match inp, out with
  | none, none => .ok ⟨.ok 0, plainReset s, [], ⟨true, [], []⟩⟩
  | none, some b => loopReset c s b
  | some _, none => .ub
  | some i, some b => loopConvert c (2 * i.length + 2) s i b 0

/-- `TEMP_BUFFER_SIZE` (`lib/iconv.c:47`). -/
def TEMP_BUFFER_SIZE : Nat := 4096

/-- `tmpbuf` of `reiconv_result_size` (`lib/iconv.c:208`) at the start of a loop iteration.
Simplification: its contents are uninitialised in C and never read back; here they are zeros. -/
def tmpbuf : Buf := ⟨false, [], List.replicate TEMP_BUFFER_SIZE 0⟩

/-- End of `reiconv_result_size`, after the loop (`lib/iconv.c:226-236`). -/
def resultSizeFlush (c : Conv) (s : St) (count : Nat) : Outcome (Except Errno Nat × St) := do
  let r ← iconv c s none (some tmpbuf)
  let r2 ← iconv c r.st none none
  match r.ret with
  | .error e => .ok (.error e, r2.st)
  | .ok _ => .ok (.ok (count + r.buf.out.length), r2.st)

/-- The loop of `reiconv_result_size` (`lib/iconv.c:211-225`). Simplification: `count` does not wrap
(it is a `size_t`, the model has no bound on it). -/
def resultSizeLoop (c : Conv) : Nat → St → List Byte → Nat → Outcome (Except Errno Nat × St)
  | 0, _, _, _ => .diverge
  | fuel + 1, s, inp, count =>
    if inp = [] then resultSizeFlush c s count
    else do
      let r ← iconv c s (some inp) (some tmpbuf)
      match r.ret with
      | .ok _ => resultSizeLoop c fuel r.st r.inp (count + r.buf.out.length)
      | .error .E2BIG => resultSizeLoop c fuel r.st r.inp (count + r.buf.out.length)
      | .error .EINVAL => .ok (.error .EILSEQ, r.st)
      | .error e => .ok (.error e, r.st)

/-- `reiconv_result_size` (`lib/iconv.c:205-237`) with a non-NULL `start`. -/
def resultSize (c : Conv) (s : St) (inp : List Byte) : Outcome (Except Errno Nat × St) :=
  resultSizeLoop c (2 * inp.length + 3) s inp 0

/-- End of `reiconv_convert_static_size`, after the loop (`lib/iconv.c:261-265`). -/
def staticFlush (c : Conv) (s : St) (b : Buf) : Outcome (Except Errno Unit × St × Buf) := do
  let r ← iconv c s none (some b)
  match r.ret with
  | .error e => .ok (.error e, r.st, r.buf)
  | .ok _ => .ok (.ok (), r.st, r.buf)

/-- The loop of `reiconv_convert_static_size` (`lib/iconv.c:246-260`). -/
def staticLoop (c : Conv) : Nat → St → List Byte → Buf → Outcome (Except Errno Unit × St × Buf)
  | 0, _, _, _ => .diverge
  | fuel + 1, s, inp, b =>
    if inp = [] then staticFlush c s b
    else do
      let r ← iconv c s (some inp) (some b)
      match r.ret with
      | .ok _ => staticLoop c fuel r.st r.inp r.buf
      | .error .EINVAL => staticFlush c r.st r.buf
      | .error e => .ok (.error e, r.st, r.buf)

/-- `reiconv_convert_static_size` (`lib/iconv.c:239-266`) with a non-NULL `input_data`. The result is
the return value, the descriptor state and the output buffer; the caller sees `out ++ room`. -/
def convertStatic (c : Conv) (s : St) (inp : List Byte) (b : Buf) :
    Outcome (Except Errno Unit × St × Buf) :=
  staticLoop c 2 s inp b

/-- What `reiconv_convert` leaves behind: return value, descriptor state, the length stored in
`*output_length_ptr` if any, and the block `*output_data_ptr` points to (`none`: NULL or never
assigned). -/
structure ConvertRes where
  ret : Except Errno Unit
  st : St
  outLen : Option Nat
  data : Option (List Byte)

/-- `reiconv_convert` (`lib/iconv.c:268-299`). `dataPtr`: `output_data_ptr` is not NULL; `lenPtr`:
`output_length_ptr` is not NULL; `alloc n`: the contents of the block that `malloc(n)` or
`realloc(_, n)` gives, `none` for NULL. -/
def convert (c : Conv) (s : St) (inp : List Byte) (dataPtr lenPtr : Bool)
    (alloc : Nat → Option (List Byte)) : Outcome ConvertRes := do
  let (sz, s) ← resultSize c s inp
  match sz with
  | .error e => .ok ⟨.error e, s, none, none⟩
  | .ok n =>
    let len := if lenPtr then some n else none
    if !dataPtr then .ok ⟨.error .EINVAL, s, len, none⟩
    else do
      let b : Buf := match alloc n with
        | some m => ⟨false, [], m⟩
        | none => ⟨true, [], List.replicate n 0⟩
      let (r, s, b) ← convertStatic c s inp b
      match r with
      | .error e => .ok ⟨.error e, s, len, none⟩
      | .ok _ => .ok ⟨.ok (), s, len, if b.null then none else some (b.out ++ b.room)⟩

end Reiconv
