import Verif.Props.OneShot
import Verif.Lookup

/-!
# Programs with many descriptors: the heap

The functions of `lib/iconv.c` that allocate and free memory, on a heap. A program holds handles (the descriptors it
opened and did not close) and pointer variables (the `char *` whose addresses it passes to `reiconv_convert` as
`output_data_ptr`).
-/

namespace Reiconv

/-- Contents of a block of heap memory. -/
inductive Obj where
  | desc (d : Desc)
  | data (bs : List Byte)

/-- Heap and pointer variables. Addresses are numbers, 0 is NULL. `heap a`: the block that begins at `a`, if it is
allocated. `var v`: the value of the pointer variable number `v`. -/
structure World where
  heap : Nat → Option Obj
  var : Nat → Nat

/-- No memory is allocated, all pointers are NULL. -/
def World.start : World := ⟨fun _ => none, fun _ => 0⟩

/-- Change one value of a function. -/
def setAt {α : Type} (f : Nat → α) (a : Nat) (x : α) : Nat → α := fun b => if b = a then x else f b

/-- What the allocator gives: a block at the address `addr` with the contents `bytes`. -/
structure Grant where
  addr : Nat
  bytes : List Byte

/-- `free(a)`: nothing for NULL, undefined behaviour if `a` is not the address of an allocated block. -/
def World.free (w : World) (a : Nat) : Outcome World :=
  if a = 0 then .ok w
  else
    match w.heap a with
    | some _ => .ok { w with heap := setAt w.heap a none }
    | none => .ub

/-- `malloc(n)`; `got` is what the allocator gives, `none`: NULL. -/
def World.malloc (w : World) (got : Option Grant) : Nat × World :=
  match got with
  | some g => (g.addr, { w with heap := setAt w.heap g.addr (some (.data g.bytes)) })
  | none => (0, w)

/-- `realloc(a, n)` with `a` not NULL: undefined behaviour if `a` is not allocated. If the allocator gives a block, the
old one is gone (its address may be the same); if it gives none, the old one stays, except that `realloc(a, 0)`
frees it, as in glibc. Simplification: the contents of the new block are whatever `got` says; in C the beginning is
that of the old block. -/
def World.realloc (w : World) (a n : Nat) (got : Option Grant) : Outcome (Nat × World) :=
  match w.heap a with
  | some (.data _) =>
    let gone := { w with heap := setAt w.heap a none }
    match got with
    | some g => .ok (gone.malloc (some g))
    | none => .ok (0, if n = 0 then gone else w)
  | _ => .ub

/-- A call on a descriptor. In `convert`, `v` is the pointer variable whose address is `output_data_ptr` (`none`: that
argument is NULL), `got n` is what the allocator gives for `n` bytes. -/
inductive HCall where
  | iconv (inp : Option (List Byte)) (out : Option Buf)
  | size (inp : List Byte)
  | static (inp : List Byte) (b : Buf)
  | convert (inp : List Byte) (v : Option Nat) (lenPtr : Bool) (got : Nat → Option Grant)

/-- The call, as far as it can be seen without the heap. -/
def HCall.toCall : HCall → Call
  | .iconv inp out => .iconv inp out
  | .size inp => .size inp
  | .static inp b => .static inp b
  | .convert inp v lp got => .convert inp v.isSome lp (fun n => (got n).map (·.bytes))

/-- The allocation in `reiconv_convert` (`lib/iconv.c:288-289`), for the variable `v` and `n` bytes: the new value of the
variable. -/
def World.allocOut (w : World) (v n : Nat) (got : Option Grant) : Outcome (Nat × World) :=
  if w.var v = 0 then .ok (w.malloc got) else w.realloc (w.var v) n got

/-- `reiconv_convert` (`lib/iconv.c:268-299`) with its effects on the heap and on `*output_data_ptr`. -/
def convertHeap (c : Conv) (s : St) (inp : List Byte) (v : Option Nat) (lenPtr : Bool) (got : Nat → Option Grant)
    (w : World) : Outcome (Reply × St × World) := do
  let (sz, s) ← resultSize c s inp
  match sz with
  | .error e => .ok (.convert (.error e) none none, s, w)
  | .ok n =>
    let len := if lenPtr then some n else none
    match v with
    | none => .ok (.convert (.error .EINVAL) len none, s, w)
    | some v => do
      let (p, w) ← w.allocOut v n (got n)
      let w := { w with var := setAt w.var v p }
      let b : Buf := match got n with
        | some g => ⟨false, [], g.bytes⟩
        | none => ⟨true, [], List.replicate n 0⟩
      let (r, s, b) ← convertStatic c s inp b
      match r with
      | .error e => do
        let w ← w.free p
        .ok (.convert (.error e) len none, s, { w with var := setAt w.var v 0 })
      | .ok _ =>
        if b.null then .ok (.convert (.ok ()) len none, s, w)
        else .ok (.convert (.ok ()) len (some (b.out ++ b.room)), s,
          { w with heap := setAt w.heap p (some (.data (b.out ++ b.room))) })

/-- A call on a descriptor with its effects on the heap: only `reiconv_convert` has any. -/
def onDesc (c : Conv) (s : St) (w : World) : HCall → Outcome (Reply × St × World)
  | .convert inp v lp got => convertHeap c s inp v lp got w
  | k => do
    let (a, s) ← k.toCall.reply c s
    .ok (a, s, w)

/-- A call of the library, or `free(v); v = NULL;` by the program (`release`). `addr` is the address `malloc` gives for a
descriptor, 0 if it fails. -/
inductive ApiCall where
  | open (fromcode tocode : Int) (flags addr : Nat)
  | on (h : Nat) (k : HCall)
  | close (h : Nat)
  | release (v : Nat)

/-- What the program sees of a call. -/
inductive ApiReply where
  | opened (r : Except Errno Nat)
  | on (r : Reply)
  | closed (ret : Int)
  | released

variable (lib : Nat → Nat → Bool → Conv)

/-- A call. `lib i o discard`: the functions of a descriptor from encoding number `i` to number `o`. `open` is
`reiconv_open_from_index` (`lib/iconv.c:89-117`), the other ways to open a descriptor end with a call of it; `close` is
`reiconv_handle_close` (`lib/iconv.c:199-203`). The calls on a descriptor find their state in it and leave it there. -/
def step (w : World) : ApiCall → Outcome (ApiReply × World)
  | .open f t flags addr => do
    let r ← openFromIndex (addr != 0) f t flags
    match r with
    | .error e => .ok (.opened (.error e), w)
    | .ok d => .ok (.opened (.ok addr), { w with heap := setAt w.heap addr (some (.desc d)) })
  | .on h k =>
    match w.heap h with
    | some (.desc d) => do
      let (a, s, w) ← onDesc (lib d.iindex d.oindex d.discard) d.st w k
      .ok (.on a, { w with heap := setAt w.heap h (some (.desc { d with st := s })) })
    | _ => .ub
  | .close h => do
    let w ← w.free h
    .ok (.closed 0, w)
  | .release v => do
    let w ← w.free (w.var v)
    .ok (.released, { w with var := setAt w.var v 0 })

/-! ## Programs -/

/-- The handles a program holds after a call: those that were returned to it and that it did not close. -/
def heldAfter (held : List Nat) : ApiCall → ApiReply → List Nat
  | _, .opened (.ok h) => h :: held
  | .close h, _ => held.filter (· != h)
  | _, _ => held

/-- The program uses only handles that it holds. -/
def ApiCall.Uses (held : List Nat) : ApiCall → Prop
  | .on h _ => h ∈ held
  | .close h => h ∈ held
  | _ => True

/-- The allocator works: an address it gives is not NULL and not that of an allocated block, and blocks have the size
asked for. `old` is the block that `realloc` replaces; its address may be given again. -/
def Granted (w : World) (old n : Nat) (g : Grant) : Prop :=
  g.addr ≠ 0 ∧ (w.heap g.addr = none ∨ g.addr = old) ∧ g.bytes.length = n

/-- The allocator works during the call, and there is memory for the results of `reiconv_convert`. -/
def ApiCall.Allocates (w : World) : ApiCall → Prop
  | .open _ _ _ addr => w.heap addr = none
  | .on _ (.convert _ (some v) _ got) => ∀ n, (∀ g, got n = some g → Granted w (w.var v) n g) ∧ (0 < n → got n ≠ none)
  | _ => True

/-- `Trace lib w held t w' held'`: a program that holds the handles `held` makes the calls of `t` and gets the replies of
`t`. -/
inductive Trace : World → List Nat → List (ApiCall × ApiReply) → World → List Nat → Prop
  | nil (w held) : Trace w held [] w held
  | cons {w held k a w1 t w2 held2} : k.Uses held → k.Allocates w → step lib w k = .ok (a, w1) →
      Trace w1 (heldAfter held k a) t w2 held2 → Trace w held ((k, a) :: t) w2 held2

end Reiconv
