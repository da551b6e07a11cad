import Verif.Codec.Tree
import Verif.SingleByte

/-!
# Two-byte character sets

The functions `X_mbtowc`, `X_wctomb` of the two-byte character sets in `lib/converters` all have the
same form, produced by the table generators of the original project. Decoding: tests on the two
bytes, an index `i` computed from them, a chain of tests on `i` selecting a table. Encoding: a chain of
tests on `wc` selecting a table of `Summary16` blocks (which characters of a block of 16 are in the
set, and the index of the first one in the array of codes), or a table of codes.
`CsDec` and `CsEnc` are the data of such functions; the data of each character set are in
`Verif/Gen/Cs*.lean`, produced from the C text by `tools/gencs.py`.
Simplification: the order of the tests in the C chains is normalised to disjoint increasing ranges.
-/

namespace Reiconv

/-- A range of byte values `lo ≤ c < hi`, and what is subtracted from them in the index. -/
structure Span where
  lo : Nat
  hi : Nat
  sub : Nat

/-- `c - sub` for the range `c` is in. -/
def spanFind : List Span → Nat → Option Nat
  | [], _ => none
  | r :: rs, c => if r.lo ≤ c ∧ c < r.hi then some (c - r.sub) else spanFind rs c

inductive SegKind where
  /-- `wc = i - lo + base` -/
  | add (base : Nat)
  /-- `wc = T[i - off]`; 0xfffd means `RET_ILSEQ` -/
  | tab (t : Tab) (off : Nat)
  /-- `swc = T[i - off], wc = U[swc >> sh] | (swc & (2^sh - 1))`; 0xfffd means `RET_ILSEQ` -/
  | pages (t : Tab) (off : Nat) (u : Tab) (sh : Nat)
  /-- `wc = V[2 * row + (col >= d ? 1 : 0)] + T[i]` where `i = 2 * d * row + col` and `col < 2 * d`, so that
  the first index is `i / d` -/
  | main (v : Tab) (d : Nat) (t : Tab)

/-- One branch: for `lo ≤ i < hi`. -/
structure Seg where
  lo : Nat
  hi : Nat
  kind : SegKind

/-- The value of a row of a decoding table at the index `i` (data of `lib/converters/*.h`, read by
`tools/gencs.py`). -/
def Seg.eval (r : Seg) (i : Nat) : Outcome (Option Nat) :=
  match r.kind with
  | .add base => .ok (some (i - r.lo + base))
  | .tab t off => do
    let v ← t.get (i - off)
    return if v = 0xfffd then none else some v
  | .pages t off u sh => do
    let swc ← t.get (i - off)
    let p ← u.get (swc >>> sh)
    let v := p ||| (swc &&& (2 ^ sh - 1))
    return if v = 0xfffd then none else some v
  | .main v d t => do
    let a ← v.get (i / d)
    let b ← t.get i
    return some (a + b)

/-- The chain of branches; no branch means `RET_ILSEQ`. -/
def segFind : List Seg → Nat → Outcome (Option Nat)
  | [], _ => .ok none
  | r :: rs, i => if r.lo ≤ i ∧ i < r.hi then r.eval i else segFind rs i

/-- Data of a function `X_mbtowc`: the index is `stride * (c1 - sub1) + (c2 - sub2)`. -/
structure CsDec where
  rows : List Span
  cols : List Span
  stride : Nat
  segs : List Seg

/-- The common form of the functions `X_mbtowc`. -/
def CsDec.mbtowc (d : CsDec) : M MbRet :=
  .byte 0 fun c1 =>
    match spanFind d.rows c1 with
    | none => .ret (.ilseq 0)
    | some r => .need 2 <| .byte 1 fun c2 =>
      match spanFind d.cols c2 with
      | none => .ret (.ilseq 0)
      | some c =>
        match segFind d.segs (d.stride * r + c) with
        | .ok (some wc) => .ret (.char wc 2)
        | .ok none => .ret (.ilseq 0)
        | .abort => .abort
        | _ => .ub

inductive CodeKind where
  /-- `summary = &T[(wc >> 4) - off]` -/
  | summ (t : Tab) (off : Nat)
  /-- `c = T[wc - off]`; 0 means not in the set -/
  | tab (t : Tab) (off : Nat)
  /-- a constant -/
  | const (c : Nat)

/-- One branch: for `lo ≤ wc < hi`. -/
structure CSeg where
  lo : Nat
  hi : Nat
  kind : CodeKind

/-- The array of codes. -/
inductive Codes where
  /-- `c = X_2charset[used]` -/
  | flat (t : Tab)
  /-- `c = X_2charset_main[used >> sh] + X_2charset[used]` -/
  | main (v : Tab) (sh : Nat) (t : Tab)
  /-- three bytes `X_2charset[3 * used]`, `X_2charset[3 * used + 1]`, `X_2charset[3 * used + 2]`, here put
  together to one number; the array is given in pieces of 3 * 4096 bytes -/
  | tri (ts : List Tab)

/-- The three bytes at position `j` of piece `q`. -/
def triGet (ts : List Tab) (j q : Nat) : Outcome Nat :=
  match ts[q]? with
  | none => .ub
  | some t => do
    let a ← t.get j
    let b ← t.get (j + 1)
    let c ← t.get (j + 2)
    return 65536 * a + 256 * b + c

/-- Entry `i` of a table of codes. -/
def Codes.get (k : Codes) (i : Nat) : Outcome Nat :=
  match k with
  | .flat t => t.get i
  | .main v sh t => do
    let a ← v.get (i >>> sh)
    let b ← t.get i
    return (a + b) % 65536
  | .tri ts => triGet ts (3 * (i % 4096)) (i / 4096)

/-- The number of set bits, as the C code computes it:
`used = (used & 0x5555) + ((used & 0xaaaa) >> 1); …` -/
def popc16 (u : Nat) : Nat :=
  let u := (u &&& 0x5555) + ((u &&& 0xaaaa) >>> 1)
  let u := (u &&& 0x3333) + ((u &&& 0xcccc) >>> 2)
  let u := (u &&& 0x0f0f) + ((u &&& 0xf0f0) >>> 4)
  (u &&& 0x00ff) + (u >>> 8)

/-- Data of a function `X_wctomb`. -/
structure CsEnc where
  segs : List CSeg
  codes : Codes

/-- A `Summary16` is stored as `indx + 65536 * used`. -/
def CSeg.eval (k : Codes) (r : CSeg) (wc : Nat) : Outcome (Option Nat) :=
  match r.kind with
  | .const c => .ok (some c)
  | .tab t off => do
    let c ← t.get (wc - off)
    return if c = 0 then none else some c
  | .summ t off => do
    let s ← t.get ((wc >>> 4) - off)
    let used := s >>> 16
    let i := wc &&& 0x0f
    if used &&& (1 <<< i) ≠ 0 then do
      let u := popc16 (used &&& ((1 <<< i) - 1))
      let c ← k.get (s % 65536 + u)
      return some c
    else return none

/-- The first row of an encoding table that covers a character. -/
def csegFind (k : Codes) : List CSeg → Nat → Outcome (Option Nat)
  | [], _ => .ok none
  | r :: rs, wc => if r.lo ≤ wc ∧ wc < r.hi then r.eval k wc else csegFind k rs wc

/-- The code of a character. -/
def CsEnc.look (e : CsEnc) (wc : Nat) : Outcome (Option Nat) := csegFind e.codes e.segs wc

/-- The common form of the functions `X_wctomb`. -/
def CsEnc.wctomb (e : CsEnc) (wc : Nat) : W :=
  .room 2 <|
    match e.look wc with
    | .ok (some c) => .put [c >>> 8, c &&& 0xff]
    | .ok none => .iluni
    | .abort => .abort
    | _ => .ub

/-- The form of `cns11643_inv_wctomb`, which stores three bytes. -/
def CsEnc.wctomb3 (e : CsEnc) (wc : Nat) : W :=
  .room 2 <|
    match e.look wc with
    | .ok (some c) => .put [c >>> 16, (c >>> 8) &&& 0xff, c &&& 0xff]
    | .ok none => .iluni
    | .abort => .abort
    | _ => .ub

/-- The common form of the functions `X_mbtowc` of single-byte character sets. -/
def sbM (rs : List DRule) : M MbRet :=
  .byte 0 fun c =>
    match sbDecode rs c with
    | .ok (some wc) => .ret (.char wc 1)
    | .ok none => .ret (.ilseq 0)
    | .abort => .abort
    | _ => .ub

/-- The common form of the functions `X_wctomb` of single-byte character sets. -/
def sbW (rs : List ERule) (wc : Nat) : W :=
  match sbEncode rs wc with
  | .ok (some b) => .put [b]
  | .ok none => .iluni
  | .abort => .abort
  | _ => .ub

/-! ## Versions for the kernel -/

noncomputable def spanF (l : List Span) (c : Nat) : Nat :=
  List.rec 0 (fun r _ ih => cond (Nat.ble r.lo c) (cond (Nat.ble (Nat.succ c) r.hi)
    (Nat.succ (Nat.sub c r.sub)) ih) ih) l

/-- 0 if `v` is 0xfffd, else `v + 1` -/
noncomputable def holeF (v : Nat) : Nat := cond (Nat.beq v 0xfffd) 0 (Nat.succ v)

noncomputable def Seg.evalF (r : Seg) (i : Nat) : Nat :=
  SegKind.rec (fun base => Nat.succ (Nat.add (Nat.sub i r.lo) base))
    (fun t off => holeF (t.getF (Nat.sub i off)))
    (fun t off u sh => (fun swc => holeF (Nat.lor (u.getF (Nat.shiftRight swc sh))
      (Nat.land swc (Nat.sub (Nat.pow 2 sh) 1)))) (t.getF (Nat.sub i off)))
    (fun v d t => Nat.succ (Nat.add (v.getF (Nat.div i d)) (t.getF i))) r.kind

noncomputable def segF (l : List Seg) (i : Nat) : Nat :=
  List.rec 0 (fun r _ ih => cond (Nat.ble r.lo i) (cond (Nat.ble (Nat.succ i) r.hi)
    (r.evalF i) ih) ih) l

/-- 0, or the character of the bytes `c1 c2` plus 1. -/
noncomputable def CsDec.decF (d : CsDec) (c1 c2 : Nat) : Nat :=
  Nat.rec 0 (fun r _ => Nat.rec 0 (fun c _ =>
    segF d.segs (Nat.add (Nat.mul d.stride r) c)) (spanF d.cols c2)) (spanF d.rows c1)

noncomputable def triF (ts : List Tab) (j : Nat) : Nat → Nat :=
  List.rec (fun _ => 0) (fun t _ ih q => Nat.rec
    (Nat.add (Nat.add (Nat.mul 65536 (t.getF j)) (Nat.mul 256 (t.getF (Nat.add j 1))))
      (t.getF (Nat.add j 2))) (fun q _ => ih q) q) ts

noncomputable def Codes.getF (k : Codes) (i : Nat) : Nat :=
  Codes.rec (fun t => t.getF i)
    (fun v sh t => Nat.mod (Nat.add (v.getF (Nat.shiftRight i sh)) (t.getF i)) 65536)
    (fun ts => triF ts (Nat.mul 3 (Nat.mod i 4096)) (Nat.div i 4096)) k

noncomputable def popF (u : Nat) : Nat :=
  (fun u => (fun u => (fun u => Nat.add (Nat.land u 0x00ff) (Nat.shiftRight u 8))
    (Nat.add (Nat.land u 0x0f0f) (Nat.shiftRight (Nat.land u 0xf0f0) 4)))
    (Nat.add (Nat.land u 0x3333) (Nat.shiftRight (Nat.land u 0xcccc) 2)))
    (Nat.add (Nat.land u 0x5555) (Nat.shiftRight (Nat.land u 0xaaaa) 1))

noncomputable def CSeg.evalF (k : Codes) (r : CSeg) (wc : Nat) : Nat :=
  CodeKind.rec
    (fun t off => (fun s => (fun used => (fun b => cond (Nat.beq (Nat.land used b) 0) 0
      (Nat.succ (k.getF (Nat.add (Nat.mod s 65536) (popF (Nat.land used (Nat.sub b 1)))))))
      (Nat.shiftLeft 1 (Nat.land wc 0x0f))) (Nat.shiftRight s 16))
      (t.getF (Nat.sub (Nat.shiftRight wc 4) off)))
    (fun t off => (fun c => cond (Nat.beq c 0) 0 (Nat.succ c)) (t.getF (Nat.sub wc off)))
    (fun c => Nat.succ c) r.kind

noncomputable def csegF (k : Codes) (l : List CSeg) (wc : Nat) : Nat :=
  List.rec 0 (fun r _ ih => cond (Nat.ble r.lo wc) (cond (Nat.ble (Nat.succ wc) r.hi)
    (r.evalF k wc) ih) ih) l

/-- 0, or the code of `wc` plus 1. -/
noncomputable def CsEnc.encF (e : CsEnc) (wc : Nat) : Nat := csegF e.codes e.segs wc

/-! ### Table accesses in bounds -/

/-- Table accesses of a branch are in bounds. -/
noncomputable def Seg.safeF (r : Seg) : Bool :=
  SegKind.rec (fun _ => true)
    (fun t off => cond (Nat.ble off r.lo) (Nat.ble r.hi (Nat.add off t.len)) false)
    (fun t off u sh => cond (Nat.ble off r.lo) (cond (Nat.ble r.hi (Nat.add off t.len))
      (allF (fun j => Nat.ble (Nat.succ (Nat.shiftRight (t.getF j) sh)) u.len) 0 t.len) false) false)
    (fun v k t => cond (Nat.ble 1 k) (cond (Nat.ble r.hi (Nat.mul k v.len)) (Nat.ble r.hi t.len) false)
      false) r.kind

noncomputable def CsDec.safeF (d : CsDec) : Bool :=
  List.rec true (fun r _ ih => cond r.safeF ih false) d.segs

/-- The number of codes. -/
noncomputable def Codes.lenF (k : Codes) : Nat :=
  Codes.rec (fun t => t.len)
    (fun v sh t => cond (Nat.ble t.len (Nat.mul v.len (Nat.pow 2 sh))) t.len 0)
    (fun ts => List.rec 0 (fun t _ ih => cond (Nat.ble 12288 t.len) (Nat.add 4096 ih)
      (Nat.div t.len 3)) ts) k

noncomputable def CSeg.safeF (n : Nat) (r : CSeg) : Bool :=
  CodeKind.rec
    (fun t off => cond (Nat.ble (Nat.mul 16 off) r.lo) (cond (Nat.ble r.hi (Nat.mul 16 (Nat.add off t.len)))
      (cond (Nat.ble t.w 32) (allF (fun j => (fun s => cond (Nat.ble (Nat.add (Nat.mod s 65536) 17) n) true
        (allF (fun i => (fun used => (fun b => cond (Nat.beq (Nat.land used b) 0) true
          (Nat.ble (Nat.succ (Nat.add (Nat.mod s 65536) (popF (Nat.land used (Nat.sub b 1))))) n))
          (Nat.shiftLeft 1 i)) (Nat.shiftRight s 16)) 0 16)) (t.getF j)) 0 t.len) false) false) false)
    (fun t off => cond (Nat.ble off r.lo) (Nat.ble r.hi (Nat.add off t.len)) false)
    (fun _ => true) r.kind

noncomputable def CsEnc.safeF (e : CsEnc) : Bool :=
  List.rec true (fun r _ ih => cond (r.safeF e.codes.lenF) ih false) e.segs

/-! ### Soundness -/

theorem cond_eq_true {a b : Bool} : (cond a b false = true) ↔ a = true ∧ b = true := by
  cases a <;> simp

theorem holeF_eq (v : Nat) : (if v = 0xfffd then none else some v) = ofCode (holeF v) := by
  unfold holeF
  split
  · next h => rw [show Nat.beq v 0xfffd = true from by rw [Nat.beq_eq]; exact h]; rfl
  · next h =>
    rw [show Nat.beq v 0xfffd = false from by rw [← Bool.not_eq_true, Nat.beq_eq]; exact h]; rfl

theorem Seg.eval_fast {r : Seg} (h : r.safeF = true) {i : Nat} (hl : r.lo ≤ i) (hh : i < r.hi) :
    r.eval i = .ok (ofCode (r.evalF i)) := by
  obtain ⟨lo, hi, k⟩ := r
  simp only at hl hh
  cases k with
  | add base => rfl
  | tab t off =>
    have h : cond (Nat.ble off lo) (Nat.ble hi (Nat.add off t.len)) false = true := h
    rw [cond_eq_true, Nat.ble_eq, Nat.ble_eq] at h
    have h2 : hi ≤ off + t.len := h.2
    simp only [Seg.eval]
    rw [Tab.get_fast (by omega)]
    simp only [Outcome.bind_ok, Outcome.pure_eq]
    rw [holeF_eq]; rfl
  | pages t off u sh =>
    have h : cond (Nat.ble off lo) (cond (Nat.ble hi (Nat.add off t.len))
      (allF (fun j => Nat.ble (Nat.succ (Nat.shiftRight (t.getF j) sh)) u.len) 0 t.len) false) false
        = true := h
    rw [cond_eq_true, cond_eq_true, Nat.ble_eq, Nat.ble_eq, allF_iff] at h
    have h2 : hi ≤ off + t.len := h.2.1
    have h3 := h.2.2 (i - off) (Nat.zero_le _) (by omega)
    rw [Nat.ble_eq] at h3
    have h3 : t.getF (i - off) >>> sh < u.len := h3
    simp only [Seg.eval]
    rw [Tab.get_fast (by omega)]
    simp only [Outcome.bind_ok]
    rw [Tab.get_fast h3]
    simp only [Outcome.bind_ok, Outcome.pure_eq]
    rw [holeF_eq]; rfl
  | main v k t =>
    have h : cond (Nat.ble 1 k) (cond (Nat.ble hi (Nat.mul k v.len)) (Nat.ble hi t.len) false)
      false = true := h
    rw [cond_eq_true, cond_eq_true, Nat.ble_eq, Nat.ble_eq, Nat.ble_eq] at h
    have h2 : hi ≤ k * v.len := h.2.1
    simp only [Seg.eval]
    rw [Tab.get_fast (Nat.div_lt_of_lt_mul (by omega))]
    simp only [Outcome.bind_ok]
    rw [Tab.get_fast (by omega)]
    rfl

theorem segF_cons (r : Seg) (rs : List Seg) (c : Nat) : segF (r :: rs) c =
    if r.lo ≤ c ∧ c < r.hi then r.evalF c else segF rs c := by
  have : segF (r :: rs) c = cond (Nat.ble r.lo c) (cond (Nat.ble (Nat.succ c) r.hi)
    (r.evalF c) (segF rs c)) (segF rs c) := rfl
  rw [this]
  cases h1 : Nat.ble r.lo c <;> cases h2 : Nat.ble (Nat.succ c) r.hi <;>
    simp only [← Bool.not_eq_true, Nat.ble_eq] at h1 h2 <;>
    first
      | rw [if_pos (by omega)]; rfl
      | rw [if_neg (by omega)]; rfl

theorem segFind_fast {l : List Seg} (h : List.rec (motive := fun _ => Bool) true
    (fun r _ ih => cond r.safeF ih false) l = true) (i : Nat) :
    segFind l i = .ok (ofCode (segF l i)) := by
  induction l with
  | nil => rfl
  | cons r rs ih =>
    have h := cond_eq_true.1 h
    rw [segF_cons, segFind]
    split
    · next hc => exact Seg.eval_fast h.1 hc.1 hc.2
    · exact ih h.2

theorem spanFind_fast (l : List Span) (c : Nat) : spanFind l c = ofCode (spanF l c) := by
  induction l with
  | nil => rfl
  | cons r l ih =>
    have : spanF (r :: l) c = cond (Nat.ble r.lo c) (cond (Nat.ble (Nat.succ c) r.hi)
      (Nat.succ (Nat.sub c r.sub)) (spanF l c)) (spanF l c) := rfl
    rw [this]
    unfold spanFind
    cases h1 : Nat.ble r.lo c <;> cases h2 : Nat.ble (Nat.succ c) r.hi <;>
      simp only [← Bool.not_eq_true, Nat.ble_eq] at h1 h2 <;>
      first
        | rw [if_pos (by omega)]; rfl
        | rw [if_neg (by omega)]; exact ih

/-- The character of two bytes. -/
noncomputable def CsDec.ch (d : CsDec) (c1 c2 : Nat) : Option Nat := ofCode (d.decF c1 c2)

/-- The result for two bytes. -/
noncomputable def csRet : Option Nat → MbRet
  | some wc => .char wc 2
  | none => .ilseq 0

theorem CsDec.run_fast {d : CsDec} (h : d.safeF = true) (a b : Byte) (t : List Byte) :
    d.mbtowc.run (a :: b :: t) = .ok (some (csRet (d.ch a.toNat b.toNat))) := by
  unfold CsDec.mbtowc CsDec.ch
  simp only [M.run, List.getElem?_cons_zero, spanFind_fast]
  have e : d.decF a.toNat b.toNat = Nat.rec 0 (fun r _ => Nat.rec 0 (fun c _ =>
    segF d.segs (Nat.add (Nat.mul d.stride r) c)) (spanF d.cols b.toNat)) (spanF d.rows a.toNat) := rfl
  rw [e]
  cases h1 : spanF d.rows a.toNat with
  | zero => rfl
  | succ r =>
    simp only [ofCode, M.run, List.length_cons]
    rw [if_pos (by omega)]
    simp only [List.getElem?_cons_succ, List.getElem?_cons_zero]
    cases h2 : spanF d.cols b.toNat with
    | zero => rfl
    | succ c =>
      simp only [segFind_fast h]
      show _ = Outcome.ok (some (csRet (ofCode (segF d.segs (d.stride * r + c)))))
      cases ofCode (segF d.segs (d.stride * r + c)) <;> rfl

theorem CsDec.two {d : CsDec} (h : d.safeF = true) : M.Two d.mbtowc := by
  intro a b
  rw [d.run_fast h]
  cases d.ch a.toNat b.toNat with
  | none => exact .inl rfl
  | some wc => exact .inr ⟨wc, rfl⟩

/-- What a two-byte character set function returns when called on the input itself. -/
def RetTwo (k : Nat) (r : MbRet) : Prop := r = .ilseq 0 ∨ (2 ≤ k ∧ ∃ wc, r = .char wc 2)

theorem CsDec.good {d : CsDec} (h : d.safeF = true) : M.Good RetTwo 1 d.mbtowc := by
  refine ⟨Nat.zero_lt_one, fun c1 _ => ?_⟩
  simp only
  cases spanFind d.rows c1 with
  | none => exact Or.inl rfl
  | some r =>
    refine ⟨by omega, fun c2 _ => ?_⟩
    simp only
    cases spanFind d.cols c2 with
    | none => exact Or.inl rfl
    | some c =>
      simp only [segFind_fast h]
      cases ofCode (segF d.segs (d.stride * r + c)) with
      | none => exact Or.inl rfl
      | some wc => exact Or.inr ⟨by omega, wc, rfl⟩

/-! Encoders. -/

theorem popc16_fast (u : Nat) : popc16 u = popF u := rfl

theorem land_ne (a b : Nat) : (Nat.beq (Nat.land a b) 0 = true) ↔ ¬ (a &&& b ≠ 0) := by
  rw [Nat.beq_eq]
  show Nat.land a b = 0 ↔ ¬ (Nat.land a b ≠ 0)
  omega

theorem popF_le_check : allF (fun u => Nat.ble (popF u) 16) 0 65536 = true := by decide +kernel

theorem popF_le {u : Nat} (h : u < 65536) : popF u ≤ 16 := by
  have := (allF_iff _ _ _).1 popF_le_check u (Nat.zero_le _) (by omega)
  rwa [Nat.ble_eq] at this

theorem Codes.tri_len (t : Tab) (ts : List Tab) : (Codes.tri (t :: ts)).lenF =
    cond (Nat.ble 12288 t.len) (Nat.add 4096 (Codes.tri ts).lenF) (Nat.div t.len 3) := rfl

theorem Codes.tri_getF (ts : List Tab) (i : Nat) :
    (Codes.tri ts).getF i = triF ts (Nat.mul 3 (Nat.mod i 4096)) (Nat.div i 4096) := rfl

theorem triF_zero (t : Tab) (ts : List Tab) (j : Nat) : triF (t :: ts) j 0 =
    65536 * t.getF j + 256 * t.getF (j + 1) + t.getF (j + 2) := rfl

theorem triF_succ (t : Tab) (ts : List Tab) (j q : Nat) : triF (t :: ts) j (q + 1) = triF ts j q := rfl

theorem nat_mul_eq (a b : Nat) : Nat.mul a b = a * b := rfl
theorem nat_add_eq (a b : Nat) : Nat.add a b = a + b := rfl
theorem nat_div_eq (a b : Nat) : Nat.div a b = a / b := rfl
theorem nat_mod_eq (a b : Nat) : Nat.mod a b = a % b := rfl

theorem Codes.tri_get (ts : List Tab) (i : Nat) :
    (Codes.tri ts).get i = triGet ts (3 * (i % 4096)) (i / 4096) := rfl

theorem triGet_zero {t : Tab} {ts : List Tab} {j : Nat} (h : j + 2 < t.len) :
    triGet (t :: ts) j 0 = .ok (triF (t :: ts) j 0) := by
  unfold triGet
  simp only [List.getElem?_cons_zero]
  rw [Tab.get_fast (by omega), Tab.get_fast (by omega), Tab.get_fast h]
  rfl

theorem triGet_succ (t : Tab) (ts : List Tab) (j q : Nat) :
    triGet (t :: ts) j (q + 1) = triGet ts j q := by
  unfold triGet
  simp only [List.getElem?_cons_succ]

theorem Codes.tri_fast : ∀ (ts : List Tab) {i : Nat}, i < (Codes.tri ts).lenF →
    (Codes.tri ts).get i = .ok ((Codes.tri ts).getF i) := by
  intro ts
  induction ts with
  | nil => intro i h; exact absurd h (Nat.not_lt_zero _)
  | cons t ts ih =>
    intro i h
    rw [Codes.tri_len, nat_add_eq, nat_div_eq] at h
    by_cases hi : i < 4096
    · have hl : 3 * (i % 4096) + 2 < t.len := by
        cases hb : Nat.ble 12288 t.len with
        | true => rw [Nat.ble_eq] at hb; omega
        | false => rw [hb, cond_false] at h; omega
      rw [Codes.tri_getF, Codes.tri_get, nat_mul_eq, nat_mod_eq, nat_div_eq,
        show i / 4096 = 0 by omega]
      exact triGet_zero hl
    · cases hb : Nat.ble 12288 t.len with
      | false =>
        rw [hb, cond_false] at h
        rw [← Bool.not_eq_true, Nat.ble_eq] at hb
        omega
      | true =>
        rw [hb, cond_true] at h
        have := ih (i := i - 4096) (by omega)
        rw [Codes.tri_getF, Codes.tri_get, nat_mul_eq, nat_mod_eq, nat_div_eq,
          show (i - 4096) % 4096 = i % 4096 by omega] at this
        rw [Codes.tri_getF, Codes.tri_get, nat_mul_eq, nat_mod_eq, nat_div_eq,
          show i / 4096 = (i - 4096) / 4096 + 1 by omega, triF_succ, triGet_succ]
        exact this

theorem Codes.get_fast (k : Codes) {i : Nat} (h : i < k.lenF) : k.get i = .ok (k.getF i) := by
  cases k with
  | flat t => exact Tab.get_fast h
  | main v sh t =>
    have h : i < cond (Nat.ble t.len (Nat.mul v.len (Nat.pow 2 sh))) t.len 0 := h
    cases hb : Nat.ble t.len (Nat.mul v.len (Nat.pow 2 sh)) with
    | false => rw [hb] at h; exact absurd h (Nat.not_lt_zero _)
    | true =>
      rw [hb] at h
      rw [Nat.ble_eq] at hb
      have h : i < t.len := h
      have hb : t.len ≤ v.len * 2 ^ sh := hb
      unfold Codes.get
      simp only
      rw [Tab.get_fast (t := v) (by rw [Nat.shiftRight_eq_div_pow, Nat.div_lt_iff_lt_mul (Nat.two_pow_pos _)]; omega)]
      simp only [Outcome.bind_ok]
      rw [Tab.get_fast h]
      rfl
  | tri ts => exact Codes.tri_fast ts h

theorem CSeg.eval_fast {k : Codes} {r : CSeg} (h : r.safeF k.lenF = true) {wc : Nat}
    (hl : r.lo ≤ wc) (hh : wc < r.hi) : r.eval k wc = .ok (ofCode (r.evalF k wc)) := by
  obtain ⟨lo, hi, kd⟩ := r
  simp only at hl hh
  cases kd with
  | const c => rfl
  | tab t off =>
    have h : cond (Nat.ble off lo) (Nat.ble hi (Nat.add off t.len)) false = true := h
    rw [cond_eq_true, Nat.ble_eq, Nat.ble_eq] at h
    have h2 : hi ≤ off + t.len := h.2
    simp only [CSeg.eval]
    rw [Tab.get_fast (by omega)]
    simp only [Outcome.bind_ok, Outcome.pure_eq]
    have e : (CSeg.mk lo hi (.tab t off)).evalF k wc =
      cond (Nat.beq (t.getF (wc - off)) 0) 0 (Nat.succ (t.getF (wc - off))) := rfl
    rw [e]
    split
    · next hv => rw [show Nat.beq (t.getF (wc - off)) 0 = true from by rw [Nat.beq_eq]; exact hv]; rfl
    · next hv =>
      rw [show Nat.beq (t.getF (wc - off)) 0 = false from by
        rw [← Bool.not_eq_true, Nat.beq_eq]; exact hv]; rfl
  | summ t off =>
    have h : cond (Nat.ble (Nat.mul 16 off) lo) (cond (Nat.ble hi (Nat.mul 16 (Nat.add off t.len)))
      (cond (Nat.ble t.w 32) (allF (fun j => cond (Nat.ble (Nat.add (Nat.mod (t.getF j) 65536) 17) k.lenF) true
        (allF (fun i => cond (Nat.beq (Nat.land (Nat.shiftRight (t.getF j) 16) (Nat.shiftLeft 1 i)) 0) true
          (Nat.ble (Nat.succ (Nat.add (Nat.mod (t.getF j) 65536)
            (popF (Nat.land (Nat.shiftRight (t.getF j) 16) (Nat.sub (Nat.shiftLeft 1 i) 1))))) k.lenF))
           0 16)) 0 t.len) false) false) false = true := h
    rw [cond_eq_true, cond_eq_true, cond_eq_true, Nat.ble_eq, Nat.ble_eq, Nat.ble_eq, allF_iff] at h
    obtain ⟨h1, h2, hw, h3⟩ := h
    have h1 : 16 * off ≤ lo := h1
    have h2 : hi ≤ 16 * (off + t.len) := h2
    have hq : wc >>> 4 = wc / 16 := Nat.shiftRight_eq_div_pow wc 4
    have hj : wc >>> 4 - off < t.len := by omega
    have h3 := h3 (wc >>> 4 - off) (Nat.zero_le _) (by omega)
    have hlt := t.getF_lt (wc >>> 4 - off)
    have hlt : t.getF (wc >>> 4 - off) < 2 ^ 32 :=
      Nat.lt_of_lt_of_le hlt (Nat.pow_le_pow_right (by omega) hw)
    simp only [CSeg.eval]
    rw [Tab.get_fast hj]
    simp only [Outcome.bind_ok]
    have e : (CSeg.mk lo hi (.summ t off)).evalF k wc =
      cond (Nat.beq (Nat.land (t.getF (wc >>> 4 - off) >>> 16) (1 <<< (wc &&& 0x0f))) 0) 0
      (Nat.succ (k.getF (Nat.add (Nat.mod (t.getF (wc >>> 4 - off)) 65536)
        (popF (Nat.land (t.getF (wc >>> 4 - off) >>> 16) (Nat.sub (1 <<< (wc &&& 0x0f)) 1)))))) := rfl
    rw [e]
    generalize t.getF (wc >>> 4 - off) = s at *
    cases hb : Nat.beq (Nat.land (s >>> 16) (1 <<< (wc &&& 0x0f))) 0 with
    | true =>
      rw [if_neg ((land_ne _ _).1 hb)]
      rfl
    | false =>
      have hb' : s >>> 16 &&& 1 <<< (wc &&& 0x0f) ≠ 0 := by
        intro hc
        rw [← Bool.not_eq_true, land_ne] at hb
        exact hb (fun h => h hc)
      rw [if_pos hb', popc16_fast]
      have hidx : s % 65536 + popF (s >>> 16 &&& ((1 <<< (wc &&& 0x0f)) - 1)) < k.lenF := by
        cases hc : Nat.ble (Nat.add (Nat.mod s 65536) 17) k.lenF with
        | true =>
          rw [Nat.ble_eq] at hc
          have hc : s % 65536 + 17 ≤ k.lenF := hc
          have := popF_le (u := s >>> 16 &&& ((1 <<< (wc &&& 0x0f)) - 1)) (by
            refine Nat.lt_of_le_of_lt Nat.and_le_left ?_
            rw [Nat.shiftRight_eq_div_pow]
            exact Nat.div_lt_of_lt_mul hlt)
          omega
        | false =>
          rw [hc] at h3
          rw [cond_false] at h3
          have h3 := (allF_iff _ _ _).1 h3 (wc &&& 0x0f) (Nat.zero_le _) (by
            have : wc &&& 0x0f ≤ 0x0f := Nat.and_le_right
            omega)
          have hb2 : Nat.beq (Nat.land (Nat.shiftRight s 16) (Nat.shiftLeft 1 (wc &&& 15))) 0 = false := hb
          rw [hb2] at h3
          rw [cond_false, Nat.ble_eq] at h3
          exact h3
      rw [k.get_fast hidx]
      rfl

theorem csegF_cons (k : Codes) (r : CSeg) (rs : List CSeg) (c : Nat) : csegF k (r :: rs) c =
    if r.lo ≤ c ∧ c < r.hi then r.evalF k c else csegF k rs c := by
  have : csegF k (r :: rs) c = cond (Nat.ble r.lo c) (cond (Nat.ble (Nat.succ c) r.hi)
    (r.evalF k c) (csegF k rs c)) (csegF k rs c) := rfl
  rw [this]
  cases h1 : Nat.ble r.lo c <;> cases h2 : Nat.ble (Nat.succ c) r.hi <;>
    simp only [← Bool.not_eq_true, Nat.ble_eq] at h1 h2 <;>
    first
      | rw [if_pos (by omega)]; rfl
      | rw [if_neg (by omega)]; rfl

theorem csegFind_fast {k : Codes} {l : List CSeg} (h : List.rec (motive := fun _ => Bool) true
    (fun r _ ih => cond (r.safeF k.lenF) ih false) l = true) (wc : Nat) :
    csegFind k l wc = .ok (ofCode (csegF k l wc)) := by
  induction l with
  | nil => rfl
  | cons r rs ih =>
    have h := cond_eq_true.1 h
    rw [csegF_cons, csegFind]
    split
    · next hc => exact CSeg.eval_fast h.1 hc.1 hc.2
    · exact ih h.2

/-- The code of a character. -/
noncomputable def CsEnc.code (e : CsEnc) (wc : Nat) : Option Nat := ofCode (e.encF wc)

theorem CsEnc.look_fast {e : CsEnc} (h : e.safeF = true) (wc : Nat) :
    e.look wc = .ok (e.code wc) := csegFind_fast h wc

theorem CsEnc.wctomb_eq {e : CsEnc} (h : e.safeF = true) (wc : Nat) :
    e.wctomb wc = .room 2 (match e.code wc with
      | some c => .put [c >>> 8, c &&& 0xff]
      | none => .iluni) := by
  unfold CsEnc.wctomb
  rw [e.look_fast h]
  cases e.code wc <;> rfl

theorem CsEnc.two {e : CsEnc} (h : e.safeF = true) (wc : Nat) : W.Two (e.wctomb wc) := by
  rw [e.wctomb_eq h]
  cases e.code wc with
  | none => exact .inl rfl
  | some c => exact .inr ⟨_, _, rfl⟩

theorem CsEnc.good {e : CsEnc} (h : e.safeF = true) (wc : Nat) : W.Good 0 (e.wctomb wc) := by
  rw [e.wctomb_eq h]
  cases e.code wc with
  | none => show max 0 2 ≤ 7; omega
  | some c => exact ⟨by simp, by simp, by simp, by omega⟩

theorem sbM_run {rs : List DRule} (h : rs.all DRule.safe = true) (a : Byte) (t : List Byte) :
    (sbM rs).run (a :: t) = .ok (some (match ofCode (decF rs a.toNat) with
      | some wc => .char wc 1
      | none => .ilseq 0)) := by
  unfold sbM
  simp only [M.run, List.getElem?_cons_zero, sbDecode_fast h]
  cases ofCode (decF rs a.toNat) <;> rfl

theorem sbM_one {rs : List DRule} (h : rs.all DRule.safe = true) : M.One (sbM rs) := by
  intro a
  rw [sbM_run h]
  cases ofCode (decF rs a.toNat) with
  | none => exact .inl rfl
  | some wc => exact .inr ⟨wc, rfl⟩

theorem sbM_good {rs : List DRule} (h : rs.all DRule.safe = true) :
    M.Good M.RetOK 1 (sbM rs) := by
  refine ⟨Nat.zero_lt_one, fun c _ => ?_⟩
  simp only [sbDecode_fast h]
  cases ofCode (decF rs c) with
  | none => exact ⟨rfl, Nat.le_refl _⟩
  | some wc => exact ⟨Nat.le_refl _, Nat.le_refl _⟩

theorem sbW_eq {rs : List ERule} (h : rs.all ERule.safe = true) (wc : Nat) :
    sbW rs wc = match ofCode (encF rs wc) with
      | some b => .put [b]
      | none => .iluni := by
  unfold sbW
  rw [(sbEncode_fast h wc).1]
  cases ofCode (encF rs wc) <;> rfl

theorem sbW_one {rs : List ERule} (h : rs.all ERule.safe = true) (wc : Nat) : W.One (sbW rs wc) := by
  rw [sbW_eq h]
  cases ofCode (encF rs wc) with
  | none => exact .inl rfl
  | some b => exact .inr ⟨_, rfl⟩

theorem sbW_good {rs : List ERule} (h : rs.all ERule.safe = true) (wc : Nat) :
    W.Good 0 (sbW rs wc) ∧ (sbW rs wc).need = 0 := by
  rw [sbW_eq h]
  cases ofCode (encF rs wc) with
  | none => exact ⟨by show 0 ≤ 7; omega, rfl⟩
  | some b => exact ⟨⟨by simp, by simp, by simp, by omega⟩, rfl⟩

end Reiconv
