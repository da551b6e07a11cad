import Verif.Gen.CompTables
import Verif.Gen.Index

/-!
# CP1255, CP1258 and TCVN: converters that combine characters

The decoders keep a base character in `istate` until it is clear whether a combining character
follows; the encoders decompose characters that have no byte of their own. The three converters have
the same control flow and differ in tables; `CompDec` and `CompEnc` hold what differs.
-/

namespace Reiconv

/-- The loop of the binary searches (`lib/converters/cp1255.h:219-245`, `361-391`, and the same code in
`cp1258.h:129-152`, `274-302` and `tcvn.h:118-136`, `252-275`). `key i` is the key of row `i`. -/
def binSearch (key : Nat → Outcome Nat) (x : Nat) : Nat → Nat → Nat → Outcome (Option Nat)
  | 0, _, _ => .diverge
  | fuel + 1, i1, i2 => do
    let i := (i1 + i2) / 2
    let k ← key i
    if x = k then return some i
    else if x < k then
      if i1 = i then return none
      else binSearch key x fuel i1 i
    else
      if i1 ≠ i then binSearch key x fuel i i2
      else
        let k2 ← key i2
        if x = k2 then return some i2 else return none

/-- The test whether `x` lies between the first and the last key, then the search
(`lib/converters/cp1255.h:216`, `358`). -/
def searchRows (key : Nat → Outcome Nat) (x i1 i2 : Nat) : Outcome (Option Nat) := do
  let lo ← key i1
  let hi ← key i2
  if x ≥ lo ∧ x ≤ hi then binSearch key x (i2 - i1 + 1) i1 i2 else return none

/-- An element of a static array of structures; outside it is undefined behaviour. -/
def rowAt {α : Type} (l : List α) (i : Nat) : Outcome α :=
  match l[i]? with
  | some r => .ok r
  | none => .ub

/-- What differs between the decoders. -/
structure CompDec where
  /-- branches that give the character of a byte -/
  dr : List DRule
  /-- range in which combining characters lie -/
  lo : Nat
  hi : Nat
  /-- the `case` labels, in the order of the values of `k` -/
  marks : List Nat
  /-- the `default` label is `abort()` (else it is `goto not_combining`) -/
  strict : Bool
  /-- `len`, `idx` for each `k` -/
  spans : List (Nat × Nat)
  /-- `base`, `composed` -/
  data : List (Nat × Nat)
  /-- composed characters that are kept because they may combine again -/
  keep : List Nat
  /-- is the character a possible base? -/
  isBase : Nat → Outcome Bool

/-- Position of a `case` label. -/
def caseIdx : List Nat → Nat → Option Nat
  | [], _ => none
  | m :: ms, w => if w = m then some 0 else (caseIdx ms w).map (· + 1)

/-- Combine the kept character `last` with `wc` (`lib/converters/cp1255.h:180-246`,
`cp1258.h:99-153`, `tcvn.h:101-137`); `none` is `not_combining`. -/
def CompDec.combine (d : CompDec) (last wc : Nat) : Outcome (Option Nat) :=
  if wc ≥ d.lo ∧ wc < d.hi then
    match caseIdx d.marks wc with
    | none => if d.strict then .abort else .ok none
    | some k => do
      let (len, idx) ← rowAt d.spans k
      let i2 := idx + len - 1
      match ← searchRows (fun i => do let r ← rowAt d.data i; return r.1) last idx i2 with
      | none => return none
      | some i => do
        let r ← rowAt d.data i
        return some r.2
  else .ok none

/-- `cp1255_mbtowc` (`lib/converters/cp1255.h:161-276`), `cp1258_mbtowc` (`cp1258.h:81-178`) and
`tcvn_mbtowc` (`tcvn.h:88-160`). `istate` is read as an `unsigned short`. -/
def CompDec.mbtowc (d : CompDec) (is : IState) (s : List Byte) : Outcome (MbRet × IState) := do
  let c ← rd s 0
  match ← sbDecode d.dr c with
  | none => return (.ilseq 0, is)
  | some wc =>
    let last := is.st % 65536
    if last ≠ 0 then
      match ← d.combine last wc with
      | some w =>
        if w ∈ d.keep then return (.toofew 1, { is with st := w })
        else return (.char w 1, { is with st := 0 })
      | none => return (.char last 0, { is with st := 0 })
    else if ← d.isBase wc then return (.toofew 1, { is with st := wc })
    else return (.char wc 1, is)

/-- `normal_flushwc` (`lib/converters/flushwc.h:30-41`). -/
def normal_flushwc (is : IState) : Option Nat × IState :=
  if is.st ≠ 0 then (some is.st, { is with st := 0 }) else (none, is)

/-- The decoder with the flush function of `lib/converters/flushwc.h:30-43`. -/
def CompDec.dec (d : CompDec) : Decoder := { mbtowc := d.mbtowc, flushwc := some normal_flushwc }

/-- What differs between the encoders. -/
structure CompEnc where
  /-- branches that give the byte of a character -/
  er : List ERule
  /-- `composed`, `base`, `comb1`, `comb2` -/
  rows : List (Nat × Nat × List Nat)
  /-- the byte of a base character; `none` is `RET_ILUNI` -/
  baseByte : Nat → Outcome (Option Nat)
  comb : Tab

/-- The bytes of the combining characters. -/
def combBytes (t : Tab) : List Nat → Outcome (List Byte)
  | [] => .ok []
  | k :: ks => do
    let b ← t.get k
    let r ← combBytes t ks
    return u8 b :: r

/-- `cp1255_wctomb` (`lib/converters/cp1255.h:320-411`), `cp1258_wctomb` (`cp1258.h:233-324`) and
`tcvn_wctomb` (`tcvn.h:225-298`). -/
def CompEnc.wctomb (e : CompEnc) (os wc n : Nat) : Outcome WcRes := do
  match ← sbEncode e.er wc with
  | some b => return .put [u8 b] os
  | none =>
    match ← searchRows (fun i => do let r ← rowAt e.rows i; return r.1) wc 0 (e.rows.length - 1) with
    | none => return .iluni os
    | some i => do
      let (_, base, combs) ← rowAt e.rows i
      match ← e.baseByte base with
      | none => return .iluni os
      | some c =>
        if n < 1 + combs.length then return .small os
        else do
          let bs ← combBytes e.comb combs
          return .put (u8 c :: bs) os

/-- The encoder; it has no reset function. -/
def CompEnc.enc (e : CompEnc) : Encoder := { wctomb := e.wctomb, reset := none }

/-! ## The three converters -/

/-- `lib/converters/cp1255.h:161-276`. -/
def cp1255_d : CompDec where
  dr := [⟨0, 0x80, .add 0⟩, ⟨0x80, 0x100, .tab cp1255_2uni 0x80 .ilseq⟩]
  lo := 0x05b0
  hi := 0x05c5
  marks := [0x05b4, 0x05b7, 0x05b8, 0x05b9, 0x05bc, 0x05bf, 0x05c1, 0x05c2]
  strict := false
  spans := cp1255_comp_table
  data := cp1255_comp_table_data
  keep := [0xfb2a, 0xfb2b, 0xfb49]
  isBase := fun wc => .ok (decide ((wc ≥ 0x05d0 ∧ wc ≤ 0x05ea ∧
    (0x07db5f7f >>> (wc - 0x05d0)) &&& 1 = 1) ∨ wc = 0x05f2))

/-- `lib/converters/cp1255.h:320-411`. -/
def cp1255_e : CompEnc where
  er := [⟨0, 0x80, .add 0⟩, ⟨0xa0, 0xf8, .tab cp1255_page00 0xa0 .nz⟩, ⟨0x192, 0x193, .add 0x83⟩,
    ⟨0x2c0, 0x2e0, .tab cp1255_page02 0x2c0 .nz⟩, ⟨0x5b0, 0x5f8, .tab cp1255_page05 0x5b0 .nz⟩,
    ⟨0x2008, 0x2040, .tab cp1255_page20 0x2008 .nz⟩, ⟨0x20aa, 0x20ab, .add 0xa4⟩,
    ⟨0x20ac, 0x20ad, .add 0x80⟩, ⟨0x2122, 0x2123, .add 0x99⟩]
  rows := cp1255_decomp_table
  baseByte := fun wc => do
    let c ← cp1255_page05.get (wc - 0x05b0)
    return some c
  comb := cp1255_comb_table

/-- The test for a base character in `cp1258_mbtowc` and `tcvn_mbtowc`. -/
def vietBase (bases : Tab) (wc : Nat) : Outcome Bool :=
  if wc ≥ 0x41 ∧ wc ≤ 0x1b0 then do
    let v ← bases.get ((wc - 0x40) >>> 5)
    return decide ((v >>> (wc &&& 0x1f)) &&& 1 = 1)
  else .ok false

/-- The combining marks of Vietnamese (`lib/converters/vietcomb.h`). -/
def vietMarks : List Nat := [0x0300, 0x0301, 0x0303, 0x0309, 0x0323]

/-- `lib/converters/cp1258.h:81-178`. -/
def cp1258_d : CompDec where
  dr := [⟨0, 0x80, .add 0⟩, ⟨0x80, 0x100, .tab cp1258_2uni 0x80 .ilseq⟩]
  lo := 0x0300
  hi := 0x0340
  marks := vietMarks
  strict := true
  spans := viet_comp_table
  data := viet_comp_table_data
  keep := []
  isBase := vietBase cp1258_comp_bases

/-- `lib/converters/cp1258.h:233-324`. -/
def cp1258_e : CompEnc where
  er := [⟨0, 0x80, .add 0⟩, ⟨0xa0, 0xc0, .add 0xa0⟩, ⟨0xc0, 0x118, .tab cp1258_page00 0xc0 .nz⟩,
    ⟨0x150, 0x1b8, .tab cp1258_page01 0x150 .nz⟩, ⟨0x2c0, 0x2e0, .tab cp1258_page02 0x2c0 .nz⟩,
    ⟨0x300, 0x328, .tab cp1258_page03 0x300 .nz⟩, ⟨0x340, 0x342, .tab cp1258_page03 0x340 .nz⟩,
    ⟨0x2010, 0x2040, .tab cp1258_page20 0x2010 .nz⟩, ⟨0x20ab, 0x20ac, .add 0xfe⟩,
    ⟨0x20ac, 0x20ad, .add 0x80⟩, ⟨0x2122, 0x2123, .add 0x99⟩]
  rows := viet_decomp_table
  baseByte := fun wc =>
    if wc < 0x0100 then .ok (some wc)
    else if wc < 0x0118 then do
      let c ← cp1258_page00.get (wc - 0x00c0)
      return some c
    else do
      let c ← cp1258_page01.get (wc - 0x0150)
      return some c
  comb := cp1258_comb_table

/-- `lib/converters/tcvn.h:88-160`. -/
def tcvn_d : CompDec where
  dr := [⟨0, 0x18, .tab tcvn_2uni_1 0 .all⟩, ⟨0x18, 0x80, .add 0x18⟩,
    ⟨0x80, 0x100, .tab tcvn_2uni_2 0x80 .all⟩]
  lo := 0x0300
  hi := 0x0340
  marks := vietMarks
  strict := true
  spans := viet_comp_table
  data := viet_comp_table_data
  keep := []
  isBase := vietBase tcvn_comp_bases

/-- `lib/converters/tcvn.h:225-298`; the test `(0x00fe0076U & (1U << wc)) == 0` for `wc < 0x20` is
written as ranges. -/
def tcvn_e : CompEnc where
  er := [⟨0, 1, .add 0⟩, ⟨3, 4, .add 3⟩, ⟨7, 0x11, .add 7⟩, ⟨0x18, 0x80, .add 0x18⟩,
    ⟨0xa0, 0x1b8, .tab tcvn_page00 0xa0 .nz⟩, ⟨0x300, 0x328, .tab tcvn_page03 0x300 .nz⟩,
    ⟨0x340, 0x342, .tab tcvn_page03 0x340 .nz⟩, ⟨0x1ea0, 0x1f00, .tab tcvn_page1e 0x1ea0 .nz⟩]
  rows := viet_decomp_table
  baseByte := fun wc =>
    if wc < 0x0080 then .ok (some wc)
    else do
      let c ← tcvn_page00.get (wc - 0x00a0)
      if c = 0 then return none else return some c
  comb := tcvn_comb_table

example : (List.range 0x20).filter (fun wc => 0x00fe0076 &&& (1 <<< wc) == 0) =
    [0, 3, 7, 8, 9, 10, 11, 12, 13, 14, 15, 16, 24, 25, 26, 27, 28, 29, 30, 31] := by decide

end Reiconv
