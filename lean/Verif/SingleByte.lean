import Verif.Simple

/-!
# Single-byte converters

All single-byte converters of `lib/converters` have the same form: a chain of range tests on the
argument, each branch giving a constant offset or an entry of a static table. Here such a chain is
a list of range rules, and `sb_mbtowc`/`sb_wctomb` run a list of rules. The rule lists and tables of
the individual converters are in `Verif/Gen/Sb*.lean`, produced from the C text by `tools/sb.py`.
Simplification: the order of the tests in the C chain is normalised to disjoint increasing ranges.
-/

namespace Reiconv

/-- A static C array of unsigned integers of `w` bits: entry `i` is the `i`-th group of `w` bits of
`dat`, least significant first. -/
structure Tab where
  w : Nat
  len : Nat
  dat : Nat

/-- `T[i]`; an index outside the array is undefined behaviour. -/
def Tab.get (t : Tab) (i : Nat) : Outcome Nat :=
  if i < t.len then .ok ((t.dat >>> (t.w * i)) % 2 ^ t.w) else .ub

/-- What a decoder does with a table value equal to 0xfffd. -/
inductive Hole where
  /-- no test: the value is the character -/
  | all
  /-- `RET_ILSEQ` -/
  | ilseq
  /-- the byte stands for itself (only cp1162) -/
  | ident
  deriving DecidableEq

inductive DKind where
  /-- `wc = c - lo + base` -/
  | add (base : Nat)
  /-- `wc = T[c - off]` -/
  | tab (t : Tab) (off : Nat) (h : Hole)

/-- One branch of a decoder: for bytes `lo ≤ c < hi`. -/
structure DRule where
  lo : Nat
  hi : Nat
  kind : DKind

/-- The value of a row of a decoding function for the byte `c`. -/
def DRule.eval (r : DRule) (c : Nat) : Outcome (Option Nat) :=
  match r.kind with
  | .add base => .ok (some (c - r.lo + base))
  | .tab t off h => do
    let v ← t.get (c - off)
    if v = 0xfffd then
      match h with
      | .all => return some v
      | .ilseq => return none
      | .ident => return some c
    else return some v

/-- The chain of branches; no branch means `RET_ILSEQ`. -/
def sbDecode : List DRule → Nat → Outcome (Option Nat)
  | [], _ => .ok none
  | r :: rs, c => if r.lo ≤ c ∧ c < r.hi then r.eval c else sbDecode rs c

/-- The common form of the functions `X_mbtowc` of single-byte converters. -/
def sb_mbtowc (rs : List DRule) (is : IState) (s : List Byte) : Outcome (MbRet × IState) := do
  let c ← rd s 0
  match ← sbDecode rs c with
  | some wc => return (.char wc 1, is)
  | none => return (.ilseq 0, is)

/-- What an encoder does with a table value. -/
inductive EMode where
  /-- 0 means not representable -/
  | nz
  /-- every value is a byte (the case `wc == 0` of the EBCDIC converters) -/
  | zero
  /-- the table is a decoding table; where it has 0xfffd the character stands for itself, elsewhere
  it is not representable (only cp1162) -/
  | holes
  deriving DecidableEq

inductive EKind where
  /-- the byte `wc - lo + base` -/
  | add (base : Nat)
  /-- the byte `T[wc - off]` -/
  | tab (t : Tab) (off : Nat) (m : EMode)

/-- One branch of an encoder: for characters `lo ≤ wc < hi`. -/
structure ERule where
  lo : Nat
  hi : Nat
  kind : EKind

/-- The value of a row of an encoding function for the character `wc`. -/
def ERule.eval (r : ERule) (wc : Nat) : Outcome (Option Nat) :=
  match r.kind with
  | .add base => .ok (some (wc - r.lo + base))
  | .tab t off m => do
    let v ← t.get (wc - off)
    match m with
    | .nz => return if v = 0 then none else some v
    | .zero => return some v
    | .holes => return if v = 0xfffd then some wc else none

/-- The chain of branches; no branch means `RET_ILUNI`. -/
def sbEncode : List ERule → Nat → Outcome (Option Nat)
  | [], _ => .ok none
  | r :: rs, wc => if r.lo ≤ wc ∧ wc < r.hi then r.eval wc else sbEncode rs wc

/-- The common form of the functions `X_wctomb` of single-byte converters; none looks at `n`. -/
def sb_wctomb (rs : List ERule) (os wc _n : Nat) : Outcome WcRes := do
  match ← sbEncode rs wc with
  | some b => return .put [u8 b] os
  | none => return .iluni os

/-- A single-byte encoding: its number in `all_encodings`, its two rule lists. -/
structure SB where
  index : Nat
  dr : List DRule
  er : List ERule

/-- The decoder of a single-byte encoding (`lib/converters/*.h`, one byte each). -/
def SB.dec (e : SB) : Decoder := { mbtowc := sb_mbtowc e.dr, flushwc := none }
/-- The encoder of a single-byte encoding. -/
def SB.enc (e : SB) : Encoder := { wctomb := sb_wctomb e.er, reset := none }

/-! ## Pure functions and checkers -/

/-- The character of a byte, without the surrounding program. -/
def SB.decode (e : SB) (c : Nat) : Option Nat :=
  match sbDecode e.dr c with
  | .ok x => x
  | _ => none

/-- The byte of a character, without the surrounding program. -/
def SB.encode (e : SB) (wc : Nat) : Option Nat :=
  match sbEncode e.er wc with
  | .ok x => x
  | _ => none

/-- Table accesses of a decoder rule are in bounds. -/
def DRule.safe (r : DRule) : Bool :=
  match r.kind with
  | .add base => decide (r.hi + base ≤ r.lo + 0x10000)
  | .tab t off _ => decide (off ≤ r.lo) && decide (r.hi ≤ off + t.len) && decide (t.w ≤ 16)

/-- Table accesses of an encoder rule are in bounds, and its results are bytes. -/
def ERule.safe (r : ERule) : Bool :=
  match r.kind with
  | .add base => decide (r.hi + base ≤ r.lo + 256)
  | .tab t off .holes => decide (off ≤ r.lo) && decide (r.hi ≤ off + t.len) && decide (r.hi ≤ 256)
  | .tab t off _ => decide (off ≤ r.lo) && decide (r.hi ≤ off + t.len) && decide (t.w ≤ 8)

/-- No row reads outside its table. -/
def SB.safe (e : SB) : Bool := e.dr.all DRule.safe && e.er.all ERule.safe

/-! ### Versions for the kernel

The same functions written with recursors and binary naturals only, so that the kernel evaluates
them quickly. `none` is 0 and `some v` is `v + 1`. -/

/-- Options as numbers: 0 is none. -/
def ofCode : Nat → Option Nat
  | 0 => none
  | n + 1 => some n

theorem ofCode_some {n v : Nat} : ofCode n = some v ↔ n = v + 1 := by
  cases n <;> simp [ofCode]

theorem ofCode_none {n : Nat} : ofCode n = none ↔ n = 0 := by
  cases n <;> simp [ofCode]

noncomputable def Tab.getF (t : Tab) (i : Nat) : Nat :=
  Nat.mod (Nat.shiftRight t.dat (Nat.mul t.w i)) (Nat.pow 2 t.w)

noncomputable def DRule.evalF (r : DRule) (c : Nat) : Nat :=
  DKind.rec (fun base => Nat.succ (Nat.add (Nat.sub c r.lo) base))
    (fun t off h => (fun v => cond (Nat.beq v 0xfffd)
      (Hole.rec (Nat.succ v) 0 (Nat.succ c) h) (Nat.succ v)) (t.getF (Nat.sub c off))) r.kind

noncomputable def decF (rs : List DRule) (c : Nat) : Nat :=
  List.rec 0 (fun r _ ih => cond (Nat.ble r.lo c) (cond (Nat.ble (Nat.succ c) r.hi)
    (r.evalF c) ih) ih) rs

noncomputable def ERule.evalF (r : ERule) (c : Nat) : Nat :=
  EKind.rec (fun base => Nat.succ (Nat.add (Nat.sub c r.lo) base))
    (fun t off m => (fun v => EMode.rec (cond (Nat.beq v 0) 0 (Nat.succ v)) (Nat.succ v)
      (cond (Nat.beq v 0xfffd) (Nat.succ c) 0) m) (t.getF (Nat.sub c off))) r.kind

noncomputable def encF (rs : List ERule) (c : Nat) : Nat :=
  List.rec 0 (fun r _ ih => cond (Nat.ble r.lo c) (cond (Nat.ble (Nat.succ c) r.hi)
    (r.evalF c) ih) ih) rs

/-- `f lo && … && f (lo + n - 1)` -/
noncomputable def allF (f : Nat → Bool) (lo n : Nat) : Bool :=
  Nat.rec true (fun n ih => cond (f (Nat.add lo n)) ih false) n

/-- `f` holds on every character that some rule covers. -/
noncomputable def covF (f : Nat → Bool) (rs : List ERule) : Bool :=
  List.rec true (fun r _ ih => cond (allF f r.lo (Nat.sub r.hi r.lo)) ih false) rs

noncomputable def memF (b w : Nat) (l : List (Nat × Nat)) : Bool :=
  List.rec false (fun p _ ih => cond (Nat.beq p.1 b) (cond (Nat.beq p.2 w) true ih) ih) l

/-- The decodable bytes from `b` on, `n` of them, are the list `l`. -/
noncomputable def walkF (rs : List DRule) (n : Nat) : Nat → List (Nat × Nat) → Bool :=
  Nat.rec (fun _ l => List.rec true (fun _ _ _ => false) l)
    (fun _ ih b l => Nat.rec (ih (Nat.succ b) l)
      (fun w _ => List.rec false (fun p r _ => cond (Nat.beq p.1 b) (cond (Nat.beq p.2 w)
        (ih (Nat.succ b) r) false) false) l) (decF rs b)) n

/-- The decoding is the list `t` (byte, character). -/
noncomputable def chkDec (e : SB) (t : List (Nat × Nat)) : Bool := walkF e.dr 256 0 t

/-- Encoding and decoding are inverse relations except for the pairs (byte, character) of `irr`. -/
noncomputable def chkInv (e : SB) (irr : List (Nat × Nat)) : Bool :=
  cond (allF (fun b => Nat.rec true (fun w _ =>
      bne (Nat.beq (encF e.er w) (Nat.succ b)) (memF b w irr)) (decF e.dr b)) 0 256)
  (cond (covF (fun w => Nat.rec true (fun b _ =>
      bne (Nat.beq (decF e.dr b) (Nat.succ w)) (memF b w irr)) (encF e.er w)) e.er)
  (irr.all (fun p =>
    bne (Nat.beq (encF e.er p.2) (Nat.succ p.1)) (Nat.beq (decF e.dr p.1) (Nat.succ p.2)))) false) false

/-! ### Soundness -/

theorem allF_iff (f : Nat → Bool) (lo n : Nat) :
    allF f lo n = true ↔ ∀ i, lo ≤ i → i < lo + n → f i = true := by
  induction n with
  | zero => exact ⟨fun _ i h1 h2 => by omega, fun _ => rfl⟩
  | succ n ih =>
    have : allF f lo (n + 1) = cond (f (lo + n)) (allF f lo n) false := rfl
    rw [this]
    constructor
    · intro h i hi hj
      cases hf : f (lo + n) with
      | false => rw [hf] at h; cases h
      | true =>
        rw [hf] at h
        by_cases hk : i = lo + n
        · rw [hk]; exact hf
        · exact ih.1 h i hi (by omega)
    · intro h
      rw [h (lo + n) (by omega) (by omega)]
      exact ih.2 fun i hi hj => h i hi (by omega)

theorem covF_iff (f : Nat → Bool) (rs : List ERule) :
    covF f rs = true ↔ ∀ r ∈ rs, ∀ i, r.lo ≤ i → i < r.hi → f i = true := by
  induction rs with
  | nil => simp [covF]
  | cons r rs ih =>
    have : covF f (r :: rs) = cond (allF f r.lo (r.hi - r.lo)) (covF f rs) false := rfl
    rw [this, List.forall_mem_cons, ← ih]
    cases ha : allF f r.lo (r.hi - r.lo) with
    | true =>
      rw [allF_iff] at ha
      simp only [cond_true]
      exact ⟨fun h => ⟨fun i h1 h2 => ha i h1 (by omega), h⟩, fun h => h.2⟩
    | false =>
      simp only [cond_false, Bool.false_eq_true, false_iff]
      rintro ⟨h, _⟩
      have : allF f r.lo (r.hi - r.lo) = true :=
        (allF_iff ..).2 fun i h1 h2 => h i h1 (by omega)
      rw [this] at ha; cases ha

theorem memF_iff (b w : Nat) (l : List (Nat × Nat)) : memF b w l = true ↔ (b, w) ∈ l := by
  induction l with
  | nil => simp [memF]
  | cons p l ih =>
    have : memF b w (p :: l) = cond (Nat.beq p.1 b) (cond (Nat.beq p.2 w) true (memF b w l))
      (memF b w l) := rfl
    rw [this, List.mem_cons, ← ih, Prod.ext_iff]
    cases h1 : Nat.beq p.1 b <;> cases h2 : Nat.beq p.2 w <;>
      simp only [cond_true, cond_false] <;>
      simp only [← Bool.not_eq_true, Nat.beq_eq] at h1 h2 <;> simp <;> omega

theorem Tab.get_fast {t : Tab} {i : Nat} (h : i < t.len) : t.get i = .ok (t.getF i) := by
  unfold Tab.get; rw [if_pos h]; rfl

theorem Tab.getF_lt (t : Tab) (i : Nat) : t.getF i < 2 ^ t.w :=
  Nat.mod_lt _ (Nat.two_pow_pos t.w)

theorem DRule.eval_fast {r : DRule} (h : r.safe = true) {c : Nat} (hl : r.lo ≤ c) (hh : c < r.hi) :
    r.eval c = .ok (ofCode (r.evalF c)) := by
  obtain ⟨lo, hi, k⟩ := r
  cases k with
  | add base => rfl
  | tab t off hole =>
    simp only [DRule.safe, Bool.and_eq_true, decide_eq_true_eq] at h hl hh
    simp only [DRule.eval]
    rw [Tab.get_fast (by omega)]
    simp only [Outcome.bind_ok]
    have : (DRule.mk lo hi (.tab t off hole)).evalF c =
      cond (Nat.beq (t.getF (c - off)) 0xfffd)
      (Hole.rec (Nat.succ (t.getF (c - off))) 0 (Nat.succ c) hole) (Nat.succ (t.getF (c - off))) := rfl
    rw [this]
    split
    · next hv =>
      rw [show Nat.beq (t.getF (c - off)) 0xfffd = true from by rw [Nat.beq_eq]; exact hv]
      cases hole <;> rfl
    · next hv =>
      rw [show Nat.beq (t.getF (c - off)) 0xfffd = false from by
        rw [← Bool.not_eq_true, Nat.beq_eq]; exact hv]
      rfl

theorem decF_cons (r : DRule) (rs : List DRule) (c : Nat) : decF (r :: rs) c =
    if r.lo ≤ c ∧ c < r.hi then r.evalF c else decF rs c := by
  have : decF (r :: rs) c = cond (Nat.ble r.lo c) (cond (Nat.ble (Nat.succ c) r.hi)
    (r.evalF c) (decF rs c)) (decF rs c) := rfl
  rw [this]
  cases h1 : Nat.ble r.lo c <;> cases h2 : Nat.ble (Nat.succ c) r.hi <;>
    simp only [← Bool.not_eq_true, Nat.ble_eq] at h1 h2 <;>
    first
      | rw [if_pos (by omega)]; rfl
      | rw [if_neg (by omega)]; rfl

theorem sbDecode_fast {rs : List DRule} (h : rs.all DRule.safe = true) (c : Nat) :
    sbDecode rs c = .ok (ofCode (decF rs c)) := by
  induction rs with
  | nil => rfl
  | cons r rs ih =>
    rw [List.all_cons, Bool.and_eq_true] at h
    rw [decF_cons, sbDecode]
    split
    · next hc => exact DRule.eval_fast h.1 hc.1 hc.2
    · exact ih h.2

theorem ERule.eval_fast {r : ERule} (h : r.safe = true) {c : Nat} (hl : r.lo ≤ c) (hh : c < r.hi) :
    r.eval c = .ok (ofCode (r.evalF c)) ∧ r.evalF c ≤ 256 := by
  obtain ⟨lo, hi, k⟩ := r
  cases k with
  | add base =>
    simp only [ERule.safe, decide_eq_true_eq] at h hl hh
    refine ⟨rfl, ?_⟩
    show c - lo + base + 1 ≤ 256
    omega
  | tab t off m =>
    have hb : off ≤ lo ∧ hi ≤ off + t.len := by
      cases m <;> simp only [ERule.safe, Bool.and_eq_true, decide_eq_true_eq] at h <;> exact h.1
    simp only at hl hh
    simp only [ERule.eval]
    rw [Tab.get_fast (by omega)]
    simp only [Outcome.bind_ok]
    have hlt := Tab.getF_lt t (c - off)
    have e : (ERule.mk lo hi (.tab t off m)).evalF c =
      EMode.rec (cond (Nat.beq (t.getF (c - off)) 0) 0 (Nat.succ (t.getF (c - off))))
        (Nat.succ (t.getF (c - off)))
        (cond (Nat.beq (t.getF (c - off)) 0xfffd) (Nat.succ c) 0) m := rfl
    rw [e]
    have hw : t.w ≤ 8 → t.getF (c - off) < 256 := fun hw =>
      Nat.lt_of_lt_of_le hlt (Nat.pow_le_pow_right (n := 2) (by omega) hw)
    cases m with
    | nz =>
      simp only [ERule.safe, Bool.and_eq_true, decide_eq_true_eq] at h
      have := hw h.2
      show _ ∧ cond _ _ _ ≤ _
      by_cases hv : t.getF (c - off) = 0
      · rw [if_pos hv, show Nat.beq (t.getF (c - off)) 0 = true from by rw [Nat.beq_eq]; exact hv]
        exact ⟨rfl, by simp⟩
      · rw [if_neg hv, show Nat.beq (t.getF (c - off)) 0 = false from by
          rw [← Bool.not_eq_true, Nat.beq_eq]; exact hv]
        exact ⟨rfl, this⟩
    | zero =>
      simp only [ERule.safe, Bool.and_eq_true, decide_eq_true_eq] at h
      have := hw h.2
      exact ⟨rfl, this⟩
    | holes =>
      simp only [ERule.safe, Bool.and_eq_true, decide_eq_true_eq] at h
      show _ ∧ cond _ _ _ ≤ _
      by_cases hv : t.getF (c - off) = 0xfffd
      · rw [if_pos hv, show Nat.beq (t.getF (c - off)) 0xfffd = true from by rw [Nat.beq_eq]; exact hv]
        exact ⟨rfl, by simp; omega⟩
      · rw [if_neg hv, show Nat.beq (t.getF (c - off)) 0xfffd = false from by
          rw [← Bool.not_eq_true, Nat.beq_eq]; exact hv]
        exact ⟨rfl, by simp⟩

theorem encF_cons (r : ERule) (rs : List ERule) (c : Nat) : encF (r :: rs) c =
    if r.lo ≤ c ∧ c < r.hi then r.evalF c else encF rs c := by
  have : encF (r :: rs) c = cond (Nat.ble r.lo c) (cond (Nat.ble (Nat.succ c) r.hi)
    (r.evalF c) (encF rs c)) (encF rs c) := rfl
  rw [this]
  cases h1 : Nat.ble r.lo c <;> cases h2 : Nat.ble (Nat.succ c) r.hi <;>
    simp only [← Bool.not_eq_true, Nat.ble_eq] at h1 h2 <;>
    first
      | rw [if_pos (by omega)]; rfl
      | rw [if_neg (by omega)]; rfl

theorem sbEncode_fast {rs : List ERule} (h : rs.all ERule.safe = true) (c : Nat) :
    sbEncode rs c = .ok (ofCode (encF rs c)) ∧ encF rs c ≤ 256 := by
  induction rs with
  | nil => exact ⟨rfl, Nat.zero_le _⟩
  | cons r rs ih =>
    rw [List.all_cons, Bool.and_eq_true] at h
    rw [encF_cons, sbEncode]
    split
    · next hc => exact ERule.eval_fast h.1 hc.1 hc.2
    · exact ih h.2

theorem encF_covered {rs : List ERule} {c : Nat} (h : encF rs c ≠ 0) :
    ∃ r ∈ rs, r.lo ≤ c ∧ c < r.hi := by
  induction rs with
  | nil => exact absurd rfl h
  | cons r rs ih =>
    rw [encF_cons] at h
    split at h
    · next hc => exact ⟨r, List.mem_cons_self, hc⟩
    · obtain ⟨r', h1, h2⟩ := ih h
      exact ⟨r', List.mem_cons_of_mem _ h1, h2⟩

theorem walkF_iff (rs : List DRule) (n : Nat) : ∀ b l, walkF rs n b l = true →
    ∀ c w, (c, w) ∈ l ↔ b ≤ c ∧ c < b + n ∧ decF rs c = w + 1 := by
  induction n with
  | zero =>
    intro b l h c w
    cases l with
    | nil => simp; omega
    | cons p l => cases h
  | succ n ih =>
    intro b l h c w
    have e : walkF rs (n + 1) b l = Nat.rec (walkF rs n (b + 1) l)
      (fun w _ => List.rec false (fun p r _ => cond (Nat.beq p.1 b) (cond (Nat.beq p.2 w)
        (walkF rs n (b + 1) r) false) false) l) (decF rs b) := rfl
    rw [e] at h
    cases hd : decF rs b with
    | zero =>
      rw [hd] at h
      rw [ih _ _ h]
      constructor
      · rintro ⟨h1, h2, h3⟩; exact ⟨by omega, by omega, h3⟩
      · rintro ⟨h1, h2, h3⟩
        have : b ≠ c := by rintro rfl; omega
        exact ⟨by omega, by omega, h3⟩
    | succ v =>
      rw [hd] at h
      cases l with
      | nil => cases h
      | cons p l =>
        simp only at h
        cases h1 : Nat.beq p.1 b with
        | false => rw [h1] at h; cases h
        | true =>
          cases h2 : Nat.beq p.2 v with
          | false => rw [h1, h2] at h; cases h
          | true =>
            rw [h1, h2] at h
            rw [Nat.beq_eq] at h1 h2
            rw [List.mem_cons, ih _ _ h, Prod.ext_iff]
            constructor
            · rintro (⟨h3, h4⟩ | ⟨h3, h4, h5⟩)
              · simp only at h3 h4
                subst h3
                exact ⟨by omega, by omega, by rw [h1, hd]; omega⟩
              · exact ⟨by omega, by omega, h5⟩
            · rintro ⟨h3, h4, h5⟩
              by_cases hb : b = c
              · subst hb; left; exact ⟨h1.symm, by simp only; omega⟩
              · right; exact ⟨by omega, by omega, h5⟩

theorem SB.decode_fast {e : SB} (h : e.safe = true) (c : Nat) : e.decode c = ofCode (decF e.dr c) := by
  unfold SB.safe at h
  rw [Bool.and_eq_true] at h
  unfold SB.decode; rw [sbDecode_fast h.1]

theorem SB.encode_fast {e : SB} (h : e.safe = true) (c : Nat) : e.encode c = ofCode (encF e.er c) := by
  unfold SB.safe at h
  rw [Bool.and_eq_true] at h
  unfold SB.encode; rw [(sbEncode_fast h.2 c).1]

theorem SB.encode_lt {e : SB} (h : e.safe = true) {w b : Nat} (hw : e.encode w = some b) : b < 256 := by
  rw [SB.encode_fast h, ofCode_some] at hw
  unfold SB.safe at h
  rw [Bool.and_eq_true] at h
  have := (sbEncode_fast h.2 w).2
  omega

/-- The decoding of a checked encoding is its reference table. -/
theorem SB.dec_sound {e : SB} {t} (h : e.safe = true) (hd : chkDec e t = true) (b w : Nat)
    (hb : b < 256) : e.decode b = some w ↔ (b, w) ∈ t := by
  rw [walkF_iff e.dr 256 0 t hd, SB.decode_fast h, ofCode_some]
  constructor
  · intro hh; exact ⟨by omega, by omega, hh⟩
  · intro hh; exact hh.2.2

theorem SB.table_byte {e : SB} {t} (hd : chkDec e t = true) {b w : Nat} (h : (b, w) ∈ t) :
    b < 256 := by
  have := ((walkF_iff e.dr 256 0 t hd) b w).1 h; omega

/-- Encoding and decoding of a checked encoding are inverse, except for the listed pairs. -/
theorem SB.inv_sound {e : SB} {irr} (h : e.safe = true) (hi : chkInv e irr = true) (b w : Nat)
    (hb : b < 256) :
    e.encode w = some b ↔ ((e.decode b = some w ∧ (b, w) ∉ irr) ∨
      (e.decode b ≠ some w ∧ (b, w) ∈ irr)) := by
  have h3 : ∀ p ∈ irr, bne (Nat.beq (encF e.er p.2) (Nat.succ p.1))
      (Nat.beq (decF e.dr p.1) (Nat.succ p.2)) = true := by
    unfold chkInv at hi
    cases h1 : allF (fun b => Nat.rec true (fun w _ =>
      bne (Nat.beq (encF e.er w) (Nat.succ b)) (memF b w irr)) (decF e.dr b)) 0 256 with
    | false => rw [h1] at hi; cases hi
    | true =>
      cases h2 : covF (fun w => Nat.rec true (fun b _ =>
        bne (Nat.beq (decF e.dr b) (Nat.succ w)) (memF b w irr)) (encF e.er w)) e.er with
      | false => rw [h1, h2] at hi; cases hi
      | true =>
        rw [h1, h2] at hi
        exact List.all_eq_true.1 hi
  have h1 : ∀ b < 256, ∀ w, decF e.dr b = w + 1 →
      bne (Nat.beq (encF e.er w) (Nat.succ b)) (memF b w irr) = true := by
    unfold chkInv at hi
    cases h1 : allF (fun b => Nat.rec true (fun w _ =>
      bne (Nat.beq (encF e.er w) (Nat.succ b)) (memF b w irr)) (decF e.dr b)) 0 256 with
    | false => rw [h1] at hi; cases hi
    | true =>
      intro b hb w hw
      have := (allF_iff ..).1 h1 b (by omega) (by omega)
      rw [hw] at this
      exact this
  have h2 : ∀ w b, encF e.er w = b + 1 →
      bne (Nat.beq (decF e.dr b) (Nat.succ w)) (memF b w irr) = true := by
    unfold chkInv at hi
    cases h1 : allF (fun b => Nat.rec true (fun w _ =>
      bne (Nat.beq (encF e.er w) (Nat.succ b)) (memF b w irr)) (decF e.dr b)) 0 256 with
    | false => rw [h1] at hi; cases hi
    | true =>
      cases h2 : covF (fun w => Nat.rec true (fun b _ =>
        bne (Nat.beq (decF e.dr b) (Nat.succ w)) (memF b w irr)) (encF e.er w)) e.er with
      | false => rw [h1, h2] at hi; cases hi
      | true =>
        intro w b hw
        obtain ⟨r, hr, hl, hh⟩ := encF_covered (rs := e.er) (c := w) (by omega)
        have := (covF_iff ..).1 h2 r hr w hl hh
        rw [hw] at this
        exact this
  rw [SB.decode_fast h, SB.encode_fast h, Ne, ofCode_some, ofCode_some, ← memF_iff]
  have bb : ∀ x y : Bool, (bne x y = true) ↔ ¬ (x = true ↔ y = true) := by decide
  simp only [bb, Nat.beq_eq, memF_iff] at h1 h2 h3
  rw [memF_iff]
  have h1' := h1 b hb w
  have h2' := h2 w b
  by_cases hm : (b, w) ∈ irr
  · have h3' := h3 _ hm
    simp only at h3'
    simp only [hm, Nat.succ_eq_add_one, not_true_eq_false, and_false, and_true, false_or, iff_true] at *
    constructor
    · intro he hd; exact h3' ⟨fun _ => hd, fun _ => he⟩
    · intro hd
      apply Classical.byContradiction
      intro he; exact h3' ⟨fun x => absurd x he, fun x => absurd x hd⟩
  · simp only [hm, Nat.succ_eq_add_one, not_false_eq_true, and_true, and_false, or_false, iff_false,
      Classical.not_not] at *
    exact ⟨h2', h1'⟩

/-! ## Contracts -/

theorem SB.mbtowc_eq {e : SB} (h : e.safe = true) (is : IState) (b : Byte) (s : List Byte) :
    e.dec.mbtowc is (b :: s) = .ok (match e.decode b.toNat with
      | some wc => .char wc 1
      | none => .ilseq 0, is) := by
  rw [SB.decode_fast h]
  unfold SB.safe at h
  rw [Bool.and_eq_true] at h
  show sb_mbtowc e.dr is (b :: s) = _
  simp only [sb_mbtowc, rd_zero, Outcome.bind_ok]
  rw [sbDecode_fast h.1]
  simp only [Outcome.bind_ok]
  cases ofCode (decF e.dr b.toNat) <;> rfl

/-- The decoding of the first byte. -/
def SB.item (e : SB) (s : List Byte) : MbRet :=
  match s with
  | [] => .toofew 0
  | b :: _ => match e.decode b.toNat with
    | some wc => .char wc 1
    | none => .ilseq 0

def SB.simple (e : SB) (h : e.safe = true) : SimpleDec e.dec 1 where
  g := e.item
  eq := by
    intro is s hs
    cases s with
    | nil => exact absurd rfl hs
    | cons b s => exact SB.mbtowc_eq h is b s
  flush := rfl
  unit_pos := by omega
  char_ok := by
    intro s wc n hs hg
    cases s with
    | nil => exact absurd rfl hs
    | cons b s =>
      simp only [SB.item] at hg
      split at hg <;> cases hg
      simp
  ilseq_ok := by
    intro s k hs hg
    cases s with
    | nil => exact absurd rfl hs
    | cons b s =>
      simp only [SB.item] at hg
      split at hg <;> cases hg
      simp
  toofew_ok := by
    intro s k hs hg
    cases s with
    | nil => exact absurd rfl hs
    | cons b s =>
      simp only [SB.item] at hg
      split at hg <;> cases hg
  ext := by
    intro s t hs _
    cases s with
    | nil => exact absurd rfl hs
    | cons b s => rfl

def SB.senc (e : SB) (h : e.safe = true) : SimpleEnc e.enc where
  minRoom := 1
  minRoom_le := by omega
  enc := fun wc => (e.encode wc).map fun b => [u8 b]
  need := fun _ => 0
  eq := by
    intro os wc n
    rw [if_pos (Nat.zero_le _), SB.encode_fast h]
    unfold SB.safe at h
    rw [Bool.and_eq_true] at h
    show sb_wctomb e.er os wc n = _
    unfold sb_wctomb
    rw [(sbEncode_fast h.2 wc).1]
    simp only [Outcome.bind_ok]
    cases ofCode (encF e.er wc) <;> rfl
  need_le := by intro _; omega
  len := by
    intro wc bs hb
    cases he : e.encode wc with
    | none => rw [he] at hb; cases hb
    | some b => rw [he] at hb; cases hb; simp
  reset := rfl

end Reiconv
