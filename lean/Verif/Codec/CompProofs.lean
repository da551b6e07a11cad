import Verif.Codec.Comp

/-!
# CP1255, CP1258 and TCVN: contracts
-/

namespace Reiconv

/-! ## Binary search -/

theorem binSearch_ok {key : Nat → Outcome Nat} {x lo hi : Nat}
    (hk : ∀ i, lo ≤ i → i ≤ hi → ∃ v, key i = .ok v) :
    ∀ fuel i1 i2, lo ≤ i1 → i1 ≤ i2 → i2 ≤ hi → i2 - i1 < fuel →
      ∃ r, binSearch key x fuel i1 i2 = .ok r ∧ ∀ i, r = some i → lo ≤ i ∧ i ≤ hi ∧ key i = .ok x := by
  intro fuel
  induction fuel with
  | zero => intro i1 i2 _ _ _ h; omega
  | succ fuel ih =>
    intro i1 i2 h1 h2 h3 h4
    obtain ⟨k, hkk⟩ := hk ((i1 + i2) / 2) (by omega) (by omega)
    unfold binSearch
    simp only [hkk, Outcome.bind_ok]
    by_cases hx : x = k
    · rw [if_pos hx]
      refine ⟨_, rfl, ?_⟩
      rintro i ⟨⟩
      exact ⟨by omega, by omega, by rw [hkk, hx]⟩
    · rw [if_neg hx]
      by_cases hl : x < k
      · rw [if_pos hl]
        by_cases he : i1 = (i1 + i2) / 2
        · rw [if_pos he]; exact ⟨_, rfl, by rintro i ⟨⟩⟩
        · rw [if_neg he]; exact ih _ _ h1 (by omega) (by omega) (by omega)
      · rw [if_neg hl]
        by_cases he : i1 ≠ (i1 + i2) / 2
        · rw [if_pos he]; exact ih _ _ (by omega) (by omega) h3 (by omega)
        · rw [if_neg he]
          obtain ⟨k2, hk2⟩ := hk i2 (by omega) h3
          simp only [hk2, Outcome.bind_ok]
          split
          · next h =>
            refine ⟨_, rfl, ?_⟩
            rintro i ⟨⟩
            exact ⟨by omega, h3, by rw [hk2, h]⟩
          · exact ⟨_, rfl, by rintro i ⟨⟩⟩

theorem searchRows_ok {key : Nat → Outcome Nat} {x i1 i2 : Nat} (h : i1 ≤ i2)
    (hk : ∀ i, i1 ≤ i → i ≤ i2 → ∃ v, key i = .ok v) :
    ∃ r, searchRows key x i1 i2 = .ok r ∧
      ∀ i, r = some i → i1 ≤ i ∧ i ≤ i2 ∧ key i = .ok x := by
  obtain ⟨a, ha⟩ := hk i1 (by omega) h
  obtain ⟨b, hb⟩ := hk i2 h (by omega)
  unfold searchRows
  simp only [ha, hb, Outcome.bind_ok]
  split
  · exact binSearch_ok hk _ _ _ (by omega) h (by omega) (by omega)
  · exact ⟨_, rfl, by rintro i ⟨⟩⟩

theorem rowAt_ok {α : Type} {l : List α} {i : Nat} (h : i < l.length) : rowAt l i = .ok l[i] := by
  unfold rowAt; rw [List.getElem?_eq_getElem h]

theorem caseIdx_lt : ∀ {l : List Nat} {w k : Nat}, caseIdx l w = some k → k < l.length := by
  intro l
  induction l with
  | nil => intro w k h; cases h
  | cons m ms ih =>
    intro w k h
    unfold caseIdx at h
    split at h
    · cases h; simp
    · simp only [Option.map_eq_some_iff] at h
      obtain ⟨j, hj, rfl⟩ := h
      have := ih hj
      simp only [List.length_cons]; omega

theorem caseIdx_mem : ∀ {l : List Nat} {w : Nat}, w ∈ l → caseIdx l w ≠ none := by
  intro l
  induction l with
  | nil => intro w h; cases h
  | cons m ms ih =>
    intro w h
    unfold caseIdx
    split
    · simp
    · next hne =>
      rcases List.mem_cons.1 h with h | h
      · exact absurd h hne
      · have := ih h
        cases hc : caseIdx ms w with
        | none => exact absurd hc this
        | some _ => simp

/-! ## Decoders -/

/-- Every byte gives a character below 65536 or `RET_ILSEQ`, and `abort()` is not reached. -/
def CompDec.bytesOk (d : CompDec) : Bool :=
  (List.range 256).all fun c =>
    match sbDecode d.dr c with
    | .ok none => true
    | .ok (some wc) => decide (wc < 65536) &&
        (!d.strict || !(decide (d.lo ≤ wc) && decide (wc < d.hi)) || d.marks.contains wc)
    | _ => false

def CompDec.tablesOk (d : CompDec) : Bool :=
  (d.spans.all fun s => decide (1 ≤ s.1) && decide (s.2 + s.1 ≤ d.data.length)) &&
  (d.data.all fun r => decide (0 < r.2) && decide (r.2 < 65536)) &&
  decide (d.marks.length ≤ d.spans.length)

structure CompDec.Ok (d : CompDec) : Prop where
  bytes : d.bytesOk = true
  tables : d.tablesOk = true
  base : ∀ wc, wc < 65536 → ∃ b, d.isBase wc = .ok b

/-- The character of a byte. -/
def CompDec.byte (d : CompDec) (c : Nat) : Option Nat :=
  match sbDecode d.dr c with
  | .ok x => x
  | _ => none

/-- The combination of two characters. -/
def CompDec.comb (d : CompDec) (last wc : Nat) : Option Nat :=
  match d.combine last wc with
  | .ok x => x
  | _ => none

def CompDec.isB (d : CompDec) (wc : Nat) : Bool :=
  match d.isBase wc with
  | .ok x => x
  | _ => false

theorem CompDec.byte_eq {d : CompDec} (h : d.Ok) (c : Nat) (hc : c < 256) :
    sbDecode d.dr c = .ok (d.byte c) ∧ ∀ wc, d.byte c = some wc → wc < 65536 ∧
      (d.strict = true → d.lo ≤ wc → wc < d.hi → wc ∈ d.marks) := by
  have h1 := List.all_eq_true.1 h.bytes c (List.mem_range.2 hc)
  unfold CompDec.byte
  cases hs : sbDecode d.dr c with
  | ok x =>
    refine ⟨rfl, ?_⟩
    rintro wc rfl
    rw [hs] at h1
    simp only [Bool.and_eq_true, Bool.or_eq_true, decide_eq_true_eq, Bool.not_eq_true',
      List.contains_iff_mem] at h1
    refine ⟨h1.1, ?_⟩
    intro a b c'
    rcases h1.2 with (h2 | h2) | h2
    · rw [a] at h2; cases h2
    · rw [Bool.and_eq_false_iff] at h2
      rcases h2 with h2 | h2
      · exact absurd b (of_decide_eq_false h2)
      · exact absurd c' (of_decide_eq_false h2)
    · exact h2
  | ub => rw [hs] at h1; cases h1
  | abort => rw [hs] at h1; cases h1
  | diverge => rw [hs] at h1; cases h1

theorem CompDec.comb_eq {d : CompDec} (h : d.Ok) (last wc : Nat)
    (hw : d.strict = true → d.lo ≤ wc → wc < d.hi → wc ∈ d.marks) :
    d.combine last wc = .ok (d.comb last wc) ∧
      ∀ w, d.comb last wc = some w → 0 < w ∧ w < 65536 := by
  have ht := h.tables
  unfold CompDec.tablesOk at ht
  simp only [Bool.and_eq_true, decide_eq_true_eq, List.all_eq_true] at ht
  obtain ⟨⟨ht1, ht2⟩, ht3⟩ := ht
  have key : ∃ x, d.combine last wc = .ok x ∧ ∀ w, x = some w → 0 < w ∧ w < 65536 := by
    unfold CompDec.combine
    split
    · next hr =>
      cases hk : caseIdx d.marks wc with
      | none =>
        simp only
        split
        · next hs => exact absurd hk (caseIdx_mem (hw hs hr.1 hr.2))
        · exact ⟨_, rfl, by rintro w ⟨⟩⟩
      | some k =>
        have hk1 := caseIdx_lt hk
        have hk2 : k < d.spans.length := by omega
        simp only [rowAt_ok hk2, Outcome.bind_ok]
        have hsp := ht1 _ (List.getElem_mem hk2)
        obtain ⟨r, hr1, hr2⟩ := searchRows_ok (x := last)
          (key := fun i => do let r ← rowAt d.data i; return r.1)
          (i1 := d.spans[k].2) (i2 := d.spans[k].2 + d.spans[k].1 - 1) (by omega) (by
            intro i _ hi
            have : i < d.data.length := by omega
            exact ⟨d.data[i].1, by simp only [rowAt_ok this, Outcome.bind_ok, Outcome.pure_eq]⟩)
        simp only [hr1, Outcome.bind_ok]
        cases r with
        | none => exact ⟨_, rfl, by rintro w ⟨⟩⟩
        | some i =>
          obtain ⟨h1, h2, _⟩ := hr2 i rfl
          have hi : i < d.data.length := by omega
          simp only [rowAt_ok hi, Outcome.bind_ok]
          refine ⟨_, rfl, ?_⟩
          rintro w ⟨⟩
          exact ht2 _ (List.getElem_mem hi)
    · exact ⟨_, rfl, by rintro w ⟨⟩⟩
  obtain ⟨x, hx, hx2⟩ := key
  have : d.comb last wc = x := by unfold CompDec.comb; rw [hx]
  rw [this]
  exact ⟨hx, hx2⟩

/-- The items of the decoder. -/
def CompDec.atom (d : CompDec) (is : IState) (s : List Byte) : Atom :=
  match s with
  | [] => .more
  | b :: _ =>
    match d.byte b.toNat with
    | none => .ilseq
    | some wc =>
      if is.st ≠ 0 then
        match d.comb is.st wc with
        | some w => if w ∈ d.keep then .shift 1 { is with st := w } else .char w 1 { is with st := 0 }
        | none => .char is.st 0 { is with st := 0 }
      else if d.isB wc then .shift 1 { is with st := wc }
      else .char wc 1 is

/-- The return value that belongs to an item. -/
def retOf : Atom → IState → MbRet × IState
  | .char w n is', _ => (.char w n, is')
  | .shift n is', _ => (.toofew n, is')
  | .ilseq, is => (.ilseq 0, is)
  | .more, is => (.toofew 0, is)

theorem CompDec.mbtowc_eq {d : CompDec} (h : d.Ok) (is : IState) (hst : is.st < 65536) (b : Byte)
    (s : List Byte) : d.mbtowc is (b :: s) = .ok (retOf (d.atom is (b :: s)) is) := by
  have hb : b.toNat < 256 := by have := b.toNat_lt; omega
  obtain ⟨h1, h2⟩ := CompDec.byte_eq h b.toNat hb
  unfold CompDec.mbtowc CompDec.atom
  simp only [rd_zero, Outcome.bind_ok, h1]
  cases hx : d.byte b.toNat with
  | none => rfl
  | some wc =>
    obtain ⟨h3, h4⟩ := h2 wc hx
    simp only [Nat.mod_eq_of_lt hst]
    by_cases hs : is.st ≠ 0
    · rw [if_pos hs, if_pos hs]
      rw [(CompDec.comb_eq h is.st wc h4).1]
      simp only [Outcome.bind_ok]
      cases d.comb is.st wc with
      | none => rfl
      | some w =>
        simp only
        split <;> rfl
    · rw [if_neg hs, if_neg hs]
      obtain ⟨x, hx⟩ := h.base wc h3
      have : d.isB wc = x := by unfold CompDec.isB; rw [hx]
      rw [hx, this]
      simp only [Outcome.bind_ok]
      cases x <;> rfl

theorem retOf_batch {atom : IState → List Byte → Atom} {is : IState} {s : List Byte}
    (h : ∀ n is', atom is s = .shift n is' → 0 < n) :
    Batch atom is s (retOf (atom is s) is).1 (retOf (atom is s) is).2 := by
  cases ha : atom is s with
  | char w n is' => exact .char ha
  | shift n is' => exact .pause (h _ _ ha) ha
  | ilseq => exact .ilseq ha
  | more => exact .more ha

theorem CompDec.atom_shift {d : CompDec} {is s n is'} (h : d.atom is s = .shift n is') :
    n = 1 := by
  unfold CompDec.atom at h
  repeat' split at h
  all_goals (cases h <;> try rfl)

theorem CompDec.atom_inv {d : CompDec} (h : d.Ok) {is s} (hst : is.bo = 0 ∧ is.st < 65536)
    (hne : s ≠ []) : (∀ wc n is', d.atom is s = .char wc n is' →
      (is'.bo = 0 ∧ is'.st < 65536) ∧ n ≤ s.length ∧ (n = 0 → is.st ≠ 0 ∧ is'.st = 0)) ∧
    (∀ n is', d.atom is s = .shift n is' → is'.bo = 0 ∧ is'.st < 65536) := by
  cases s with
  | nil => exact absurd rfl hne
  | cons b s =>
    have hb : b.toNat < 256 := by have := b.toNat_lt; omega
    obtain ⟨h1, h2⟩ := CompDec.byte_eq h b.toNat hb
    unfold CompDec.atom
    cases hx : d.byte b.toNat with
    | none =>
      simp only [hx]
      exact ⟨by rintro wc n is' ⟨⟩, by rintro n is' ⟨⟩⟩
    | some wc =>
      obtain ⟨h3, h4⟩ := h2 wc hx
      simp only [hx]
      by_cases hs : is.st ≠ 0
      · rw [if_pos hs]
        have h5 := (CompDec.comb_eq h is.st wc h4).2
        cases hc : d.comb is.st wc with
        | none =>
          simp only
          refine ⟨?_, by rintro n is' ⟨⟩⟩
          rintro w n is' ⟨⟩
          exact ⟨⟨hst.1, by simp⟩, by simp, fun _ => ⟨hs, rfl⟩⟩
        | some w =>
          simp only
          split
          · refine ⟨by rintro w n is' ⟨⟩, ?_⟩
            rintro n is' ⟨⟩
            exact ⟨hst.1, (h5 w hc).2⟩
          · refine ⟨?_, by rintro n is' ⟨⟩⟩
            rintro w n is' ⟨⟩
            exact ⟨⟨hst.1, by simp⟩, by simp, by omega⟩
      · rw [if_neg hs]
        split
        · refine ⟨by rintro w n is' ⟨⟩, ?_⟩
          rintro n is' ⟨⟩
          exact ⟨hst.1, h3⟩
        · refine ⟨?_, by rintro n is' ⟨⟩⟩
          rintro w n is' ⟨⟩
          exact ⟨hst, by simp, by omega⟩

def CompDec.toOK (d : CompDec) (h : d.Ok) : DecOK d.dec 1 where
  Inv := fun is => is.bo = 0 ∧ is.st < 65536
  atom := d.atom
  pend := fun st => decide (st ≠ 0)
  unit_pos := by omega
  inv_init := by decide
  inv_clear := by intro is hI; exact ⟨hI.1, by simp⟩
  char_ok := by
    intro is s wc n is' hI hne ha
    obtain ⟨h1, h2, h3⟩ := (CompDec.atom_inv h hI hne).1 wc n is' ha
    exact ⟨h1, h2, fun h0 => by have := h3 h0; simp [this]⟩
  shift_ok := by
    intro is s n is' hI hne ha
    have := CompDec.atom_shift ha
    refine ⟨(CompDec.atom_inv h hI hne).2 n is' ha, ?_, by omega⟩
    cases s with
    | nil => exact absurd rfl hne
    | cons b s => simp [this]
  ilseq_ok := by
    intro is s _ hne _
    cases s with
    | nil => exact absurd rfl hne
    | cons b s => simp
  ext := by
    intro is s t _ hne _
    cases s with
    | nil => exact absurd rfl hne
    | cons b s => rfl
  batch := by
    intro is s hI hne
    cases s with
    | nil => exact absurd rfl hne
    | cons b s =>
      refine ⟨_, _, CompDec.mbtowc_eq h is hI.2 b s, retOf_batch ?_⟩
      intro n is' ha
      rw [CompDec.atom_shift ha]
      omega
  retry := by
    intro is s wc n is' hI hne hm
    cases s with
    | nil => exact absurd rfl hne
    | cons b s =>
      have hm' := hm
      change d.mbtowc is (b :: s) = _ at hm'
      rw [CompDec.mbtowc_eq h is hI.2 b s] at hm'
      have hbo : is'.bo = is.bo := by
        have h1 : d.atom is (b :: s) = .char wc n is' := by
          revert hm'
          cases d.atom is (b :: s) <;> intro hm' <;> simp [retOf] at hm' ⊢
          exact ⟨hm'.1.1, hm'.1.2, hm'.2⟩
        have := ((CompDec.atom_inv h hI (by simp)).1 wc n is' h1).1.1
        rw [this, hI.1]
      have : ({ is' with st := is.st } : IState) = is := by
        cases is; cases is'; simp only at hbo; subst hbo; rfl
      rw [this]
      exact ⟨hI, hm⟩
  flush_ok := by
    intro f hf is hI
    cases hf
    unfold normal_flushwc
    split
    · refine ⟨⟨hI.1, by simp⟩, rfl, by simp, ?_⟩
      rintro _ ⟨⟩
      have := hI.2
      omega
    · next hs =>
      exact ⟨hI, rfl, by simp only [if_neg hs], by rintro _ ⟨⟩⟩

/-! ## Encoders -/

structure CompEnc.Ok (e : CompEnc) : Prop where
  rules : e.er.all ERule.safe = true
  rows : e.rows ≠ []
  each : ∀ r ∈ e.rows, r.2.2.length ≤ 62 ∧ (∃ c, e.baseByte r.2.1 = .ok c) ∧
    r.2.2.all (fun k => decide (k < e.comb.len)) = true

theorem combBytes_ok {t : Tab} : ∀ {ks : List Nat}, ks.all (fun k => decide (k < t.len)) = true →
    ∃ bs, combBytes t ks = .ok bs ∧ bs.length = ks.length := by
  intro ks
  induction ks with
  | nil => intro _; exact ⟨[], rfl, rfl⟩
  | cons k ks ih =>
    intro h
    simp only [List.all_cons, Bool.and_eq_true, decide_eq_true_eq] at h
    obtain ⟨bs, h1, h2⟩ := ih (by simpa using h.2)
    unfold combBytes
    rw [Tab.get_fast h.1]
    simp only [Outcome.bind_ok, h1]
    exact ⟨_, rfl, by simp [h2]⟩

theorem CompEnc.wctomb_eq {e : CompEnc} (h : e.Ok) (wc : Nat) :
    ∃ need r, (∀ os n, e.wctomb os wc n = .ok (if need ≤ n then
      (match (r : Option (List Byte)) with
        | some bs => .put bs os
        | none => .iluni os) else .small os)) ∧ need ≤ 64 ∧
      ∀ bs, r = some bs → bs ≠ [] ∧ bs.length ≤ max need 1 ∧ need ≤ bs.length := by
  have h1 := (sbEncode_fast h.rules wc).1
  unfold CompEnc.wctomb
  simp only [h1, Outcome.bind_ok]
  cases ofCode (encF e.er wc) with
  | some b =>
    refine ⟨0, some [u8 b], fun os n => by simp, by omega, ?_⟩
    rintro bs ⟨⟩
    simp
  | none =>
    have hl : 0 < e.rows.length := List.length_pos_iff.2 h.rows
    obtain ⟨r, hr1, hr2⟩ := searchRows_ok (x := wc)
      (key := fun i => do let r ← rowAt e.rows i; return r.1)
      (i1 := 0) (i2 := e.rows.length - 1) (by omega) (by
        intro i _ hi
        have : i < e.rows.length := by omega
        exact ⟨e.rows[i].1, by simp only [rowAt_ok this, Outcome.bind_ok, Outcome.pure_eq]⟩)
    simp only [hr1, Outcome.bind_ok]
    cases r with
    | none => exact ⟨0, none, fun os n => by simp, by omega, by rintro bs ⟨⟩⟩
    | some i =>
      obtain ⟨_, h3, _⟩ := hr2 i rfl
      have hi : i < e.rows.length := by omega
      obtain ⟨h4, ⟨c, h5⟩, h6⟩ := h.each _ (List.getElem_mem hi)
      simp only [rowAt_ok hi, Outcome.bind_ok, h5]
      cases c with
      | none => exact ⟨0, none, fun os n => by simp, by omega, by rintro bs ⟨⟩⟩
      | some c =>
        obtain ⟨bs, h7, h8⟩ := combBytes_ok h6
        refine ⟨1 + e.rows[i].2.2.length, some (u8 c :: bs), ?_, by omega, ?_⟩
        · intro os n
          simp only [h7, Outcome.bind_ok, Outcome.pure_eq]
          by_cases hn : n < 1 + e.rows[i].2.2.length
          · rw [if_pos hn, if_neg (Nat.not_le.2 hn)]
          · rw [if_neg hn, if_pos (Nat.not_lt.1 hn)]
        · rintro bs' ⟨⟩
          simp only [List.length_cons, h8]
          exact ⟨by simp, by omega, by omega⟩

noncomputable def CompEnc.senc (e : CompEnc) (h : e.Ok) : SimpleEnc e.enc where
  minRoom := 1
  minRoom_le := by omega
  need := fun wc => (CompEnc.wctomb_eq h wc).choose
  enc := fun wc => (CompEnc.wctomb_eq h wc).choose_spec.choose
  eq := fun os wc n => (CompEnc.wctomb_eq h wc).choose_spec.choose_spec.1 os n
  need_le := fun wc => (CompEnc.wctomb_eq h wc).choose_spec.choose_spec.2.1
  len := fun wc => (CompEnc.wctomb_eq h wc).choose_spec.choose_spec.2.2
  reset := rfl

/-! ## The three converters -/

theorem cp1255_d_ok : cp1255_d.Ok where
  bytes := by decide +kernel
  tables := by decide +kernel
  base := fun _ _ => ⟨_, rfl⟩

theorem vietBase_ok {t : Tab} (h : t.len = 12) (wc : Nat) : ∃ b, vietBase t wc = .ok b := by
  unfold vietBase
  split
  · next hr =>
    rw [Tab.get_fast (by rw [h, Nat.shiftRight_eq_div_pow]; omega)]
    exact ⟨_, rfl⟩
  · exact ⟨_, rfl⟩

theorem cp1258_d_ok : cp1258_d.Ok where
  bytes := by decide +kernel
  tables := by decide +kernel
  base := fun wc _ => vietBase_ok rfl wc

theorem tcvn_d_ok : tcvn_d.Ok where
  bytes := by decide +kernel
  tables := by decide +kernel
  base := fun wc _ => vietBase_ok rfl wc

def CompEnc.rowsOk (e : CompEnc) : Bool :=
  e.rows.all fun r => decide (r.2.2.length ≤ 62) && (e.baseByte r.2.1).isOk &&
    r.2.2.all (fun k => decide (k < e.comb.len))

theorem CompEnc.each_of {e : CompEnc} (h : e.rowsOk = true) : ∀ r ∈ e.rows, r.2.2.length ≤ 62 ∧
    (∃ c, e.baseByte r.2.1 = .ok c) ∧ r.2.2.all (fun k => decide (k < e.comb.len)) = true := by
  intro r hr
  have h1 := List.all_eq_true.1 h r hr
  simp only [Bool.and_eq_true, decide_eq_true_eq] at h1
  refine ⟨h1.1.1, ?_, h1.2⟩
  have h2 := h1.1.2
  cases hb : e.baseByte r.2.1 with
  | ok c => exact ⟨c, rfl⟩
  | ub => rw [hb] at h2; cases h2
  | abort => rw [hb] at h2; cases h2
  | diverge => rw [hb] at h2; cases h2

theorem cp1255_e_ok : cp1255_e.Ok := ⟨by decide +kernel, by decide, CompEnc.each_of (by decide +kernel)⟩
theorem cp1258_e_ok : cp1258_e.Ok := ⟨by decide +kernel, by decide, CompEnc.each_of (by decide +kernel)⟩
theorem tcvn_e_ok : tcvn_e.Ok := ⟨by decide +kernel, by decide, CompEnc.each_of (by decide +kernel)⟩

end Reiconv
