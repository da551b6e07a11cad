import Verif.Props.Registry
import Verif.Props.RoundTrip

/-!
# C49: a conversion depends on the characters of the text only
-/

namespace Reiconv

/-- What is written for characters one after the other, from output state `os`: bytes, next state, number of
irreversible conversions; `none` if there is a character for which the conversion fails. -/
def writeAll (ec : Nat → Nat → Option (List Byte × Nat × Nat)) : Nat → List Nat → Option (List Byte × Nat × Nat)
  | os, [] => some ([], os, 0)
  | os, c :: cs =>
    match ec os c with
    | none => none
    | some (bs, os1, i) =>
      match writeAll ec os1 cs with
      | none => none
      | some (r, os2, j) => some (bs ++ r, os2, i + j)

theorem writeAll_append {ec : Nat → Nat → Option (List Byte × Nat × Nat)} : ∀ (a b : List Nat) (os : Nat),
    writeAll ec os (a ++ b) = match writeAll ec os a with
      | none => none
      | some (x, os1, i) =>
        match writeAll ec os1 b with
        | none => none
        | some (y, os2, j) => some (x ++ y, os2, i + j) := by
  intro a
  induction a with
  | nil =>
    intro b os
    simp only [List.nil_append, writeAll]
    cases writeAll ec os b with
    | none => rfl
    | some x => simp
  | cons c a ih =>
    intro b os
    simp only [List.cons_append, writeAll]
    cases ec os c with
    | none => rfl
    | some x =>
      obtain ⟨bs, os1, i⟩ := x
      simp only [ih]
      cases writeAll ec os1 a with
      | none => rfl
      | some y =>
        obtain ⟨r, os2, j⟩ := y
        simp only
        cases writeAll ec os2 b with
        | none => rfl
        | some z => simp [Nat.add_assoc]

/-- The run of a text. -/
theorem runs_of_text {atom unit discard ec} {is is' : IState} {inp cs} (h : Chars atom is inp cs is') : ∀ os,
    match writeAll ec os cs with
    | some (o, os', i) => RunsG atom unit discard ec ⟨is, os⟩ inp o i (.done ⟨is', os'⟩)
    | none => ∃ o i, RunsG atom unit discard ec ⟨is, os⟩ inp o i .eilseq := by
  induction h with
  | nil is => intro os; exact .done _
  | @char is inp wc n is' cs is'' hne ha _ ih =>
    intro os
    simp only [writeAll]
    cases hf : ec os wc with
    | none => exact ⟨_, _, .unenc (s := ⟨is, os⟩) hne ha hf⟩
    | some x =>
      obtain ⟨bs, os1, i⟩ := x
      have := ih os1
      simp only
      cases hr : writeAll ec os1 cs with
      | none =>
        rw [hr] at this
        obtain ⟨o, j, h⟩ := this
        exact ⟨_, _, .char (s := ⟨is, os⟩) hne ha hf h⟩
      | some y =>
        rw [hr] at this
        exact .char (s := ⟨is, os⟩) hne ha hf this
  | shift hne ha _ ih =>
    intro os
    have := ih os
    split at this
    · exact .shift (s := ⟨_, os⟩) hne ha this
    · obtain ⟨o, i, h⟩ := this
      exact ⟨o, i, .shift (s := ⟨_, os⟩) hne ha h⟩

/-- The conversion of a text is what is written for its characters. -/
theorem whole_iff_write {A B : Entry} {discard : Bool} {inp : List Byte} {cs : List Nat} (h : A.Text inp cs)
    (out : List Byte) (irr : Nat) : Whole A.atom (A.conv B discard) St.init inp out irr ↔
      ∃ bs os, writeAll (encChar B.enc discard) 0 cs = some (bs, os, irr) ∧ out = bs ++ B.enc.tail os := by
  obtain ⟨cs0, is, h1, rfl⟩ := h
  rw [writeAll_append]
  have hrun := runs_of_text (unit := A.unit) (discard := discard) (ec := encChar B.enc discard) h1 0
  unfold Whole
  cases hx : writeAll (encChar B.enc discard) 0 cs0 with
  | none =>
    rw [hx] at hrun
    obtain ⟨o, i, hrun⟩ := hrun
    constructor
    · rintro ⟨o', i', s', fo, fi, h2, _⟩
      obtain ⟨_, _, h⟩ := runs_det hrun h2
      cases h
    · rintro ⟨bs, os, h, _⟩; cases h
  | some x =>
    obtain ⟨x, os1, i⟩ := x
    rw [hx] at hrun
    have hrun : Runs A.atom (A.conv B discard) St.init inp x i (.done ⟨is, os1⟩) := hrun
    have hfin : ∀ fo fi, finish (A.conv B discard) ⟨is, os1⟩ = some (fo, fi) ↔
        ∃ y os2, writeAll (encChar B.enc discard) os1 (A.dec.kept is) = some (y, os2, fi) ∧ fo = y ++ B.enc.tail os2 := by
      intro fo fi
      rw [← pending_kept (A := A) (B := B) (discard := discard) (os := os1)]
      unfold finish
      cases hp : (pending (A.conv B discard) ⟨is, os1⟩).1 with
      | none =>
        simp only [Option.toList, writeAll, Option.some.injEq, Prod.mk.injEq]
        constructor
        · rintro ⟨rfl, rfl⟩; exact ⟨[], os1, ⟨rfl, rfl, rfl⟩, by simp [Entry.conv]⟩
        · rintro ⟨y, os2, ⟨rfl, rfl, rfl⟩, rfl⟩; exact ⟨by simp [Entry.conv], rfl⟩
      | some wc =>
        simp only [Option.toList, writeAll]
        show (match encChar B.enc discard os1 wc with
          | some (bs, os, i) => some (bs ++ B.enc.tail os, i)
          | none => none) = some (fo, fi) ↔ _
        cases encChar B.enc discard os1 wc with
        | none => simp
        | some z =>
          obtain ⟨bs, os, j⟩ := z
          simp only [Option.some.injEq, Prod.mk.injEq, List.append_nil, Nat.add_zero]
          constructor
          · rintro ⟨rfl, rfl⟩; exact ⟨bs, os, ⟨rfl, rfl, rfl⟩, rfl⟩
          · rintro ⟨y, os2, ⟨rfl, rfl, rfl⟩, rfl⟩; exact ⟨rfl, rfl⟩
    constructor
    · rintro ⟨o', i', s', fo, fi, h2, h3, rfl, rfl⟩
      obtain ⟨rfl, rfl, h⟩ := runs_det hrun h2
      cases h
      obtain ⟨y, os2, h4, rfl⟩ := (hfin fo fi).1 h3
      simp only [h4]
      exact ⟨_, _, rfl, by simp⟩
    · rintro ⟨bs, os, h2, rfl⟩
      simp only at h2
      cases hk : writeAll (encChar B.enc discard) os1 (A.dec.kept is) with
      | none => rw [hk] at h2; cases h2
      | some z =>
        obtain ⟨y, os2, j⟩ := z
        rw [hk] at h2
        cases h2
        exact ⟨x, i, _, _, _, hrun, (hfin _ _).2 ⟨y, _, hk, rfl⟩, by simp, rfl⟩

/-- The results of `reiconv_convert`, all of them. -/
theorem convert_cases (A B : Entry) (discard : Bool) (hA : A.FixedOrder) (inp : List Byte) (alloc : Nat → List Byte)
    (hal : ∀ n, (alloc n).length = n) :
    ∃ r, convert (A.conv B discard) St.init inp true true (fun n => some (alloc n)) = .ok r ∧
      ((∃ out irr, Whole A.atom (A.conv B discard) St.init inp out irr ∧ r.outLen = some out.length ∧
          (r.ret = .ok () ∧ r.data = some out ∨ r.ret = .error .E2BIG ∧ r.data = none)) ∨
       ((∀ out irr, ¬ Whole A.atom (A.conv B discard) St.init inp out irr) ∧ r.ret = .error .EILSEQ ∧
          r.outLen = none ∧ r.data = none)) := by
  obtain ⟨sz, s1, h1, hI1, hO1, ⟨n, out, irr, rfl, hw, rfl, h4⟩ | ⟨rfl, hno⟩⟩ := size_whole A B discard inp
  · obtain rfl := h4 hA
    obtain ⟨ret, s2, b, hx, hl, h5⟩ := static_whole A B discard St.init hI1 hO1 inp
      (alloc out.length) hw (Or.inl (by rw [hal]; exact Nat.le_refl _))
    rw [hal] at hl h5
    rcases h5 with ⟨rfl, h5, _, _⟩ | ⟨rfl, h5, _, h6⟩
    · have hroom : b.room = [] := by
        apply List.eq_nil_of_length_eq_zero
        rw [h5] at hl; omega
      have hn : b.null = false := by
        obtain ⟨y, e, hy, hp⟩ := convertStatic_spec (c := A.conv B discard) A.decOK B.encOK St.init
          inp ⟨false, [], alloc out.length⟩ hI1 hO1 rfl ⟨_, hx⟩
        rw [hx] at hy; cases hy
        exact hp.null_eq
      refine ⟨⟨.ok (), s2, some out.length, some out⟩, ?_, Or.inl ⟨out, irr, hw, rfl, Or.inl ⟨rfl, rfl⟩⟩⟩
      simp only [convert, h1, Outcome.bind_ok, Bool.not_true, Bool.false_eq_true, if_false, if_true,
        hx, hn, h5, hroom, List.append_nil]
    · refine ⟨⟨.error .E2BIG, s2, some out.length, none⟩, ?_, Or.inl ⟨out, irr, hw, rfl, Or.inr ⟨rfl, rfl⟩⟩⟩
      simp only [convert, h1, Outcome.bind_ok, Bool.not_true, Bool.false_eq_true, if_false, if_true, hx]
  · refine ⟨⟨.error .EILSEQ, s1, none, none⟩, ?_, Or.inr ⟨hno, rfl, rfl, rfl⟩⟩
    simp only [convert, h1, Outcome.bind_ok]

/-- C49, partial. Two texts with the same characters, in encodings `A` and `A'` without byte order marks, are converted to
`B`. The lengths reported are the same; the conversion fails with `EILSEQ` for both or for none; if both succeed, the
results are the same; if all characters are representable in `B`, both succeed.
Missing: one may succeed and the other fail with `E2BIG` (`C49_depends_on_source`). -/
theorem C49_same_result_partial (A A' B : Entry) (discard : Bool) (hA : A.FixedOrder) (hA' : A'.FixedOrder)
    (inp inp' : List Byte) (cs : List Nat) (h : A.Text inp cs) (h' : A'.Text inp' cs)
    (alloc : Nat → List Byte) (hal : ∀ n, (alloc n).length = n) :
    ∃ r r', convert (A.conv B discard) St.init inp true true (fun n => some (alloc n)) = .ok r ∧
      convert (A'.conv B discard) St.init inp' true true (fun n => some (alloc n)) = .ok r' ∧
      r.outLen = r'.outLen ∧
      (r.ret = .error .EILSEQ ↔ r'.ret = .error .EILSEQ) ∧
      (r.ret = .ok () → r'.ret = .ok () → r.data = r'.data) ∧
      ((∃ out, B.Encodes cs out) → r.ret = .ok () ∧ r'.ret = .ok ()) := by
  obtain ⟨r, h1, h2⟩ := convert_cases A B discard hA inp alloc hal
  obtain ⟨r', h1', h2'⟩ := convert_cases A' B discard hA' inp' alloc hal
  have hE : (∃ out, B.Encodes cs out) → r.ret = .ok () ∧ r'.ret = .ok () := by
    rintro ⟨out, ho⟩
    obtain ⟨x, g1, g2, _⟩ := convert_text discard hA h ho alloc hal
    obtain ⟨x', g1', g2', _⟩ := convert_text discard hA' h' ho alloc hal
    rw [h1] at g1; cases g1
    rw [h1'] at g1'; cases g1'
    exact ⟨g2, g2'⟩
  refine ⟨r, r', h1, h1', ?_⟩
  simp only [whole_iff_write h, whole_iff_write h'] at h2 h2'
  rcases h2 with ⟨out, irr, h2, h3, h4⟩ | ⟨h2, h3, h4, h5⟩ <;> rcases h2' with ⟨out', irr', h2', h3', h4'⟩ | ⟨h2', h3', h4', h5'⟩
  · obtain ⟨bs, os, g1, rfl⟩ := h2
    obtain ⟨bs', os', g1', rfl⟩ := h2'
    rw [g1] at g1'; cases g1'
    refine ⟨by rw [h3, h3'], ?_, ?_, hE⟩
    · rcases h4 with ⟨h4, _⟩ | ⟨h4, _⟩ <;> rcases h4' with ⟨h4', _⟩ | ⟨h4', _⟩ <;> rw [h4, h4'] <;> simp
    · rcases h4 with ⟨h4, h5⟩ | ⟨h4, _⟩ <;> rcases h4' with ⟨h4', h5'⟩ | ⟨h4', _⟩ <;> rw [h4, h4'] <;> simp [*]
  · exact absurd h2 (h2' _ _)
  · exact absurd h2' (h2 _ _)
  · exact ⟨by rw [h4, h4'], by simp [h3, h3'], by simp [h3], hE⟩

/-- "é" in UTF-8 and in ISO-8859-1. -/
example : utf8_entry.Text [0xC3, 0xA9] [0xE9] ∧ iso8859_1_entry.Text [0xE9] [0xE9] :=
  ⟨(C19_utf8_decoding _ _).2 (by decide), ⟨[0xE9], ⟨0, 0⟩, .char (n := 1) (by simp) (by decide) (.nil _), rfl⟩⟩

/-- Without discarding `א` cannot be converted to ASCII; with the discard flag the result is empty. From CP1255, which
holds the letter back, the call succeeds; from UTF-8 it fails with `E2BIG`. -/
theorem C49_depends_on_source :
    convert (cp1255_entry.conv ascii_entry true) St.init [0xE0] true true zeros = .ok ⟨.ok (), St.init, some 0, some []⟩ ∧
    convert (utf8_entry.conv ascii_entry true) St.init [0xD7, 0x90] true true zeros =
      .ok ⟨.error .E2BIG, St.init, some 0, none⟩ := by
  refine ⟨by decide +kernel, by decide +kernel⟩

/-- C49 for the way by a third encoding: if the characters of a text are representable in a reversible encoding `U`
(for example UTF-8), then converting it to `U` and the result to `B` gives what the direct conversion to `B` gives, in
the sense of `C49_same_result_partial`. -/
theorem C49_pivot_partial (A U B : Entry) (discard discard' : Bool) (hA : A.FixedOrder) (hU : Reversible U)
    (inp mid : List Byte) (cs : List Nat) (h : A.Text inp cs) (hc : ∀ c ∈ cs, c < 4294967296) (hm : U.Encodes cs mid)
    (alloc : Nat → List Byte) (hal : ∀ n, (alloc n).length = n) :
    ∃ m r r', convert (A.conv U discard') St.init inp true true (fun n => some (alloc n)) = .ok m ∧
      m.ret = .ok () ∧ m.data = some mid ∧
      convert (U.conv B discard) St.init mid true true (fun n => some (alloc n)) = .ok r ∧
      convert (A.conv B discard) St.init inp true true (fun n => some (alloc n)) = .ok r' ∧
      r.outLen = r'.outLen ∧
      (r.ret = .error .EILSEQ ↔ r'.ret = .error .EILSEQ) ∧
      (r.ret = .ok () → r'.ret = .ok () → r.data = r'.data) ∧
      ((∃ out, B.Encodes cs out) → r.ret = .ok () ∧ r'.ret = .ok ()) := by
  obtain ⟨m, h1, h2, _, h3⟩ := convert_text discard' hA h hm alloc hal
  obtain ⟨_, hU2, hU3⟩ := hU.ok
  obtain ⟨r, r', h4⟩ := C49_same_result_partial U A B discard hU3 hA mid inp cs (hU2 cs mid hc hm) h alloc hal
  exact ⟨m, r, r', h1, h2, h3, h4⟩

/-- The hypotheses are met: "é" from ISO-8859-1 by way of UTF-8. -/
example : Reversible utf8_entry ∧ utf8_entry.Encodes [0xE9] [0xC3, 0xA9] :=
  ⟨.inl (by simp [exactUni]), ⟨[0xC3, 0xA9], 0, by decide, by decide⟩⟩

/-! ## Source encodings that hold nothing back -/

/-- Write characters one after the other into a buffer, as the loop of `lib/loop_unicode.h:37-158` does. -/
def putText (c : Conv) : List Nat → Nat → Buf → Nat → Outcome (Except Errno Nat × Nat × Buf)
  | [], os, b, res => .ok (.ok res, os, b)
  | wc :: cs, os, b, res =>
    if b.room.length = 0 then .ok (.error .E2BIG, os, b)
    else do
      let (p, os, b) ← putChar c os wc b
      match p with
      | .err e => .ok (.error e, os, b)
      | .done irr => putText c cs os b (res + irr)

theorem outcountOk_err {oc os b irr e os' b'} (h : outcountOk oc os b irr = .ok (.err e, os', b')) : e = .E2BIG := by
  unfold outcountOk at h
  split at h
  · cases h; rfl
  · cases hb : b.advance oc.toNat with
    | ok x => rw [hb, Outcome.bind_ok] at h; cases h
    | _ => rw [hb] at h; cases h

theorem putChar_not_EINVAL {c : Conv} {os wc b os' b'} (h : putChar c os wc b = .ok (.err .EINVAL, os', b')) : False := by
  unfold putChar at h
  cases h1 : callWctomb c os wc b with
  | ok x =>
    rw [h1, Outcome.bind_ok] at h
    simp only at h
    split at h
    · cases outcountOk_err h
    · split at h
      · cases h
      · split at h
        · cases outcountOk_err h
        · cases h2 : callWctomb c x.2.1 0xFFFD x.2.2 with
          | ok y =>
            rw [h2, Outcome.bind_ok] at h
            split at h
            · cases outcountOk_err h
            · cases h
          | _ => rw [h2] at h; cases h
  | _ => rw [h1] at h; cases h

theorem chars_batch {atom : IState → List Byte → Atom} {is inp r is1} (hB : Batch atom is inp r is1) :
    inp ≠ [] → ∀ {cs is'}, Chars atom is inp cs is' →
    match r with
    | .ilseq _ => False
    | .toofew k => Chars atom is1 (inp.drop k) cs is' ∧ (k = 0 → atom is1 inp = .more)
    | .char wc n => ∃ cs1, cs = wc :: cs1 ∧ Chars atom is1 (inp.drop n) cs1 is' := by
  induction hB with
  | more ha =>
    intro hne cs is' h
    refine ⟨by simpa using h, fun _ => ha⟩
  | ilseq ha =>
    intro hne cs is' h
    cases h with
    | nil => exact hne rfl
    | char _ h1 _ => rw [ha] at h1; cases h1
    | shift _ h1 _ => rw [ha] at h1; cases h1
  | char ha =>
    intro hne cs is' h
    cases h with
    | nil => exact absurd rfl hne
    | char _ h1 h2 => rw [ha] at h1; cases h1; exact ⟨_, rfl, h2⟩
    | shift _ h1 _ => rw [ha] at h1; cases h1
  | pause hn ha =>
    intro hne cs is' h
    cases h with
    | nil => exact absurd rfl hne
    | char _ h1 _ => rw [ha] at h1; cases h1
    | shift _ h1 h2 => rw [ha] at h1; cases h1; exact ⟨h2, fun h => by omega⟩
  | @shift is s n is1 r is2 ha hne' _ ih =>
    intro hne cs is' h
    cases h with
    | nil => exact absurd rfl hne
    | char _ h1 _ => rw [ha] at h1; cases h1
    | shift _ h1 h2 =>
      rw [ha] at h1; cases h1
      have := ih hne' h2
      cases r with
      | ilseq k => exact this
      | toofew k =>
        simp only [MbRet.addCount]
        simp only [List.drop_drop] at this
        refine ⟨this.1, fun h => ?_⟩
        have h0 : k = 0 := by omega
        have h1 : n = 0 := by omega
        subst h0 h1
        simpa using this.2 rfl
      | char wc k =>
        simp only [MbRet.addCount]
        simpa only [List.drop_drop] using this

theorem loop_text {c : Conv} (hd : DecOK c.dec c.unit) : ∀ (fuel : Nat) (is : IState) (inp : List Byte) (cs : List Nat)
    (is' : IState) (os : Nat) (b : Buf) (res : Nat), hd.Inv is → Chars hd.atom is inp cs is' → mu hd.pend is inp < fuel →
    ((loopConvert c fuel ⟨is, os⟩ inp b res) >>= fun r => Outcome.ok (r.ret, r.st.os, r.buf)) = putText c cs os b res := by
  intro fuel
  induction fuel with
  | zero => intro is inp cs is' os b res _ _ h; omega
  | succ fuel ih =>
    intro is inp cs is' os b res hI h hfuel
    by_cases hne : inp = []
    · subst hne
      rw [loop_nil]
      cases h with
      | nil => rfl
      | char h0 => exact absurd rfl h0
      | shift h0 => exact absurd rfl h0
    obtain ⟨ret, is1, hmb, hbatch⟩ := hd.batch is inp hI hne
    obtain ⟨hI', hbc, hbi, hbt⟩ := batch_ok hd hbatch hI hne
    have hcb := chars_batch hbatch hne h
    cases ret with
    | ilseq k => exact absurd hcb id
    | toofew k =>
      obtain ⟨hk, hmu, hmu'⟩ := hbt k rfl
      rw [loop_toofew (s := ⟨is, os⟩) hne hmb hk]
      obtain ⟨h1, h2⟩ := hcb
      by_cases hz : k = 0
      · subst hz
        exfalso
        have h3 := h2 rfl
        rw [List.drop_zero] at h1
        cases h1 with
        | nil => exact hne rfl
        | char _ h1 _ => rw [h3] at h1; cases h1
        | shift _ h1 _ => rw [h3] at h1; cases h1
      · rw [if_neg hz]
        have hlt := hmu' (by omega)
        exact ih is1 _ cs is' os b res hI' h1 (by omega)
    | char wc n =>
      obtain ⟨hn, hmu⟩ := hbc wc n rfl
      obtain ⟨cs1, rfl, h1⟩ := hcb
      rw [loop_char (s := ⟨is, os⟩) hne hmb hn]
      unfold putText
      by_cases hr : b.room.length = 0
      · rw [if_pos hr, if_pos hr]; rfl
      · rw [if_neg hr, if_neg hr]
        simp only
        cases putChar c os wc b with
        | ok x =>
          obtain ⟨p, os1, b1⟩ := x
          simp only [Outcome.bind_ok]
          cases p with
          | err e => rfl
          | done irr => exact ih is1 _ cs1 is' os1 b1 (res + irr) hI' h1 (by omega)
        | _ => rfl

/-- `reiconv_convert_static_size`, as a function of the characters. -/
def staticText (c : Conv) (cs : List Nat) (b : Buf) : Outcome (Except Errno Unit × Buf) := do
  let (ret, os, b) ← putText c cs 0 b 0
  match ret with
  | .error e => .ok (.error e, b)
  | .ok _ => do
    let r ← resetOut c ⟨IState.init, os⟩ b 0
    match r.ret with
    | .error e => .ok (.error e, r.buf)
    | .ok _ => .ok (.ok (), r.buf)

theorem static_text {A B : Entry} {discard : Bool} {inp : List Byte} {cs : List Nat} (hA : A.dec.flushwc = none)
    (h : A.Text inp cs) (s : St) (hs : s = St.init) (room : List Byte) :
    ((convertStatic (A.conv B discard) s inp ⟨false, [], room⟩) >>= fun x => Outcome.ok (x.1, x.2.2)) =
      staticText (A.conv B discard) cs ⟨false, [], room⟩ := by
  subst hs
  obtain ⟨cs0, is, h1, rfl⟩ := h
  have hk : A.dec.kept is = [] := by simp [Decoder.kept, hA]
  rw [hk, List.append_nil]
  have hflush : ∀ (s : St) (b : Buf), b.null = false →
      ((staticFlush (A.conv B discard) s b) >>= fun x => Outcome.ok (x.1, x.2.2)) =
      ((resetOut (A.conv B discard) ⟨IState.init, s.os⟩ b 0) >>= fun r => match r.ret with
        | .error e => Outcome.ok (Except.error e, r.buf)
        | .ok _ => Outcome.ok (Except.ok (), r.buf)) := by
    intro s b hb
    have hf : (A.conv B discard).dec.flushwc = none := hA
    simp only [staticFlush, iconv, loopReset, hb, Bool.false_eq_true, if_false, hf]
    unfold resetOut
    cases (A.conv B discard).enc.reset with
    | none => rfl
    | some f =>
      simp only
      cases f s.os b.room.length with
      | ok r =>
        simp only [Outcome.bind_ok]
        cases b.store r.ws with
        | ok b1 =>
          simp only [Outcome.bind_ok]
          split
          · rfl
          · cases b1.advance r.ret.code.toNat <;> rfl
        | _ => rfl
      | _ => rfl
  unfold convertStatic staticText
  rw [staticLoop]
  by_cases hne : inp = []
  · subst hne
    rw [if_pos rfl]
    have : cs0 = [] := by
      cases h1 with
      | nil => rfl
      | char h0 => exact absurd rfl h0
      | shift h0 => exact absurd rfl h0
    subst this
    rw [hflush _ _ rfl]
    rfl
  · rw [if_neg hne]
    have hI := A.decOK.inv_init
    have hmu : mu A.decOK.pend IState.init inp < 2 * inp.length + 2 := by
      unfold mu; split <;> omega
    have h2 := loop_text (c := A.conv B discard) A.decOK (2 * inp.length + 2) IState.init inp cs0 is 0 ⟨false, [], room⟩ 0
      hI h1 hmu
    obtain ⟨r, e, irr, h3, h4⟩ := loop_spec (c := A.conv B discard) A.decOK B.encOK (2 * inp.length + 2) St.init inp
      ⟨false, [], room⟩ 0 hI B.encOK.inv_init (fun _ => rfl) hmu
    have h3' : loopConvert (A.conv B discard) (2 * inp.length + 2) ⟨IState.init, 0⟩ inp ⟨false, [], room⟩ 0 = .ok r := h3
    rw [h3', Outcome.bind_ok] at h2
    rw [← h2]
    have hi : iconv (A.conv B discard) St.init (some inp) (some ⟨false, [], room⟩) = .ok r := h3
    rw [hi]
    simp only [Outcome.bind_ok]
    have hres := h4.res
    have hnull := h4.null_eq
    cases hr : r.ret with
    | ok n =>
      rw [hr] at hres
      simp only
      rw [staticLoop, if_pos hres.1]
      exact hflush _ _ hnull
    | error q =>
      cases q with
      | EINVAL =>
        exfalso
        rw [hr] at hres h2
        have : ∀ (l : List Nat) (os : Nat) (b : Buf) (res os' b'), 
            putText (A.conv B discard) l os b res ≠ .ok (.error .EINVAL, os', b') := by
          intro l
          induction l with
          | nil => intro os b res os' b' h; cases h
          | cons wc l ihl =>
            intro os b res os' b' h
            unfold putText at h
            split at h
            · cases h
            · cases hp : putChar (A.conv B discard) os wc b with
              | ok x =>
                rw [hp, Outcome.bind_ok] at h
                obtain ⟨p, os1, b1⟩ := x
                cases p with
                | done irr => exact ihl _ _ _ _ _ h
                | err e =>
                  simp only [Outcome.ok.injEq, Prod.mk.injEq, Except.error.injEq] at h
                  obtain ⟨rfl, _, _⟩ := h
                  exact putChar_not_EINVAL hp
              | _ => rw [hp] at h; cases h
        exact this _ _ _ _ _ _ h2.symm
      | _ => rfl

theorem convert_static {A B : Entry} (discard : Bool) (hA : A.FixedOrder) (hF : A.dec.flushwc = none)
    (inp : List Byte) (cs : List Nat) (h : A.Text inp cs) (alloc : Nat → List Byte) (hal : ∀ n, (alloc n).length = n) {out irr}
    (hw : Whole A.atom (A.conv B discard) St.init inp out irr) :
    ∃ r b, convert (A.conv B discard) St.init inp true true (fun n => some (alloc n)) = .ok r ∧
      staticText (A.conv B discard) cs ⟨false, [], alloc out.length⟩ = .ok (r.ret, b) ∧
      r.data = match r.ret with
        | .ok _ => some (b.out ++ b.room)
        | .error _ => none := by
  obtain ⟨sz, s1, h1, hI1, hO1, ⟨n, out', irr', rfl, hw', rfl, h4⟩ | ⟨rfl, hno⟩⟩ := size_whole A B discard inp
  · obtain rfl := h4 hA
    obtain ⟨rfl, _⟩ := whole_det hw hw'
    obtain ⟨ret, s2, b, hx, hl, _⟩ := static_whole A B discard St.init hI1 hO1 inp
      (alloc out.length) hw (Or.inl (by rw [hal]; exact Nat.le_refl _))
    have hn : b.null = false := by
      obtain ⟨y, e, hy, hp⟩ := convertStatic_spec (c := A.conv B discard) A.decOK B.encOK St.init
        inp ⟨false, [], alloc out.length⟩ hI1 hO1 rfl ⟨_, hx⟩
      rw [hx] at hy; cases hy
      exact hp.null_eq
    have hs := static_text (A := A) (B := B) (discard := discard) hF h St.init rfl (alloc out.length)
    rw [hx, Outcome.bind_ok] at hs
    cases ret with
    | ok u =>
      exact ⟨⟨.ok (), s2, some out.length, some (b.out ++ b.room)⟩, b, by
        simp only [convert, h1, Outcome.bind_ok, Bool.not_true, Bool.false_eq_true, if_false, if_true, hx, hn], hs.symm, rfl⟩
    | error e =>
      exact ⟨⟨.error e, s2, some out.length, none⟩, b, by
        simp only [convert, h1, Outcome.bind_ok, Bool.not_true, Bool.false_eq_true, if_false, if_true, hx], hs.symm, rfl⟩
  · exact absurd hw (hno _ _)

/-- C49 for the encodings that hold no characters back: two texts with the same characters give the same return value,
the same reported length and the same data. -/
theorem C49_same_return_partial (A A' B : Entry) (discard : Bool) (hA : A.FixedOrder) (hA' : A'.FixedOrder)
    (hF : A.dec.flushwc = none) (hF' : A'.dec.flushwc = none)
    (inp inp' : List Byte) (cs : List Nat) (h : A.Text inp cs) (h' : A'.Text inp' cs)
    (alloc : Nat → List Byte) (hal : ∀ n, (alloc n).length = n) :
    ∃ r r', convert (A.conv B discard) St.init inp true true (fun n => some (alloc n)) = .ok r ∧
      convert (A'.conv B discard) St.init inp' true true (fun n => some (alloc n)) = .ok r' ∧
      r.ret = r'.ret ∧ r.outLen = r'.outLen ∧ r.data = r'.data := by
  obtain ⟨r, r', h1, h1', h2, h3, _⟩ := C49_same_result_partial A A' B discard hA hA' inp inp' cs h h' alloc hal
  refine ⟨r, r', h1, h1', ?_⟩
  obtain ⟨x, g1, g2⟩ := convert_cases A B discard hA inp alloc hal
  rw [h1] at g1; cases g1
  rcases g2 with ⟨out, irr, hw, _⟩ | ⟨_, g2, _, g3⟩
  · have hw' : Whole A'.atom (A'.conv B discard) St.init inp' out irr :=
      (whole_iff_write h' out irr).2 ((whole_iff_write h out irr).1 hw)
    obtain ⟨y, b, k1, k2, k3⟩ := convert_static discard hA hF inp cs h alloc hal hw
    obtain ⟨y', b', k1', k2', k3'⟩ := convert_static discard hA' hF' inp' cs h' alloc hal hw'
    rw [h1] at k1; cases k1
    rw [h1'] at k1'; cases k1'
    have hsame : ∀ (l : List Nat) (b : Buf), staticText (A.conv B discard) l b = staticText (A'.conv B discard) l b := by
      intro l b
      have : ∀ (l : List Nat) (os : Nat) (b : Buf) (res : Nat),
          putText (A.conv B discard) l os b res = putText (A'.conv B discard) l os b res := by
        intro l
        induction l with
        | nil => intros; rfl
        | cons wc l ih =>
          intro os b res
          unfold putText
          split
          · rfl
          · show (putChar (A.conv B discard) os wc b >>= _) = (putChar (A.conv B discard) os wc b >>= _)
            cases putChar (A.conv B discard) os wc b with
            | ok x =>
              obtain ⟨p, os1, b1⟩ := x
              simp only [Outcome.bind_ok]
              cases p with
              | err e => rfl
              | done irr => exact ih _ _ _
            | _ => rfl
      unfold staticText
      rw [this]
      rfl
    rw [hsame, k2'] at k2
    simp only [Outcome.ok.injEq, Prod.mk.injEq] at k2
    obtain ⟨k4, rfl⟩ := k2
    exact ⟨k4.symm, h2, by rw [k3, k3', k4]⟩
  · have h4 := h3.1 g2
    obtain ⟨x, k1, k2⟩ := convert_cases A' B discard hA' inp' alloc hal
    rw [h1'] at k1; cases k1
    rcases k2 with ⟨_, _, _, _, k2 | k2⟩ | ⟨_, _, _, k3⟩
    · rw [h4] at k2; cases k2.1
    · rw [h4] at k2; cases k2.1
    · exact ⟨by rw [g2, h4], h2, by rw [g3, k3]⟩

/-- C49 for the registered encodings: all but the four with byte order marks and the ten that hold characters back. -/
theorem C49_registered_partial : ∀ A ∈ sources, ∀ A' ∈ sources, ∀ B ∈ targets, A.idx ∉ markedIdx → A'.idx ∉ markedIdx →
    A.idx ∉ holdingIdx → A'.idx ∉ holdingIdx → ∀ (discard : Bool) (inp inp' : List Byte) (cs : List Nat),
    A.Text inp cs → A'.Text inp' cs → ∀ (alloc : Nat → List Byte), (∀ n, (alloc n).length = n) →
    ∃ r r', convert (A.conv B discard) St.init inp true true (fun n => some (alloc n)) = .ok r ∧
      convert (A'.conv B discard) St.init inp' true true (fun n => some (alloc n)) = .ok r' ∧
      r.ret = r'.ret ∧ r.outLen = r'.outLen ∧ r.data = r'.data :=
  fun A hA A' hA' B _ h1 h2 h3 h4 discard inp inp' cs h h' alloc hal =>
    C49_same_return_partial A A' B discard (sources_fixed A hA h1) (sources_fixed A' hA' h2) (sources_no_flush A hA h3)
      (sources_no_flush A' hA' h4) inp inp' cs h h' alloc hal

end Reiconv
