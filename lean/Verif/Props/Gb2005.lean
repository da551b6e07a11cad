import Verif.Props.Gb18030
import Verif.Props.Registry

/-!
# GB18030:2005 as a target (C01)

The encoder of GB18030:2005 stores four bytes for six characters although it made sure of two only. Here: exactly when a
call leaves the output buffer because of that, and that all calls that do not are those of an encoder that satisfies the
contracts, so that all theorems on conversions from `A` to `B` hold for them.
-/

namespace Reiconv

/-- The characters that `gb18030_2005_wctomb` writes as four bytes when there is room for two. -/
def gbWide : List Nat := [0xE816, 0xE817, 0xE818, 0xE831, 0xE83B, 0xE855]

/-- The encoder with the missing check. -/
def gb2005_checked (wc : Nat) : W :=
  if wc ∈ gbWide then .room 4 (gb18030_2005_wctomb wc) else gb18030_2005_wctomb wc

def W.goodB : Nat → W → Bool
  | k, .room j w => W.goodB (max k j) w
  | k, .put bs => !bs.isEmpty && decide (bs.length ≤ max k 1) && decide (k ≤ bs.length) && decide (k ≤ 7)
  | k, .iluni => decide (k ≤ 7)
  | _, .ub => false
  | _, .abort => false

theorem W.goodB_sound : ∀ (w : W) (k : Nat), W.goodB k w = true → W.Good k w := by
  intro w
  induction w with
  | room j w ih => intro k h; exact ih _ h
  | put bs =>
    intro k h
    simp only [goodB, Bool.and_eq_true, decide_eq_true_eq, Bool.not_eq_true', List.isEmpty_eq_false_iff] at h
    exact ⟨h.1.1.1, h.1.1.2, h.1.2, h.2⟩
  | iluni => intro k h; exact (of_decide_eq_true h : k ≤ 7)
  | ub => intro k h; cases h
  | abort => intro k h; cases h

theorem gb2005_pua_good : ∀ i < 0xff, 0xe766 + i ∉ gbWide → W.goodB 0 (gb18030_2005_wctomb (0xe766 + i)) = true := by
  decide +kernel

theorem gb2005_wide_good : ∀ c ∈ gbWide, W.goodB 4 (gb18030_2005_wctomb c) = true := by decide +kernel

theorem gb2005_wide_need : ∀ c ∈ gbWide, (gb18030_2005_wctomb c).need = 2 ∧
    ((gb18030_2005_wctomb c).res.map (·.length)) = some 4 := by decide +kernel

theorem gb2005_wuni_good {wc k : Nat} (hk : k ≤ 4) {v : W} (hv : W.Good 4 v) :
    W.Good k ((gb18030_2005_uni_wctomb wc).orElse v) := by
  have h1 : W.Good 4 (gb_wuni wc) := gb_wuni_good rfl
  have hg : ∀ w, W.Good 4 w → w.need = 0 → W.Good 4 (w.orElse v) := fun w h h0 => W.good_orElse0 w 4 h0 h hv
  have n1 : (gb_wuni wc).need = 0 := by
    obtain ⟨j, s, e, l, -⟩ := bsearch_ok (uniDir_ok (t := gb18030uni_uni2charset_ranges) rfl wc) 206 0 205
      (by omega) (by omega) (by omega)
    have hl : gb18030uni_ranges.len = 206 := rfl
    unfold gb_wuni Outcome.inW
    rw [e]
    simp only
    split
    · rfl
    · rw [Tab.rdW_eq (by omega)]; rfl
  show W.Good (max k 4) _
  rw [Nat.max_eq_right hk]
  unfold gbPut
  refine hg _ ?_ ?_
  · wgood
  · repeat' split
    all_goals with_reducible first
      | exact n1
      | exact W.need_put _
      | exact W.need_iluni

theorem gb2005_plain_good (wc : Nat) (h : wc ∉ gbWide) : W.Good 0 (gb18030_2005_wctomb wc) := by
  by_cases hr : 0xe766 ≤ wc ∧ wc < 0xe865
  · have := gb2005_pua_good (wc - 0xe766) (by omega)
    rw [show 0xe766 + (wc - 0xe766) = wc by omega] at this
    exact W.goodB_sound _ _ (this h)
  have hs := gb_wsup_good wc
  unfold gb18030_2005_wctomb gb18030_2005_wbmp
  simp only [W.orElse_assoc]
  refine W.good_orElse0 _ _ (ascii_w_need _) (ascii_w_good _) ?_
  refine W.Clean.orElse (by omega) (by omega) ?_ _ (gbk_clean _)
  refine CsEnc.good_orElse gb18030ext_enc_safe (by omega) ?_
  rw [W.orElse_ite]
  refine W.good_ite (fun h1 => ?_) fun h1 => gb2005_wuni_good (by omega) hs
  rw [W.orElse_room, W.orElse_ite]
  refine W.good_room ?_
  show W.Good 2 _
  refine W.good_ite (fun h2 => ?_) fun h2 => ?_
  · unfold gb_wuser
    simp only [W.orElse_ite, W.orElse_put]
    wgood
  · omega

theorem gb2005_checked_good (wc : Nat) : W.Good 0 (gb2005_checked wc) := by
  unfold gb2005_checked
  split
  · next h => exact W.goodB_sound _ 4 (gb2005_wide_good wc h)
  · next h => exact gb2005_plain_good wc h

/-- GB18030:2005 with an encoder that checks the room. -/
def gb2005_entry : Entry :=
  simpleEntry ei_gb18030_2005 1 (by decide) (M.simple _ gb18030_2005_good) (W.senc _ gb2005_checked_good)

/-! ## One character -/

theorem W.Fit.run {w : W} (h : w.Fit) (os n : Nat) : w.run os n =
    .ok (if w.need ≤ n then (match w.res with | some bs => .put bs os | none => .iluni os) else .small os) := by
  induction w with
  | room j w ih =>
    show (if j ≤ n then w.run os n else .ok (.small os)) = _
    have e1 : (W.room j w).need = max j w.need := rfl
    have e2 : (W.room j w).res = w.res := rfl
    rw [e2, e1, ih h.2]
    by_cases hj : j ≤ n
    · rw [if_pos hj]
      by_cases hn : w.need ≤ n
      · rw [if_pos hn, if_pos (by omega)]
      · rw [if_neg hn, if_neg (by omega)]
    · rw [if_neg hj, if_neg (by omega)]
  | put bs => simp [W.run, W.need, W.res]
  | iluni => simp [W.run, W.need, W.res]
  | ub => exact h.elim
  | abort => exact h.elim

theorem gb2005_run_eq {wc n : Nat} (h : ¬ (wc ∈ gbWide ∧ 2 ≤ n ∧ n < 4)) (os : Nat) :
    (gb18030_2005_wctomb wc).run os n = (gb2005_checked wc).run os n := by
  unfold gb2005_checked
  split
  · next hw =>
    show _ = if 4 ≤ n then _ else _
    by_cases h4 : 4 ≤ n
    · rw [if_pos h4]
    · have h2 : n < 2 := by
        apply Nat.lt_of_not_le; intro h2; exact h ⟨hw, h2, by omega⟩
      rw [if_neg h4, (gb18030_2005_fit wc).run, (gb2005_wide_need wc hw).1, if_neg (by omega)]
  · rfl

theorem gb2005_run_wide {wc n : Nat} (h : wc ∈ gbWide ∧ 2 ≤ n ∧ n < 4) (os : Nat) :
    (∃ bs : List Byte, bs.length = 4 ∧ (gb18030_2005_wctomb wc).run os n = .ok (.put bs os)) ∧
    (gb2005_checked wc).run os n = .ok (.small os) := by
  obtain ⟨hw, h2, h4⟩ := h
  refine ⟨?_, ?_⟩
  · obtain ⟨h5, h6⟩ := gb2005_wide_need wc hw
    cases hr : (gb18030_2005_wctomb wc).res with
    | none => rw [hr] at h6; cases h6
    | some bs =>
      rw [hr] at h6
      refine ⟨bs, Option.some.inj h6, ?_⟩
      rw [(gb18030_2005_fit wc).run, h5, if_pos h2, hr]
  · unfold gb2005_checked
    rw [if_pos hw]
    show (if 4 ≤ n then _ else _) = _
    rw [if_neg (by omega)]

variable {A : Entry} {discard : Bool}

theorem gb2005_call_eq {os wc : Nat} {b : Buf} (h : ¬ (wc ∈ gbWide ∧ 2 ≤ b.room.length ∧ b.room.length < 4)) :
    callWctomb (toGb18030_2005 A discard) os wc b = callWctomb (A.conv gb2005_entry discard) os wc b := by
  unfold callWctomb
  show (gb18030_2005_wctomb wc).run os b.room.length >>= _ = (gb2005_checked wc).run os b.room.length >>= _
  rw [gb2005_run_eq h]

theorem gb2005_call_wide {os wc : Nat} {b : Buf} (h : wc ∈ gbWide ∧ 2 ≤ b.room.length ∧ b.room.length < 4) :
    callWctomb (toGb18030_2005 A discard) os wc b = .ub ∧
    callWctomb (A.conv gb2005_entry discard) os wc b = .ok (RET_TOOSMALL, os, b) := by
  obtain ⟨⟨bs, h1, h2⟩, h3⟩ := gb2005_run_wide h os
  unfold callWctomb
  constructor
  · show (gb18030_2005_wctomb wc).run os b.room.length >>= _ = _
    rw [h2]
    have h4 : bs ≠ [] := by intro h0; rw [h0] at h1; cases h1
    have h5 : b.room.length < bs.length := by omega
    simp [Buf.store, WcRes.put, h4, h5]
  · show (gb2005_checked wc).run os b.room.length >>= _ = _
    rw [h3]
    simp [Buf.store, WcRes.small, WcRet.code]

theorem gb2005_put_eq {os wc : Nat} {b : Buf} (h : ¬ (wc ∈ gbWide ∧ 2 ≤ b.room.length ∧ b.room.length < 4)) :
    putChar (toGb18030_2005 A discard) os wc b = putChar (A.conv gb2005_entry discard) os wc b := by
  unfold putChar
  rw [gb2005_call_eq h]
  have key : ∀ os b, callWctomb (toGb18030_2005 A discard) os 0xFFFD b =
      callWctomb (A.conv gb2005_entry discard) os 0xFFFD b :=
    fun os b => gb2005_call_eq fun h => absurd h.1 (by decide)
  simp only [key]
  rfl

theorem gb2005_put_wide {os wc : Nat} {b : Buf} (h : wc ∈ gbWide ∧ 2 ≤ b.room.length ∧ b.room.length < 4) :
    putChar (toGb18030_2005 A discard) os wc b = .ub ∧
    putChar (A.conv gb2005_entry discard) os wc b = .ok (.err .E2BIG, os, b) := by
  obtain ⟨h1, h2⟩ := gb2005_call_wide (A := A) (discard := discard) (os := os) h
  unfold putChar
  rw [h1, h2]
  exact ⟨rfl, rfl⟩

/-! ## Calls -/

theorem Buf.store_room {b b' : Buf} {ws : List Byte} (h : b.store ws = .ok b') : b'.room.length = b.room.length := by
  unfold Buf.store at h
  split at h
  · cases h; rfl
  · split at h
    · cases h
    · next hc =>
      simp only [Bool.or_eq_true, decide_eq_true_eq, not_or, Nat.not_lt] at hc
      cases h
      simp only [List.length_append, List.length_drop]
      omega

theorem callWctomb_room {c : Conv} {os wc : Nat} {b : Buf} {x} (h : callWctomb c os wc b = .ok x) :
    x.2.2.room.length = b.room.length := by
  unfold callWctomb at h
  obtain ⟨r, _, h⟩ := bind_ok_inv h
  obtain ⟨b', hb, h⟩ := bind_ok_inv h
  cases h
  exact Buf.store_room hb

theorem outcountOk_room {oc : Int} {os : Nat} {b : Buf} {i : Nat} {e os' b'}
    (h : outcountOk oc os b i = .ok (.err e, os', b')) : b' = b := by
  unfold outcountOk at h
  split at h
  · cases h; rfl
  · obtain ⟨b', _, h⟩ := bind_ok_inv h
    cases h

theorem putChar_room {c : Conv} {os wc : Nat} {b : Buf} {e os' b'} (h : putChar c os wc b = .ok (.err e, os', b')) :
    b'.room.length = b.room.length := by
  unfold putChar at h
  obtain ⟨⟨oc, os1, b1⟩, h1, h⟩ := bind_ok_inv h
  have h2 := callWctomb_room h1
  simp only at h h2
  split at h
  · rw [outcountOk_room h]; exact h2
  · split at h
    · cases h
    · split at h
      · rw [outcountOk_room h]; exact h2
      · obtain ⟨⟨oc3, os3, b3⟩, h3, h⟩ := bind_ok_inv h
        have h4 := callWctomb_room h3
        simp only at h h4
        split at h
        · rw [outcountOk_room h, h4]; exact h2
        · cases h; rw [h4]; exact h2

/-- The call stopped for want of room, with two or three bytes left, at one of the six characters. -/
def AtWide (A : Entry) (r : CallRes) : Prop :=
  r.ret = .error .E2BIG ∧ 2 ≤ r.buf.room.length ∧ r.buf.room.length < 4 ∧
    ∃ c n is, A.dec.mbtowc r.st.is r.inp = .ok (.char c n, is) ∧ c ∈ gbWide

theorem gb2005_loop (A : Entry) (discard : Bool) : ∀ (fuel : Nat) (s : St) (inp : List Byte) (b : Buf) (result : Nat),
    A.decOK.Inv s.is →
    (loopConvert (toGb18030_2005 A discard) fuel s inp b result =
        loopConvert (A.conv gb2005_entry discard) fuel s inp b result ∧
      ∀ r, loopConvert (A.conv gb2005_entry discard) fuel s inp b result = .ok r → ¬ AtWide A r) ∨
    (loopConvert (toGb18030_2005 A discard) fuel s inp b result = .ub ∧
      ∃ r, loopConvert (A.conv gb2005_entry discard) fuel s inp b result = .ok r ∧ AtWide A r) := by
  intro fuel
  induction fuel with
  | zero => intro s inp b result _; exact .inl ⟨rfl, fun r h => by cases h⟩
  | succ fuel ih =>
    intro s inp b result hI
    by_cases hne : inp = []
    · subst hne
      rw [loop_nil, loop_nil]
      exact .inl ⟨rfl, fun r h => by cases h; exact fun h => by cases h.1⟩
    obtain ⟨ret, is', hmb, hbatch⟩ := A.decOK.batch s.is inp hI hne
    obtain ⟨hI', hbc, hbi, hbt⟩ := batch_ok A.decOK hbatch hI hne
    cases ret with
    | ilseq k =>
      rw [loop_ilseq (c := toGb18030_2005 A discard) hne hmb (hbi k rfl).1,
        loop_ilseq (c := A.conv gb2005_entry discard) hne hmb (hbi k rfl).1]
      show (ite (discard = true) _ _ = ite (discard = true) _ _ ∧ ∀ r, ite (discard = true) _ _ = _ → _) ∨
        (ite (discard = true) _ _ = _ ∧ ∃ r, ite (discard = true) _ _ = _ ∧ _)
      by_cases hd : discard = true
      · simp only [if_pos hd]
        exact ih _ _ _ _ hI'
      · simp only [if_neg hd]
        exact .inl ⟨trivial, fun r h => by cases h; exact fun h => by cases h.1⟩
    | toofew k =>
      rw [loop_toofew (c := toGb18030_2005 A discard) hne hmb (hbt k rfl).1,
        loop_toofew (c := A.conv gb2005_entry discard) hne hmb (hbt k rfl).1]
      by_cases hk : k = 0
      · simp only [if_pos hk]
        exact .inl ⟨trivial, fun r h => by cases h; exact fun h => by cases h.1⟩
      · simp only [if_neg hk]
        exact ih _ _ _ _ hI'
    | char wc n =>
      rw [loop_char (c := toGb18030_2005 A discard) hne hmb (hbc wc n rfl).1,
        loop_char (c := A.conv gb2005_entry discard) hne hmb (hbc wc n rfl).1]
      by_cases h0 : b.room.length = 0
      · simp only [if_pos h0]
        refine .inl ⟨trivial, fun r h => ?_⟩
        cases h
        intro h
        have := h.2.1
        simp only at this
        omega
      simp only [if_neg h0]
      have hretry := A.decOK.retry _ _ _ _ _ hI hne hmb
      by_cases hw : wc ∈ gbWide ∧ 2 ≤ b.room.length ∧ b.room.length < 4
      · obtain ⟨h1, h2⟩ := gb2005_put_wide (A := A) (discard := discard) (os := s.os) hw
        rw [h1, h2]
        exact .inr ⟨rfl, _, rfl, rfl, hw.2.1, hw.2.2, wc, n, is', hretry.2, hw.1⟩
      · rw [gb2005_put_eq hw]
        cases hp : putChar (A.conv gb2005_entry discard) s.os wc b with
        | ok x =>
          obtain ⟨p, os, b'⟩ := x
          cases p with
          | done irr => exact ih _ _ _ _ hI'
          | err e =>
            refine .inl ⟨rfl, fun r h => ?_⟩
            cases h
            rintro ⟨_, h1, h2, c, m, is, h3, h4⟩
            simp only [putChar_room hp] at h1 h2
            rw [hretry.2] at h3
            cases h3
            exact hw ⟨h4, h1, h2⟩
        | ub => exact .inl ⟨rfl, fun r h => by cases h⟩
        | abort => exact .inl ⟨rfl, fun r h => by cases h⟩
        | diverge => exact .inl ⟨rfl, fun r h => by cases h⟩

/-- No result, or the same one. -/
def Outcome.Le {α : Type} (x y : Outcome α) : Prop := x = .ub ∨ x = y

theorem Outcome.Le.bind {α β : Type} {x y : Outcome α} {f g : α → Outcome β} (h : x.Le y) (hf : ∀ a, y = .ok a → (f a).Le (g a)) :
    (x >>= f).Le (y >>= g) := by
  rcases h with h | h
  · rw [h]; exact .inl rfl
  · rw [h]
    cases y with
    | ok a => exact hf a rfl
    | ub => exact .inl rfl
    | abort => exact .inr rfl
    | diverge => exact .inr rfl

theorem Outcome.Le.rfl {α : Type} {x : Outcome α} : x.Le x := .inr (Eq.refl x)

theorem gb2005_reset (A : Entry) (discard : Bool) (s : St) (b : Buf) :
    (loopReset (toGb18030_2005 A discard) s b).Le (loopReset (A.conv gb2005_entry discard) s b) := by
  unfold loopReset
  split
  · exact .rfl
  · show Outcome.Le (match A.dec.flushwc with | none => _ | some f => _) (match A.dec.flushwc with | none => _ | some f => _)
    cases A.dec.flushwc with
    | none => exact .rfl
    | some f =>
      simp only
      cases (f s.is).1 with
      | none => exact .rfl
      | some wc =>
        refine .bind ?_ fun x _ => ?_
        · by_cases hw : wc ∈ gbWide ∧ 2 ≤ b.room.length ∧ b.room.length < 4
          · exact .inl (gb2005_put_wide hw).1
          · exact .inr (gb2005_put_eq hw)
        · obtain ⟨p, os, b'⟩ := x
          cases p <;> exact .rfl

/-- The invariants of the contracts. -/
abbrev SInv (A : Entry) (s : St) : Prop := A.decOK.Inv s.is ∧ gb2005_entry.encOK.Inv s.os

theorem gb2005_iconv (A : Entry) (discard : Bool) {s : St} (hI : SInv A s) (inp : Option (List Byte)) (out : Option Buf) :
    (iconv (toGb18030_2005 A discard) s inp out).Le (iconv (A.conv gb2005_entry discard) s inp out) := by
  cases inp with
  | none =>
    cases out with
    | none => exact .rfl
    | some b => exact gb2005_reset A discard s b
  | some i =>
    cases out with
    | none => exact .rfl
    | some b =>
      rcases gb2005_loop A discard (2 * i.length + 2) s i b 0 hI.1 with h | h
      · exact .inr h.1
      · exact .inl h.1

theorem gb2005_inv {A : Entry} {discard : Bool} {s : St} {inp out r} (hI : SInv A s)
    (h : iconv (A.conv gb2005_entry discard) s inp out = .ok r) : SInv A r.st :=
  iconv_inv (c := A.conv gb2005_entry discard) A.decOK gb2005_entry.encOK hI.1 hI.2 h

theorem gb2005_sizeFlush (A : Entry) (discard : Bool) {s : St} (hI : SInv A s) (n : Nat) :
    (resultSizeFlush (toGb18030_2005 A discard) s n).Le (resultSizeFlush (A.conv gb2005_entry discard) s n) :=
  .bind (gb2005_iconv A discard hI _ _) fun _ hr => .bind (gb2005_iconv A discard (gb2005_inv hI hr) _ _) fun _ _ => .rfl

theorem gb2005_sizeLoop (A : Entry) (discard : Bool) : ∀ (fuel : Nat) (s : St) (inp : List Byte) (n : Nat), SInv A s →
    (resultSizeLoop (toGb18030_2005 A discard) fuel s inp n).Le (resultSizeLoop (A.conv gb2005_entry discard) fuel s inp n) := by
  intro fuel
  induction fuel with
  | zero => intro s inp n _; exact .rfl
  | succ fuel ih =>
    intro s inp n hI
    rw [resultSizeLoop, resultSizeLoop]
    split
    · exact gb2005_sizeFlush A discard hI n
    · refine .bind (gb2005_iconv A discard hI _ _) fun r hr => ?_
      split
      · exact ih _ _ _ (gb2005_inv hI hr)
      · exact ih _ _ _ (gb2005_inv hI hr)
      · exact .rfl
      · exact .rfl

theorem gb2005_staticFlush (A : Entry) (discard : Bool) {s : St} (hI : SInv A s) (b : Buf) :
    (staticFlush (toGb18030_2005 A discard) s b).Le (staticFlush (A.conv gb2005_entry discard) s b) :=
  .bind (gb2005_iconv A discard hI _ _) fun _ _ => .rfl

theorem gb2005_staticLoop (A : Entry) (discard : Bool) : ∀ (fuel : Nat) (s : St) (inp : List Byte) (b : Buf), SInv A s →
    (staticLoop (toGb18030_2005 A discard) fuel s inp b).Le (staticLoop (A.conv gb2005_entry discard) fuel s inp b) := by
  intro fuel
  induction fuel with
  | zero => intro s inp b _; exact .rfl
  | succ fuel ih =>
    intro s inp b hI
    rw [staticLoop, staticLoop]
    split
    · exact gb2005_staticFlush A discard hI b
    · refine .bind (gb2005_iconv A discard hI _ _) fun r hr => ?_
      split
      · exact ih _ _ _ (gb2005_inv hI hr)
      · exact gb2005_staticFlush A discard (gb2005_inv hI hr) _
      · exact .rfl

theorem gb2005_convert (A : Entry) (discard : Bool) {s : St} (hI : SInv A s) (inp : List Byte) (dp lp : Bool)
    (alloc : Nat → Option (List Byte)) :
    (convert (toGb18030_2005 A discard) s inp dp lp alloc).Le (convert (A.conv gb2005_entry discard) s inp dp lp alloc) := by
  refine .bind (gb2005_sizeLoop A discard _ _ _ _ hI) fun x hx => ?_
  obtain ⟨y, hy, hI1, hO1, _⟩ := resultSize_spec (c := A.conv gb2005_entry discard) A.decOK gb2005_entry.encOK s inp hI.1 hI.2
  have e : resultSize (A.conv gb2005_entry discard) s inp = .ok x := hx
  rw [e] at hy; cases hy
  obtain ⟨sz, s1⟩ := x
  cases sz with
  | error e => exact .rfl
  | ok n =>
    cases dp with
    | false => exact .rfl
    | true => exact .bind (gb2005_staticLoop A discard _ _ _ _ ⟨hI1, hO1⟩) fun _ _ => .rfl

/-! ## C01 and the other properties for the target GB18030:2005 -/

/-- A call of the library on a descriptor for conversion to GB18030:2005 either leaves the output buffer, or does what it does
with an encoder that checks the room (`gb2005_entry`): the same result, the same output, the same state. So everything that is
proved of conversions from `A` to any `B : Entry` holds for conversions to GB18030:2005 as long as no call leaves its buffer. -/
theorem C01_gb18030_2005_calls (A : Entry) (discard : Bool) (s : St) (h : Reach (toGb18030_2005 A discard) s) :
    Reach (A.conv gb2005_entry discard) s ∧
    (∀ inp out r, iconv (toGb18030_2005 A discard) s inp out = .ok r → iconv (A.conv gb2005_entry discard) s inp out = .ok r) ∧
    (∀ inp r, resultSize (toGb18030_2005 A discard) s inp = .ok r → resultSize (A.conv gb2005_entry discard) s inp = .ok r) ∧
    (∀ inp b r, convertStatic (toGb18030_2005 A discard) s inp b = .ok r →
      convertStatic (A.conv gb2005_entry discard) s inp b = .ok r) ∧
    (∀ inp dp lp alloc r, convert (toGb18030_2005 A discard) s inp dp lp alloc = .ok r →
      convert (A.conv gb2005_entry discard) s inp dp lp alloc = .ok r) := by
  have le : ∀ {α : Type} {x y : Outcome α} {r : α}, x.Le y → x = .ok r → y = .ok r := by
    intro α x y r h hr
    rcases h with h | h
    · rw [h] at hr; cases hr
    · rw [← h, hr]
  have all : ∀ {s : St}, SInv A s →
      (∀ inp out r, iconv (toGb18030_2005 A discard) s inp out = .ok r → iconv (A.conv gb2005_entry discard) s inp out = .ok r) ∧
      (∀ inp r, resultSize (toGb18030_2005 A discard) s inp = .ok r → resultSize (A.conv gb2005_entry discard) s inp = .ok r) ∧
      (∀ inp b r, convertStatic (toGb18030_2005 A discard) s inp b = .ok r →
        convertStatic (A.conv gb2005_entry discard) s inp b = .ok r) ∧
      (∀ inp dp lp alloc r, convert (toGb18030_2005 A discard) s inp dp lp alloc = .ok r →
        convert (A.conv gb2005_entry discard) s inp dp lp alloc = .ok r) := fun hI =>
    ⟨fun _ _ _ => le (gb2005_iconv A discard hI _ _), fun _ _ => le (gb2005_sizeLoop A discard _ _ _ _ hI),
      fun _ _ _ => le (gb2005_staticLoop A discard _ _ _ _ hI), fun _ _ _ _ _ => le (gb2005_convert A discard hI _ _ _ _)⟩
  have hist : ∀ (ks : List Call) (s0 : St), SInv A s0 → afterAll (toGb18030_2005 A discard) s0 ks = .ok s →
      afterAll (A.conv gb2005_entry discard) s0 ks = .ok s := by
    intro ks
    induction ks with
    | nil => intro s0 _ h; exact h
    | cons k ks ih =>
      intro s0 hI h
      obtain ⟨s1, h1, h2⟩ := bind_ok_inv h
      obtain ⟨a1, a2, a3, a4⟩ := all hI
      have h3 : k.after (A.conv gb2005_entry discard) s0 = .ok s1 := by
        cases k with
        | iconv inp out => obtain ⟨r, hr, h⟩ := bind_ok_inv h1; cases h; simp only [Call.after, a1 _ _ _ hr, Outcome.bind_ok, Outcome.pure_eq]
        | size inp => obtain ⟨r, hr, h⟩ := bind_ok_inv h1; cases h; simp only [Call.after, a2 _ _ hr, Outcome.bind_ok, Outcome.pure_eq]
        | static inp b => obtain ⟨r, hr, h⟩ := bind_ok_inv h1; cases h; simp only [Call.after, a3 _ _ _ hr, Outcome.bind_ok, Outcome.pure_eq]
        | convert inp dp lp al => obtain ⟨r, hr, h⟩ := bind_ok_inv h1; cases h; simp only [Call.after, a4 _ _ _ _ _ hr, Outcome.bind_ok, Outcome.pure_eq]
      have hI1 := after_inv (c := A.conv gb2005_entry discard) A.decOK gb2005_entry.encOK hI.1 hI.2 h3
      simp only [afterAll, h3, Outcome.bind_ok]
      exact ih s1 hI1 h2
  obtain ⟨ks, hk⟩ := h
  have hr : Reach (A.conv gb2005_entry discard) s := ⟨ks, hist ks _ ⟨A.decOK.inv_init, gb2005_entry.encOK.inv_init⟩ hk⟩
  exact ⟨hr, all (Entry.inv A gb2005_entry hr)⟩

/-- C01 for the target GB18030:2005 exactly. A conversion call leaves the output buffer if and only if, with the missing check,
it would stop at one of the six characters with two or three bytes left; otherwise it returns normally, with that result. -/
theorem C01_gb18030_2005_exact (A : Entry) (discard : Bool) (s : St) (h : Reach (toGb18030_2005 A discard) s)
    (inp room : List Byte) :
    ∃ r, iconv (A.conv gb2005_entry discard) s (some inp) (some ⟨false, [], room⟩) = .ok r ∧
      (AtWide A r → iconv (toGb18030_2005 A discard) s (some inp) (some ⟨false, [], room⟩) = .ub) ∧
      (¬ AtWide A r → iconv (toGb18030_2005 A discard) s (some inp) (some ⟨false, [], room⟩) = .ok r) := by
  have hr := (C01_gb18030_2005_calls A discard s h).1
  obtain ⟨r, h1⟩ := C01_convert_safe_partial A gb2005_entry discard s hr inp room
  refine ⟨r, h1, ?_⟩
  rcases gb2005_loop A discard (2 * inp.length + 2) s inp ⟨false, [], room⟩ 0 (Entry.inv A gb2005_entry hr).1 with ⟨h2, h3⟩ | ⟨h2, r', h3, h4⟩
  · exact ⟨fun h4 => absurd h4 (h3 r h1), fun _ => (h2.trans h1 : _)⟩
  · have e : loopConvert (A.conv gb2005_entry discard) (2 * inp.length + 2) s inp ⟨false, [], room⟩ 0 = .ok r := h1
    rw [e] at h3; cases h3
    exact ⟨fun _ => h2, fun h5 => absurd h4 h5⟩

theorem gb2005_full (A : Entry) (discard : Bool) : (toGb18030_2005 A discard).enc.full = gb2005_entry.enc.full := by
  funext os wc
  unfold Encoder.full
  show (match (gb18030_2005_wctomb wc).run os 64 with | .ok ⟨.wrote _, ws, st⟩ => some (ws, st) | _ => none) =
    (match (gb2005_checked wc).run os 64 with | .ok ⟨.wrote _, ws, st⟩ => some (ws, st) | _ => none)
  rw [gb2005_run_eq (by omega)]

theorem gb2005_runs {A : Entry} {discard : Bool} {s : St} {inp out irr fin} :
    Runs A.atom (toGb18030_2005 A discard) s inp out irr fin ↔ Runs A.atom (A.conv gb2005_entry discard) s inp out irr fin := by
  have e : encChar (toGb18030_2005 A discard).enc discard = encChar gb2005_entry.enc discard := by
    funext os wc
    unfold encChar
    rw [gb2005_full]
  show RunsG A.atom A.unit discard (encChar (toGb18030_2005 A discard).enc discard) s inp out irr fin ↔
    RunsG A.atom A.unit discard (encChar gb2005_entry.enc discard) s inp out irr fin
  rw [e]

/-- C01 for the target GB18030:2005: a buffer with room for the output of the whole input is not overrun. -/
theorem C01_gb18030_2005_enough (A : Entry) (discard : Bool) (s : St) (h : Reach (toGb18030_2005 A discard) s)
    (inp room out : List Byte) (irr : Nat) (fin : Final) (hrun : Runs A.atom (toGb18030_2005 A discard) s inp out irr fin)
    (hlen : out.length ≤ room.length) :
    ∃ r, iconv (toGb18030_2005 A discard) s (some inp) (some ⟨false, [], room⟩) = .ok r := by
  obtain ⟨r, h1, _, h2⟩ := C01_gb18030_2005_exact A discard s h inp room
  refine ⟨r, h2 ?_⟩
  rintro ⟨h3, h4, h5, c, n, is, h6, h7⟩
  have hr := (C01_gb18030_2005_calls A discard s h).1
  obtain ⟨_, hl, i, hc⟩ := C02_accounting A gb2005_entry discard s hr inp room h1
  have hr' : Reach (A.conv gb2005_entry discard) r.st := hr.step (k := .iconv (some inp) (some ⟨false, [], room⟩)) (by simp only [Call.after, h1, Outcome.bind_ok, Outcome.pure_eq])
  obtain ⟨o, i', f, ho, _⟩ := runs_exists A gb2005_entry discard r.st hr' r.inp
  have hne : r.inp ≠ [] := by
    rcases C04_return_contract A gb2005_entry discard s hr inp room h1 with ⟨_, h8, _⟩ | ⟨_, h8, _⟩ | ⟨_, h8, _⟩ | ⟨_, h8, _⟩
    · rw [h3] at h8; cases h8
    · exact h8
    · exact h8
    · exact h8
  have := hc [] o i' f (by simpa using ho)
  rw [List.append_nil] at this
  obtain ⟨e1, _, _⟩ := runs_det (gb2005_runs.1 hrun) this
  obtain ⟨hI, hO⟩ := Entry.inv A gb2005_entry hr'
  obtain ⟨ret, is', hmb, hbatch⟩ := A.decOK.batch r.st.is r.inp hI hne
  rw [h6] at hmb; cases hmb
  have h9 := (runs_batch_char hbatch hne rfl).1 ho
  rcases h9 with ⟨bs, os', j, o', j', g1, _, g2, _⟩ | ⟨g1, _⟩
  · have g3 : bs.length = 4 := by
      have g4 : encChar gb2005_entry.enc discard r.st.os c = some (bs, os', j) := g1
      unfold encChar at g4
      rw [← gb2005_full A discard] at g4
      rw [show (toGb18030_2005 A discard).enc.full = (W.enc gb18030_2005_wctomb).full from rfl,
        W.Fit.full (gb18030_2005_fit c)] at g4
      obtain ⟨_, g5⟩ := gb2005_wide_need c h7
      cases g6 : (gb18030_2005_wctomb c).res with
      | none => rw [g6] at g5; cases g5
      | some x =>
        rw [g6] at g4 g5
        cases g4
        exact Option.some.inj g5
    rw [e1, g2] at hlen
    simp only [List.length_append] at hlen
    omega
  · have g4 : encChar gb2005_entry.enc discard r.st.os c = none := g1
    unfold encChar at g4
    rw [← gb2005_full A discard] at g4
    rw [show (toGb18030_2005 A discard).enc.full = (W.enc gb18030_2005_wctomb).full from rfl,
      W.Fit.full (gb18030_2005_fit c)] at g4
    obtain ⟨_, g5⟩ := gb2005_wide_need c h7
    cases g6 : (gb18030_2005_wctomb c).res with
    | none => rw [g6] at g5; cases g5
    | some x => rw [g6] at g4; cases g4

theorem gb2005_a_need : (gb18030_2005_wctomb 0x61).need = 0 ∧ (gb18030_2005_wctomb 0x61).res = some [0x61] := by decide +kernel

theorem gb2005_put_a (os : Nat) (out : List Byte) (x : Byte) (room : List Byte) :
    putChar (toGb18030_2005 utf8_entry false) os 0x61 ⟨false, out, x :: room⟩ = .ok (.done 0, os, ⟨false, out ++ [0x61], room⟩) := by
  have h : callWctomb (toGb18030_2005 utf8_entry false) os 0x61 ⟨false, out, x :: room⟩ = .ok (1, os, ⟨false, out, 0x61 :: room⟩) := by
    unfold callWctomb
    show (gb18030_2005_wctomb 0x61).run os (x :: room).length >>= _ = _
    rw [(gb18030_2005_fit 0x61).run, gb2005_a_need.1, gb2005_a_need.2, if_pos (Nat.zero_le _)]
    simp [Buf.store, WcRes.put, WcRet.code]
  unfold putChar
  rw [h]
  simp [outcountOk, Buf.advance, RET_ILUNI]
  rw [if_pos (by omega)]; rfl

theorem gb2005_a_loop : ∀ (n fuel : Nat) (out room t : List Byte) (result : Nat), n ≤ room.length →
    loopConvert (toGb18030_2005 utf8_entry false) (fuel + n) St.init (List.replicate n 0x61 ++ t) ⟨false, out, room⟩ result =
      loopConvert (toGb18030_2005 utf8_entry false) fuel St.init t ⟨false, out ++ List.replicate n 0x61, room.drop n⟩ result := by
  intro n
  induction n with
  | zero => intro fuel out room t result _; simp
  | succ n ih =>
    intro fuel out room t result hn
    cases room with
    | nil => cases hn
    | cons x room =>
      have e : List.replicate (n + 1) (0x61 : Byte) ++ t = 0x61 :: (List.replicate n 0x61 ++ t) := rfl
      have hmb : (toGb18030_2005 utf8_entry false).dec.mbtowc St.init.is (0x61 :: (List.replicate n 0x61 ++ t)) =
          .ok (.char 0x61 1, St.init.is) := rfl
      rw [e, ← Nat.add_assoc, loop_char (List.cons_ne_nil _ _) hmb (by simp), if_neg (by simp)]
      show (putChar (toGb18030_2005 utf8_entry false) 0 0x61 ⟨false, out, x :: room⟩ >>= _) = _
      rw [gb2005_put_a]
      refine (ih fuel (out ++ [0x61]) room t result (Nat.le_of_succ_le_succ hn)).trans ?_
      rw [List.append_assoc]
      rfl

/-- C01 is violated by `reiconv_result_size` and `reiconv_convert` as well, whatever the allocator does: with 4093 or 4094 letters
before one of the six characters the end of the buffer of 4096 bytes on the stack is overrun. -/
theorem C01_gb18030_2005_convert : ∀ n ∈ [4093, 4094], ∀ c ∈ gbWide,
    resultSize (toGb18030_2005 utf8_entry false) St.init (List.replicate n 0x61 ++ utf8Enc c) = .ub ∧
    ∀ dp lp alloc, convert (toGb18030_2005 utf8_entry false) St.init (List.replicate n 0x61 ++ utf8Enc c) dp lp alloc = .ub := by
  intro n hn c hc
  have key : resultSize (toGb18030_2005 utf8_entry false) St.init (List.replicate n 0x61 ++ utf8Enc c) = .ub := by
    have hne : List.replicate n (0x61 : Byte) ++ utf8Enc c ≠ [] := by
      intro h
      have h1 := (List.append_eq_nil_iff.1 h).2
      have h2 : ∀ c ∈ gbWide, utf8Enc c ≠ [] := by decide
      exact h2 c hc h1
    unfold resultSize
    rw [resultSizeLoop, if_neg hne]
    have h3 : iconv (toGb18030_2005 utf8_entry false) St.init (some (List.replicate n 0x61 ++ utf8Enc c)) (some tmpbuf) = .ub := by
      have hlen : (List.replicate n (0x61 : Byte) ++ utf8Enc c).length = n + (utf8Enc c).length := by
        rw [List.length_append, List.length_replicate]
      have hl4 : n = 4093 ∨ n = 4094 := by simpa using hn
      show loopConvert _ (2 * (List.replicate n (0x61 : Byte) ++ utf8Enc c).length + 2) _ _ tmpbuf 0 = _
      rw [hlen, show 2 * (n + (utf8Enc c).length) + 2 = (n + 2 * (utf8Enc c).length + 1 + 1) + n by omega]
      refine (gb2005_a_loop n _ [] (List.replicate TEMP_BUFFER_SIZE 0) (utf8Enc c) 0
        (by rw [List.length_replicate]; simp only [TEMP_BUFFER_SIZE]; omega)).trans ?_
      have hmb : ∀ c ∈ gbWide, (toGb18030_2005 utf8_entry false).dec.mbtowc St.init.is (utf8Enc c) =
          .ok (.char c 3, St.init.is) ∧ utf8Enc c ≠ [] ∧ 3 ≤ (utf8Enc c).length := by decide +kernel
      obtain ⟨g1, g2, g3⟩ := hmb c hc
      have hroom : ((List.replicate TEMP_BUFFER_SIZE (0 : Byte)).drop n).length = 4096 - n := by
        rw [List.length_drop, List.length_replicate]; rfl
      rw [loop_char g2 g1 g3, if_neg (by simp only [hroom]; omega)]
      have hw := (gb2005_put_wide (A := utf8_entry) (discard := false) (os := 0) (wc := c)
        (b := ⟨false, [] ++ List.replicate n 0x61, (List.replicate TEMP_BUFFER_SIZE 0).drop n⟩)
        ⟨hc, by simp only [hroom]; omega, by simp only [hroom]; omega⟩).1
      show (putChar (toGb18030_2005 utf8_entry false) 0 c _ >>= _) = _
      rw [hw]; rfl
    rw [h3]; rfl
  refine ⟨key, fun dp lp alloc => ?_⟩
  unfold convert
  rw [key]; rfl

/-- "ab" and U+E816 from UTF-8. -/
example : Reach (toGb18030_2005 utf8_entry false) St.init := ⟨[], rfl⟩
example : (match iconv (toGb18030_2005 utf8_entry false) St.init (some [0x61, 0x62, 0xEE, 0xA0, 0x96])
      (some ⟨false, [], [0, 0, 0, 0, 0, 0, 0]⟩) with
    | .ok r => r.ret == .ok 0 && r.buf.out == [0x61, 0x62, 0x95, 0x32, 0x90, 0x31]
    | _ => false) = true ∧
    iconv (toGb18030_2005 utf8_entry false) St.init (some [0x61, 0x62, 0xEE, 0xA0, 0x96]) (some ⟨false, [], [0, 0, 0, 0]⟩) = .ub ∧
    (match iconv (toGb18030_2005 utf8_entry false) St.init (some [0x61, 0x62, 0xEE, 0xA0, 0x96]) (some ⟨false, [], [0, 0, 0]⟩) with
    | .ok r => r.ret == .error .E2BIG && r.buf.out == [0x61, 0x62]
    | _ => false) = true := by decide +kernel

end Reiconv
