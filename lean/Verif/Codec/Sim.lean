import Verif.Text
import Verif.Codec.Stateful
import Verif.Codec.Back

/-!
# Reading what was written, for encodings with states

A relation between the state of the encoder and the state of the decoder that has read what was written
so far. `u` are bytes that have been written and that the decoder cannot use yet, `k` characters that have
been put into the encoder and that the decoder has not delivered yet.
-/

namespace Reiconv

/-- For characters with the property `P`: the decoder follows the encoder. -/
structure Sim (B : Entry) (P : Nat → Prop) where
  R : Nat → IState → List Byte → List Nat → Prop
  start : R 0 IState.init [] (B.dec.kept IState.init)
  kept0 : B.dec.kept IState.init = []
  inv : ∀ os is u k, R os is u k → B.decOK.Inv is
  step : ∀ os is u k wc bs os', R os is u k → P wc → B.enc.rep os wc = some (bs, os') →
    ∃ used u' cs k' is', u ++ bs = used ++ u' ∧ Chars B.atom is used cs is' ∧ k ++ [wc] = cs ++ k' ∧ R os' is' u' k'
  tail : ∀ os is u k, R os is u k → ∃ cs is', Chars B.atom is (u ++ B.enc.tail os) cs is' ∧
    k = cs ++ B.dec.kept is' ∧ R 0 is' [] (B.dec.kept is')

namespace Sim

variable {B : Entry} {P : Nat → Prop}

theorem text (S : Sim B P) : ∀ (cs : List Nat) (os : Nat) (is : IState) (u : List Byte) (k : List Nat) (bs : List Byte) (os' : Nat),
    (∀ c ∈ cs, P c) → S.R os is u k → B.enc.text os cs = some (bs, os') →
    ∃ used u' cs1 k' is', u ++ bs = used ++ u' ∧ Chars B.atom is used cs1 is' ∧ k ++ cs = cs1 ++ k' ∧ S.R os' is' u' k' := by
  intro cs
  induction cs with
  | nil =>
    intro os is u k bs os' _ hR ht
    cases ht
    exact ⟨[], u, [], k, is, by simp, .nil _, by simp, hR⟩
  | cons c cs ih =>
    intro os is u k bs os' hP hR ht
    simp only [Encoder.text] at ht
    cases hf : B.enc.rep os c with
    | none => rw [hf] at ht; cases ht
    | some x =>
      obtain ⟨b1, os1⟩ := x
      rw [hf] at ht
      simp only at ht
      cases hr : B.enc.text os1 cs with
      | none => rw [hr] at ht; cases ht
      | some y =>
        obtain ⟨b2, os2⟩ := y
        rw [hr] at ht
        cases ht
        obtain ⟨used, u1, cs1, k1, is1, h1, h2, h3, h4⟩ := S.step os is u k c b1 os1 hR (hP c (List.mem_cons_self ..)) hf
        obtain ⟨used2, u2, cs2, k2, is2, g1, g2, g3, g4⟩ := ih os1 is1 u1 k1 b2 os' (fun x hx => hP x (List.mem_cons_of_mem _ hx)) h4 hr
        refine ⟨used ++ used2, u2, cs1 ++ cs2, k2, is2, ?_, Chars.append (S.inv _ _ _ _ hR) h2 g2, ?_, g4⟩
        · rw [← List.append_assoc, h1, List.append_assoc, g1, List.append_assoc]
        · have : k ++ c :: cs = (k ++ [c]) ++ cs := by simp
          rw [this, h3, List.append_assoc, g3, List.append_assoc]

/-- One whole text. -/
theorem encodes (S : Sim B P) {cs : List Nat} {out : List Byte} {is : IState} (hP : ∀ c ∈ cs, P c)
    (hR : S.R 0 is [] (B.dec.kept is)) (h : B.Encodes cs out) :
    ∃ cs1 is', Chars B.atom is out cs1 is' ∧ B.dec.kept is ++ cs = cs1 ++ B.dec.kept is' ∧
      S.R 0 is' [] (B.dec.kept is') := by
  obtain ⟨bs, os, h1, rfl⟩ := h
  obtain ⟨used, u, cs1, k, is1, h2, h3, h4, h5⟩ := S.text cs 0 is [] _ bs os hP hR h1
  obtain ⟨cs2, is2, h6, h7, h8⟩ := S.tail os is1 u k h5
  refine ⟨cs1 ++ cs2, is2, ?_, ?_, h8⟩
  · have : bs ++ B.enc.tail os = used ++ (u ++ B.enc.tail os) := by
      rw [← List.append_assoc, ← h2]; simp
    rw [this]
    exact Chars.append (S.inv _ _ _ _ hR) h3 h6
  · rw [h4, h7, List.append_assoc]

/-- Texts written one after the other are read as the texts one after the other. -/
theorem concat (S : Sim B P) (l : List (List Nat × List Byte))
    (h : ∀ x ∈ l, B.Encodes x.1 x.2 ∧ ∀ c ∈ x.1, P c) :
    B.Text (l.map (·.2)).flatten (l.map (·.1)).flatten := by
  have key : ∀ (l : List (List Nat × List Byte)) (is : IState), S.R 0 is [] (B.dec.kept is) →
      (∀ x ∈ l, B.Encodes x.1 x.2 ∧ ∀ c ∈ x.1, P c) →
      ∃ cs0 is', Chars B.atom is (l.map (·.2)).flatten cs0 is' ∧
        B.dec.kept is ++ (l.map (·.1)).flatten = cs0 ++ B.dec.kept is' := by
    intro l
    induction l with
    | nil => intro is _ _; exact ⟨[], is, .nil _, by simp⟩
    | cons x l ih =>
      intro is hR h
      obtain ⟨h1, h2⟩ := h x (List.mem_cons_self ..)
      obtain ⟨cs1, is1, h3, h4, h5⟩ := S.encodes h2 hR h1
      obtain ⟨cs2, is2, h6, h7⟩ := ih is1 h5 (fun y hy => h y (List.mem_cons_of_mem _ hy))
      refine ⟨cs1 ++ cs2, is2, ?_, ?_⟩
      · simp only [List.map_cons, List.flatten_cons]
        exact Chars.append (S.inv _ _ _ _ hR) h3 h6
      · simp only [List.map_cons, List.flatten_cons]
        rw [← List.append_assoc, h4, List.append_assoc, h7, List.append_assoc]
  obtain ⟨cs0, is', h1, h2⟩ := key l IState.init S.start h
  exact ⟨cs0, is', h1, by rw [← h2, S.kept0]; rfl⟩

theorem back (S : Sim B P) {cs : List Nat} {out : List Byte} (hP : ∀ c ∈ cs, P c) (h : B.Encodes cs out) :
    B.Text out cs := by
  have := S.concat [(cs, out)] (by simpa using ⟨h, hP⟩)
  simpa using this

end Sim

/-! ## Encodings given by items and programs -/

theorem chars_shift1 {item : Nat → M SItem} {bo st st' : Nat} {s : List Byte} (hs : s ≠ [])
    (h : (item st).run s = .ok (some (.shift s.length st'))) : Chars (satom item) ⟨bo, st⟩ s [] ⟨bo, st'⟩ := by
  refine .shift hs (n := s.length) (is' := ⟨bo, st'⟩) (by unfold satom; rw [h]) ?_
  rw [List.drop_length]
  exact .nil _

theorem chars_char1 {item : Nat → M SItem} {bo st st' wc : Nat} {s : List Byte} (hs : s ≠ [])
    (h : (item st).run s = .ok (some (.char wc s.length st'))) : Chars (satom item) ⟨bo, st⟩ s [wc] ⟨bo, st'⟩ := by
  refine .char hs (n := s.length) (is' := ⟨bo, st'⟩) (by unfold satom; rw [h]) ?_
  rw [List.drop_length]
  exact .nil _

/-- The decoder with the loop bodies `item` follows the encoder with the programs `w`, when nothing is held
back. -/
theorem st_step {idx : Nat} {hu : unitOf idx = 1} {D : Decoder} {E : Encoder} (d : StDec D) (e : StEnc E)
    {os : Nat} (hI : e.I os) {wc : Nat} : (stEntry idx hu d e).enc.full os wc = e.enc os wc := e.full_eq hI wc

/-- A simulation for an encoding where each character is written and read at once. Language tags for which
nothing is written are left out. -/
def Sim.directTag (idx : Nat) (hu : unitOf idx = 1) {D : Decoder} {E : Encoder} (d : StDec D) (e : StEnc E)
    (hf : D.flushwc = none) (hr : E.reset ≠ none) {P : Nat → Prop} (R : Nat → Nat → Prop) (h0 : R 0 0)
    (hI : ∀ os st, R os st → e.I os ∧ d.I st)
    (step : ∀ os st wc bs os', R os st → P wc → e.enc os wc = some (bs, os') →
      (isTag wc = true → bs ≠ []) →
      ∃ st', Chars (satom d.item) ⟨0, st⟩ bs [wc] ⟨0, st'⟩ ∧ R os' st')
    (tail : ∀ os st, R os st → ∃ st', Chars (satom d.item) ⟨0, st⟩ (e.rtail os) [] ⟨0, st'⟩ ∧ R 0 st') :
    Sim (stEntry idx hu d e) P :=
  have hk : ∀ is, (stEntry idx hu d e).dec.kept is = [] := by
    intro is
    show Decoder.kept D is = []
    unfold Decoder.kept
    rw [hf]
  { R := fun os is u k => is.bo = 0 ∧ u = [] ∧ k = [] ∧ R os is.st
    start := ⟨rfl, rfl, hk _, h0⟩
    kept0 := hk _
    inv := by
      rintro os is u k ⟨hb, _, _, h⟩
      exact ⟨hb, (hI _ _ h).2⟩
    step := by
      rintro os ⟨bo, st⟩ u k wc bs os' ⟨hb, rfl, rfl, h⟩ hP hfull
      cases hb
      have ht := Encoder.rep_ne hfull
      have hfull : E.full os wc = some (bs, os') := Encoder.rep_full hfull
      rw [e.full_eq (hI _ _ h).1] at hfull
      obtain ⟨st', h1, h2⟩ := step os st wc bs os' h hP hfull ht
      exact ⟨bs, [], [wc], [], ⟨0, st'⟩, by simp, h1, by simp, rfl, rfl, rfl, h2⟩
    tail := by
      rintro os ⟨bo, st⟩ u k ⟨hb, rfl, rfl, h⟩
      cases hb
      obtain ⟨st', h1, h2⟩ := tail os st h
      have ht : (stEntry idx hu d e).enc.tail os = e.rtail os := e.tail_eq (hI _ _ h).1 hr
      refine ⟨[], ⟨0, st'⟩, ?_, by rw [hk]; rfl, rfl, rfl, hk _, h2⟩
      rw [ht]
      exact h1 }

/-- A simulation for an encoding where each character is written and read at once. -/
def Sim.direct (idx : Nat) (hu : unitOf idx = 1) {D : Decoder} {E : Encoder} (d : StDec D) (e : StEnc E)
    (hf : D.flushwc = none) (hr : E.reset ≠ none) {P : Nat → Prop} (R : Nat → Nat → Prop) (h0 : R 0 0)
    (hI : ∀ os st, R os st → e.I os ∧ d.I st)
    (step : ∀ os st wc bs os', R os st → P wc → e.enc os wc = some (bs, os') →
      ∃ st', Chars (satom d.item) ⟨0, st⟩ bs [wc] ⟨0, st'⟩ ∧ R os' st')
    (tail : ∀ os st, R os st → ∃ st', Chars (satom d.item) ⟨0, st⟩ (e.rtail os) [] ⟨0, st'⟩ ∧ R 0 st') :
    Sim (stEntry idx hu d e) P :=
  Sim.directTag idx hu d e hf hr R h0 hI (fun os st wc bs os' h1 h2 h3 _ => step os st wc bs os' h1 h2 h3) tail

theorem Chars.st_append {D : Decoder} (d : StDec D) {st : Nat} {is' is'' : IState} {a b : List Byte} {cs cs' : List Nat}
    (hI : d.I st) (h : Chars (satom d.item) ⟨0, st⟩ a cs is') (h' : Chars (satom d.item) is' b cs' is'') :
    Chars (satom d.item) ⟨0, st⟩ (a ++ b) (cs ++ cs') is'' := by
  have key : ∀ {is is' : IState} {a cs}, d.toOK.Inv is → Chars (satom d.item) is a cs is' →
      Chars (satom d.item) is' b cs' is'' → Chars (satom d.item) is (a ++ b) (cs ++ cs') is'' := by
    intro is is' a cs hI h h'
    induction h with
    | nil is => exact h'
    | @char is inp wc n is1 cs is2 hne ha _ ih =>
      obtain ⟨h1, h2, _⟩ := d.toOK.char_ok _ _ _ _ _ hI hne ha
      refine .char (by simp [hne]) ?_ (by rw [drop_append_le _ _ _ h2]; exact ih h1 h')
      exact (d.toOK.ext _ _ _ hI hne (by simp [show d.toOK.atom is inp = _ from ha])).trans ha
    | @shift is inp n is1 cs is2 hne ha _ ih =>
      obtain ⟨h1, h2, _⟩ := d.toOK.shift_ok _ _ _ _ hI hne ha
      refine .shift (by simp [hne]) ?_ (by rw [drop_append_le _ _ _ h2]; exact ih h1 h')
      exact (d.toOK.ext _ _ _ hI hne (by simp [show d.toOK.atom is inp = _ from ha])).trans ha
  exact key (show d.toOK.Inv ⟨0, st⟩ from ⟨rfl, hI⟩) h h'

/-! ### Running loop bodies -/

theorem M.run_byte0 {α : Type} {f : Nat → M α} {a : Byte} {t : List Byte} :
    (M.byte 0 f).run (a :: t) = (f a.toNat).run (a :: t) := rfl

theorem M.run_byte1 {α : Type} {f : Nat → M α} {a b : Byte} {t : List Byte} :
    (M.byte 1 f).run (a :: b :: t) = (f b.toNat).run (a :: b :: t) := rfl

theorem M.run_byte2 {α : Type} {f : Nat → M α} {a b c : Byte} {t : List Byte} :
    (M.byte 2 f).run (a :: b :: c :: t) = (f c.toNat).run (a :: b :: c :: t) := rfl

theorem M.run_byte3 {α : Type} {f : Nat → M α} {a b c d : Byte} {t : List Byte} :
    (M.byte 3 f).run (a :: b :: c :: d :: t) = (f d.toNat).run (a :: b :: c :: d :: t) := rfl

theorem M.run_need {α : Type} {k : Nat} {m : M α} {s : List Byte} (h : k ≤ s.length) :
    (M.need k m).run s = m.run s := by
  simp only [M.run]; rw [if_pos h]

theorem sOne_char {m : M MbRet} {a : Byte} {wc : Nat} {k : Nat → M SItem} (h : m.run [a] = .ok (some (.char wc 1))) :
    sOne m a.toNat k = k wc := by
  unfold sOne M.on
  simp only [List.map_cons, List.map_nil, u8_of_toNat, h]
  rw [if_neg code_char_pos, if_neg code_char_one]
  rfl

theorem sTwo_char {m : M MbRet} {a b : Byte} {wc : Nat} {k : Nat → M SItem}
    (h : m.run [a, b] = .ok (some (.char wc 2))) : sTwo m a.toNat b.toNat k = k wc := by
  unfold sTwo M.on
  simp only [List.map_cons, List.map_nil, u8_of_toNat, h]
  rw [if_neg code_char_pos, if_neg code_char_two]
  rfl

theorem ascii_run {a : Byte} (h : a.toNat < 0x80) : ascii_m.run [a] = .ok (some (.char a.toNat 1)) := by
  unfold ascii_m
  rw [M.run_byte0, if_pos h]
  rfl

theorem ascii_put {wc : Nat} {a : Byte} (h : (ascii_w wc).run 0 1 = .ok (.put [a] 0)) : wc < 0x80 ∧ a.toNat = wc := by
  unfold ascii_w at h
  by_cases hw : wc < 0x80
  · rw [if_pos hw] at h
    have h : Outcome.ok (WcRes.put [u8 wc] 0) = Outcome.ok (WcRes.put [a] 0) := h
    simp only [WcRes.put, Outcome.ok.injEq, WcRes.mk.injEq, List.cons.injEq, and_true] at h
    rw [← h.2, u8_toNat]
    exact ⟨hw, by omega⟩
  · rw [if_neg hw] at h; cases h

theorem ascii_iluni {wc : Nat} (P : Nat → Prop) [DecidablePred P] {found : Nat → SW} {rest : SW} :
    SW.try1 (ascii_w wc) P found rest = if wc < 0x80 ∧ P wc then found wc else rest := by
  unfold SW.try1 SW.on ascii_w
  by_cases hw : wc < 0x80
  · rw [if_pos hw]
    have e : (u8 wc).toNat = wc := by rw [u8_toNat]; omega
    have e2 : (if (WcRes.put [u8 wc] 0).ws.length ≤ 1 then
        (fun (ret : Int) (buf : List Nat) =>
          if ret ≠ RET_ILUNI then
            if ret ≠ 1 then SW.abort
            else if P (bufAt buf 0) then found (bufAt buf 0)
            else rest
          else rest) (WcRes.put [u8 wc] 0).ret.code ((WcRes.put [u8 wc] 0).ws.map (·.toNat)) else .ub) =
        if P (u8 wc).toNat then found (u8 wc).toNat else rest := rfl
    rw [e] at e2
    refine Eq.trans e2 ?_
    by_cases hp : P wc
    · rw [if_pos hp, if_pos ⟨hw, hp⟩]
    · rw [if_neg hp, if_neg (fun h => hp h.2)]
  · rw [if_neg hw, if_neg (fun h => hw h.1)]
    rfl

/-- A character set with first bytes from `lo` on and below `hi`. -/
theorem CsDec.row {d : CsDec} {lo hi : Nat} (h : (d.rows.all fun r => lo ≤ r.lo && r.hi ≤ hi) = true)
    {a b : Byte} {wc n : Nat} (hr : d.mbtowc.run [a, b] = .ok (some (.char wc n))) :
    lo ≤ a.toNat ∧ a.toNat < hi := by
  have key : ∀ (l : List Span) (c x : Nat), (l.all fun r => lo ≤ r.lo && r.hi ≤ hi) = true →
      spanFind l c = some x → lo ≤ c ∧ c < hi := by
    intro l c x
    induction l with
    | nil => intro _ h; cases h
    | cons s l ih =>
      intro h1 h2
      simp only [List.all_cons, Bool.and_eq_true, decide_eq_true_eq] at h1
      simp only [spanFind] at h2
      by_cases hc : s.lo ≤ c ∧ c < s.hi
      · omega
      · rw [if_neg hc] at h2
        exact ih h1.2 h2
  unfold CsDec.mbtowc at hr
  rw [M.run_byte0] at hr
  cases hx : spanFind d.rows a.toNat with
  | none => rw [hx] at hr; cases hr
  | some x => exact key _ _ _ h hx

end Reiconv
