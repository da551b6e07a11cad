import Verif.ApiProofs

/-!
# Histories of calls on a descriptor
-/

namespace Reiconv

/-- One call of the library on a descriptor. -/
inductive Call where
  /-- `reiconv_iconv`, in all its forms -/
  | iconv (inp : Option (List Byte)) (out : Option Buf)
  /-- `reiconv_result_size` -/
  | size (inp : List Byte)
  /-- `reiconv_convert_static_size` -/
  | static (inp : List Byte) (b : Buf)
  /-- `reiconv_convert` -/
  | convert (inp : List Byte) (dataPtr lenPtr : Bool) (alloc : Nat → Option (List Byte))

/-- The descriptor state after a call. -/
def Call.after (c : Conv) (s : St) : Call → Outcome St
  | .iconv inp out => do let r ← Reiconv.iconv c s inp out; return r.st
  | .size inp => do let r ← resultSize c s inp; return r.2
  | .static inp b => do let r ← convertStatic c s inp b; return r.2.1
  | .convert inp dp lp alloc => do let r ← Reiconv.convert c s inp dp lp alloc; return r.st

/-- The descriptor state after a list of calls. -/
def afterAll (c : Conv) (s : St) : List Call → Outcome St
  | [] => .ok s
  | k :: ks => do let s ← k.after c s; afterAll c s ks

/-- `s` is the state of the descriptor after some calls, starting with a new descriptor. Calls with
undefined behaviour have no state after them. -/
def Reach (c : Conv) (s : St) : Prop := ∃ ks, afterAll c St.init ks = .ok s

/-! ## The contract invariants hold in every reachable state -/

variable {c : Conv}

theorem callWctomb_inv (he : EncOK c.enc) {os wc : Nat} {b : Buf} {x} (hO : he.Inv os)
    (h : callWctomb c os wc b = .ok x) : he.Inv x.2.1 := by
  unfold callWctomb at h
  obtain ⟨r, hr, h⟩ := bind_ok_inv h
  obtain ⟨b', hb, h⟩ := bind_ok_inv h
  cases h
  have hlen : r.ws.length ≤ b.room.length := by
    unfold Buf.store at hb
    split at hb
    · next h0 => simp [h0]
    · split at hb
      · cases hb
      · next hc =>
        simp only [Bool.or_eq_true, decide_eq_true_eq, not_or, Nat.not_lt] at hc
        exact hc.2
  obtain ⟨h1, h2⟩ := he.any os wc _ r hO hr hlen
  cases hret : r.ret with
  | wrote k => exact (h1 k hret).2
  | iluni => simp only [h2 (Or.inl hret)]; exact hO
  | toosmall => simp only [h2 (Or.inr hret)]; exact hO

theorem outcountOk_inv {oc : Int} {os : Nat} {b : Buf} {i : Nat} {x}
    (h : outcountOk oc os b i = .ok x) : x.2.1 = os := by
  unfold outcountOk at h
  split at h
  · cases h; rfl
  · obtain ⟨b', _, h⟩ := bind_ok_inv h
    cases h; rfl

theorem putChar_inv (he : EncOK c.enc) {os wc : Nat} {b : Buf} {x} (hO : he.Inv os)
    (h : putChar c os wc b = .ok x) : he.Inv x.2.1 := by
  unfold putChar at h
  obtain ⟨⟨oc, os1, b1⟩, h1, h⟩ := bind_ok_inv h
  have hO1 := callWctomb_inv he hO h1
  simp only at h hO1
  split at h
  · rw [outcountOk_inv h]; exact hO1
  · split at h
    · cases h; exact hO1
    · split at h
      · rw [outcountOk_inv h]; exact hO1
      · obtain ⟨⟨oc2, os2, b2⟩, h2, h⟩ := bind_ok_inv h
        have hO2 := callWctomb_inv he hO1 h2
        simp only at h hO2
        split at h
        · rw [outcountOk_inv h]; exact hO2
        · cases h; exact hO2

theorem loop_inv (hd : DecOK c.dec c.unit) (he : EncOK c.enc) : ∀ (fuel : Nat) (s : St)
    (inp : List Byte) (b : Buf) (res : Nat) (r : CallRes), hd.Inv s.is → he.Inv s.os →
    loopConvert c fuel s inp b res = .ok r → hd.Inv r.st.is ∧ he.Inv r.st.os := by
  intro fuel
  induction fuel with
  | zero => intro s inp b res r _ _ h; cases h
  | succ fuel ih =>
    intro s inp b res r hI hO h
    by_cases hne : inp = []
    · subst hne; rw [loop_nil] at h; cases h; exact ⟨hI, hO⟩
    obtain ⟨ret, is', hmb, hbatch⟩ := hd.batch s.is inp hI hne
    obtain ⟨hI', hbc, hbi, hbt⟩ := batch_ok hd hbatch hI hne
    cases ret with
    | ilseq k =>
      rw [loop_ilseq hne hmb (hbi k rfl).1] at h
      split at h
      · exact ih ⟨_, _⟩ _ _ _ _ hI' hO h
      · cases h; exact ⟨hI', hO⟩
    | toofew k =>
      rw [loop_toofew hne hmb (hbt k rfl).1] at h
      split at h
      · cases h; exact ⟨hI', hO⟩
      · exact ih ⟨_, _⟩ _ _ _ _ hI' hO h
    | char wc n =>
      rw [loop_char hne hmb (hbc wc n rfl).1] at h
      have hIr := (hd.retry s.is inp wc n is' hI hne hmb).1
      split at h
      · cases h; exact ⟨hIr, hO⟩
      · obtain ⟨⟨p, os, b'⟩, h1, h⟩ := bind_ok_inv h
        have hO' := putChar_inv he hO h1
        cases p with
        | err e => cases h; exact ⟨hIr, hO'⟩
        | done i => exact ih ⟨_, _⟩ _ _ _ _ hI' hO' h

theorem resetOut_inv (hd : DecOK c.dec c.unit) (he : EncOK c.enc) {s : St} {b : Buf} {res : Nat}
    {r : CallRes} (hI : hd.Inv s.is) (hO : he.Inv s.os) (h : resetOut c s b res = .ok r) :
    hd.Inv r.st.is ∧ he.Inv r.st.os := by
  unfold resetOut at h
  cases hf : c.enc.reset with
  | none => rw [hf] at h; cases h; exact ⟨hd.inv_clear _ hI, he.inv_init⟩
  | some f =>
    rw [hf] at h
    obtain ⟨x, hx, h⟩ := bind_ok_inv h
    obtain ⟨b', _, h⟩ := bind_ok_inv h
    obtain ⟨y, hy, _, hcase⟩ := he.reset_safe f hf s.os b.room.length hO
    rw [hx] at hy; cases hy
    split at h
    · next hneg =>
      cases h
      rcases hcase with hw | ⟨_, hst⟩
      · rw [hw] at hneg; simp only [WcRet.code] at hneg; omega
      · simp only [hst]; exact ⟨hI, hO⟩
    · obtain ⟨b'', _, h⟩ := bind_ok_inv h
      cases h; exact ⟨hd.inv_clear _ hI, he.inv_init⟩

theorem reset_inv (hd : DecOK c.dec c.unit) (he : EncOK c.enc) {s : St} {b : Buf}
    {r : CallRes} (hI : hd.Inv s.is) (hO : he.Inv s.os) (h : loopReset c s b = .ok r) :
    hd.Inv r.st.is ∧ he.Inv r.st.os := by
  unfold loopReset at h
  split at h
  · cases h; exact ⟨hd.inv_clear _ hI, he.inv_init⟩
  · split at h
    · exact resetOut_inv hd he hI hO h
    · next f hf =>
      obtain ⟨hI', hbo, _⟩ := hd.flush_ok f hf s.is hI
      have hrest : ({ (f s.is).2 with st := s.is.st } : IState) = s.is := by
        obtain ⟨⟨bo, st⟩, os⟩ := s; simp only at hbo ⊢; rw [hbo]
      simp only at h
      split at h
      · exact resetOut_inv hd he (s := ⟨_, _⟩) hI' hO h
      · obtain ⟨⟨p, os, b'⟩, h1, h⟩ := bind_ok_inv h
        have hO' := putChar_inv he hO h1
        cases p with
        | err e => cases h; simp only [hrest]; exact ⟨hI, hO'⟩
        | done i => exact resetOut_inv hd he (s := ⟨_, _⟩) hI' hO' h

theorem iconv_inv (hd : DecOK c.dec c.unit) (he : EncOK c.enc) {s : St} {inp out}
    {r : CallRes} (hI : hd.Inv s.is) (hO : he.Inv s.os) (h : iconv c s inp out = .ok r) :
    hd.Inv r.st.is ∧ he.Inv r.st.os := by
  unfold iconv at h
  split at h
  · cases h; exact ⟨hd.inv_clear _ hI, he.inv_init⟩
  · exact reset_inv hd he hI hO h
  · cases h
  · exact loop_inv hd he _ _ _ _ _ _ hI hO h

theorem staticFlush_inv (hd : DecOK c.dec c.unit) (he : EncOK c.enc) {s : St} {b : Buf}
    {x} (hI : hd.Inv s.is) (hO : he.Inv s.os) (h : staticFlush c s b = .ok x) :
    hd.Inv x.2.1.is ∧ he.Inv x.2.1.os := by
  unfold staticFlush at h
  obtain ⟨r, hr, h⟩ := bind_ok_inv h
  have := iconv_inv hd he hI hO hr
  split at h <;> cases h <;> exact this

theorem staticLoop_inv (hd : DecOK c.dec c.unit) (he : EncOK c.enc) : ∀ (fuel : Nat) (s : St)
    (inp : List Byte) (b : Buf) (x), hd.Inv s.is → he.Inv s.os →
    staticLoop c fuel s inp b = .ok x → hd.Inv x.2.1.is ∧ he.Inv x.2.1.os := by
  intro fuel
  induction fuel with
  | zero => intro s inp b x _ _ h; cases h
  | succ fuel ih =>
    intro s inp b x hI hO h
    rw [staticLoop] at h
    split at h
    · exact staticFlush_inv hd he hI hO h
    · obtain ⟨r, hr, h⟩ := bind_ok_inv h
      obtain ⟨h1, h2⟩ := iconv_inv hd he hI hO hr
      split at h
      · exact ih _ _ _ _ h1 h2 h
      · exact staticFlush_inv hd he h1 h2 h
      · cases h; exact ⟨h1, h2⟩

theorem convertStatic_inv (hd : DecOK c.dec c.unit) (he : EncOK c.enc) {s : St} {inp b x}
    (hI : hd.Inv s.is) (hO : he.Inv s.os) (h : convertStatic c s inp b = .ok x) :
    hd.Inv x.2.1.is ∧ he.Inv x.2.1.os := staticLoop_inv hd he _ _ _ _ _ hI hO h

theorem convert_inv (hd : DecOK c.dec c.unit) (he : EncOK c.enc) {s : St} {inp dp lp al x}
    (hI : hd.Inv s.is) (hO : he.Inv s.os) (h : convert c s inp dp lp al = .ok x) :
    hd.Inv x.st.is ∧ he.Inv x.st.os := by
  unfold convert at h
  obtain ⟨⟨sz, s1⟩, h1, h⟩ := bind_ok_inv h
  obtain ⟨y, hy, hI1, hO1, _⟩ := resultSize_spec hd he s inp hI hO
  rw [h1] at hy; cases hy
  simp only at h hI1 hO1
  split at h
  · cases h; exact ⟨hI1, hO1⟩
  · split at h
    · cases h; exact ⟨hI1, hO1⟩
    · obtain ⟨⟨r, s2, b2⟩, h2, h⟩ := bind_ok_inv h
      have := convertStatic_inv hd he hI1 hO1 h2
      simp only at h this
      split at h <;> cases h <;> exact this

theorem after_inv (hd : DecOK c.dec c.unit) (he : EncOK c.enc) {s s' : St} {k : Call}
    (hI : hd.Inv s.is) (hO : he.Inv s.os) (h : k.after c s = .ok s') :
    hd.Inv s'.is ∧ he.Inv s'.os := by
  cases k with
  | iconv inp out =>
    obtain ⟨r, hr, h⟩ := bind_ok_inv h; cases h; exact iconv_inv hd he hI hO hr
  | size inp =>
    obtain ⟨r, hr, h⟩ := bind_ok_inv h; cases h
    obtain ⟨y, hy, hI1, hO1, _⟩ := resultSize_spec hd he s inp hI hO
    rw [hr] at hy; cases hy; exact ⟨hI1, hO1⟩
  | static inp b =>
    obtain ⟨r, hr, h⟩ := bind_ok_inv h; cases h; exact convertStatic_inv hd he hI hO hr
  | convert inp dp lp al =>
    obtain ⟨r, hr, h⟩ := bind_ok_inv h; cases h; exact convert_inv hd he hI hO hr

theorem afterAll_inv (hd : DecOK c.dec c.unit) (he : EncOK c.enc) : ∀ (ks : List Call) {s s' : St},
    hd.Inv s.is → he.Inv s.os → afterAll c s ks = .ok s' → hd.Inv s'.is ∧ he.Inv s'.os := by
  intro ks
  induction ks with
  | nil => intro s s' hI hO h; cases h; exact ⟨hI, hO⟩
  | cons k ks ih =>
    intro s s' hI hO h
    obtain ⟨s1, h1, h⟩ := bind_ok_inv h
    obtain ⟨hI1, hO1⟩ := after_inv hd he hI hO h1
    exact ih hI1 hO1 h

theorem reach_inv (hd : DecOK c.dec c.unit) (he : EncOK c.enc) {s : St} (h : Reach c s) :
    hd.Inv s.is ∧ he.Inv s.os := by
  obtain ⟨ks, h⟩ := h
  exact afterAll_inv hd he ks hd.inv_init he.inv_init h

end Reiconv
