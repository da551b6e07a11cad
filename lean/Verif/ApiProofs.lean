import Verif.Api
import Verif.ResetProofs

/-!
# The API functions against the run specification
-/

namespace Reiconv

theorem full_inv {E : Encoder} (he : EncOK E) {os wc : Nat} {x} (hO : he.Inv os)
    (h : E.full os wc = some x) : he.Inv x.2 := by
  obtain ⟨r, hr, hl, hw, _⟩ := he.safe os wc 64 hO (by have := he.minRoom_le; omega)
  unfold Encoder.full at h
  rw [hr] at h
  split at h
  · next heq => cases heq; cases h; exact (hw _ rfl).2
  · cases h

theorem encChar_inv {c : Conv} (he : EncOK c.enc) {os wc : Nat} {x} (hO : he.Inv os)
    (h : encChar c.enc c.discard os wc = some x) : he.Inv x.2.1 := by
  unfold encChar at h
  split at h
  · next heq => cases h; exact full_inv he hO heq
  · split at h
    · cases h; exact hO
    · split at h
      · cases h; exact hO
      · split at h
        · next heq => cases h; exact full_inv he hO heq
        · cases h

/-- The contract invariants hold where a run ends. -/
theorem runsG_inv {D : Decoder} {E : Encoder} {unit : Nat} {discard : Bool} {ec}
    (hd : DecOK D unit) (he : EncOK E)
    (hec : ∀ os wc x, he.Inv os → ec os wc = some x → he.Inv x.2.1) {s inp o i f}
    (h : RunsG hd.atom unit discard ec s inp o i f) (hI : hd.Inv s.is) (hO : he.Inv s.os) :
    (∀ s', f = .done s' → hd.Inv s'.is ∧ he.Inv s'.os) ∧
    (∀ s' r, f = .einval s' r → hd.Inv s'.is ∧ he.Inv s'.os ∧ r ≠ [] ∧ hd.atom s'.is r = .more) := by
  induction h with
  | done s => exact ⟨by rintro _ ⟨⟩; exact ⟨hI, hO⟩, by rintro _ _ ⟨⟩⟩
  | more hne ha => exact ⟨by rintro _ ⟨⟩, by rintro _ _ ⟨⟩; exact ⟨hI, hO, hne, ha⟩⟩
  | stop _ _ _ => exact ⟨by rintro _ ⟨⟩, by rintro _ _ ⟨⟩⟩
  | unenc _ _ _ => exact ⟨by rintro _ ⟨⟩, by rintro _ _ ⟨⟩⟩
  | skip _ _ _ _ ih => exact ih hI hO
  | shift hne ha _ ih => exact ih (hd.shift_ok _ _ _ _ hI hne ha).1 hO
  | char hne ha he' _ ih => exact ih (hd.char_ok _ _ _ _ _ hI hne ha).1 (hec _ _ _ hO he')

theorem runs_inv {c : Conv} (hd : DecOK c.dec c.unit) (he : EncOK c.enc) {s inp o i f}
    (h : Runs hd.atom c s inp o i f) (hI : hd.Inv s.is) (hO : he.Inv s.os) :
    (∀ s', f = .done s' → hd.Inv s'.is ∧ he.Inv s'.os) ∧
    (∀ s' r, f = .einval s' r → hd.Inv s'.is ∧ he.Inv s'.os ∧ r ≠ [] ∧ hd.atom s'.is r = .more) :=
  runsG_inv hd he (fun _ _ _ h1 h2 => encChar_inv he h1 h2) h hI hO

/-- If converting the rest continues a conversion, it still does so when more input is appended. -/
theorem cont_ext {c : Conv} (hd : DecOK c.dec c.unit) (he : EncOK c.enc) {s s' : St}
    {inp rest e : List Byte} {irr : Nat} (hI : hd.Inv s.is) (hI' : hd.Inv s'.is)
    (hO' : he.Inv s'.os)
    (h : ∀ out i fin, Runs hd.atom c s' rest out i fin → Runs hd.atom c s inp (e ++ out) (irr + i) fin)
    (t : List Byte) :
    ∀ out i fin, Runs hd.atom c s' (rest ++ t) out i fin →
      Runs hd.atom c s (inp ++ t) (e ++ out) (irr + i) fin := by
  intro out i fin hr
  obtain ⟨o1, i1, f1, h1⟩ := runs_total (ec := encChar c.enc c.discard) (discard := c.discard) hd _
    s' rest hI' (Nat.le_refl _)
  have h1' := h _ _ _ h1
  have hinv := runs_inv hd he h1 hI' hO'
  cases f1 with
  | done s2 =>
    obtain ⟨hI2, _⟩ := hinv.1 s2 rfl
    obtain ⟨o2, i2, f2, h2⟩ := runs_total (ec := encChar c.enc c.discard) (discard := c.discard) hd _
      s2 t hI2 (Nat.le_refl _)
    obtain ⟨rfl, rfl, rfl⟩ := runs_det (runs_append hd h1 hI' s2 rfl h2) hr
    have := runs_append hd h1' hI s2 rfl h2
    rw [← List.append_assoc, ← Nat.add_assoc]; exact this
  | einval s2 r2 =>
    obtain ⟨hI2, _⟩ := hinv.2 s2 r2 rfl
    obtain ⟨o2, i2, f2, h2⟩ := runs_total (ec := encChar c.enc c.discard) (discard := c.discard) hd _
      s2 (r2 ++ t) hI2 (Nat.le_refl _)
    obtain ⟨rfl, rfl, rfl⟩ := runs_det (runs_append_einval hd h1 hI' s2 r2 rfl h2) hr
    have := runs_append_einval hd h1' hI s2 r2 rfl h2
    rw [← List.append_assoc, ← Nat.add_assoc]; exact this
  | eilseq =>
    obtain ⟨rfl, rfl, rfl⟩ := runs_det (runs_append_eilseq hd h1 hI' rfl t) hr
    exact runs_append_eilseq hd h1' hI rfl t

/-- `reiconv_iconv` with input and a usable output buffer. -/
theorem iconv_spec {c : Conv} (hd : DecOK c.dec c.unit) (he : EncOK c.enc) (s : St)
    (inp : List Byte) (b : Buf) (hI : hd.Inv s.is) (hO : he.Inv s.os)
    (hb : b.room ≠ [] → b.null = false) :
    ∃ r e irr, iconv c s (some inp) (some b) = .ok r ∧ LoopPost c hd he s inp b 0 r e irr := by
  refine loop_spec hd he _ s inp b 0 hI hO hb ?_
  unfold mu; split <;> omega

theorem loop_no_E2BIG {c : Conv} {hd : DecOK c.dec c.unit} {he : EncOK c.enc} {s inp b res r e irr}
    (h : LoopPost c hd he s inp b res r e irr) (hr : r.ret = .error .E2BIG) :
    r.buf.room.length < 64 := by
  have := h.res
  rw [hr] at this
  obtain ⟨_, wc, n, is', _, h0 | ⟨_, hb⟩⟩ := this
  · omega
  · exact putBlocked_lt he h.inv_os hb

/-! ### `reiconv_result_size` -/

theorem tmpbuf_len : tmpbuf.room.length = 4096 := List.length_replicate ..

theorem resultSizeFlush_spec {c : Conv} (hd : DecOK c.dec c.unit) (he : EncOK c.enc) (s : St)
    (count : Nat) (hI : hd.Inv s.is) (hO : he.Inv s.os) :
    resultSizeFlush c s count = .ok (match finish c s with
      | some (fo, _) => .ok (count + fo.length)
      | none => .error .EILSEQ, s.clear) := by
  obtain ⟨r, e, irr, h1, h2⟩ := reset_spec hd he s tmpbuf hI hO rfl
    (reset_safe hd he s tmpbuf hI hO rfl (Or.inl (by rw [tmpbuf_len]; have := he.minRoom_le; omega)))
  unfold resultSizeFlush
  simp only [iconv, h1, Outcome.bind_ok]
  have hres := h2.res
  have hout : r.buf.out = e := by simpa [tmpbuf] using h2.out_eq
  cases hret : r.ret with
  | ok n =>
    rw [hret] at hres
    obtain ⟨h3, _, h4⟩ := hres
    simp [h3, h4, hout, plainReset, St.clear]
  | error x =>
    rw [hret] at hres
    cases x with
    | EILSEQ =>
      obtain ⟨h3, _, h4⟩ := hres
      simp [h3, h4, plainReset]
    | E2BIG =>
      exfalso
      have hlt := finBlocked_lt he h2.inv_os hres.1
      have := h2.len_eq; have := h2.e_len hret
      rw [tmpbuf_len] at *
      omega
    | EINVAL => exact absurd hres id
    | ENOMEM => exact absurd hres id

/-- What `reiconv_result_size` returns for a run. -/
def SizePost (c : Conv) (o : List Byte) (f : Final) (count : Nat) (x : Except Errno Nat × St) : Prop :=
  match f with
  | .done s' => x = (match finish c s' with
      | some (fo, _) => .ok (count + (o.length + fo.length))
      | none => .error .EILSEQ, s'.clear)
  | .einval _ _ => x.1 = .error .EILSEQ
  | .eilseq => x.1 = .error .EILSEQ

theorem resultSizeLoop_spec {c : Conv} (hd : DecOK c.dec c.unit) (he : EncOK c.enc) :
    ∀ fuel (s : St) (inp : List Byte) (count : Nat), hd.Inv s.is → he.Inv s.os →
      mu hd.pend s.is inp < fuel →
      ∃ x, resultSizeLoop c fuel s inp count = .ok x ∧ hd.Inv x.2.is ∧ he.Inv x.2.os ∧
        ∀ o i f, Runs hd.atom c s inp o i f → SizePost c o f count x := by
  intro fuel
  induction fuel with
  | zero => intro s inp count _ _ h; omega
  | succ fuel ih =>
    intro s inp count hI hO hfuel
    by_cases hne : inp = []
    · subst hne
      refine ⟨_, by rw [resultSizeLoop, if_pos rfl]; exact resultSizeFlush_spec hd he s count hI hO,
        hd.inv_clear _ hI, he.inv_init, ?_⟩
      intro o i f h
      obtain ⟨rfl, rfl, rfl⟩ := runs_nil.1 h
      simp [SizePost]
    · obtain ⟨r, e, irr, h1, h2⟩ := iconv_spec hd he s inp tmpbuf hI hO (fun _ => rfl)
      have hout : r.buf.out = e := by simpa [tmpbuf] using h2.out_eq
      have hpos : 2 ≤ mu hd.pend s.is inp := by
        unfold mu
        have : 0 < inp.length := List.length_pos_iff.mpr hne
        omega
      have hrec : mu hd.pend r.st.is r.inp < fuel →
          ∃ x, resultSizeLoop c fuel r.st r.inp (count + r.buf.out.length) = .ok x ∧
            hd.Inv x.2.is ∧ he.Inv x.2.os ∧
            ∀ o i f, Runs hd.atom c s inp o i f → SizePost c o f count x := by
        intro hlt
        obtain ⟨x, hx, hxi, hxo, hxp⟩ :=
          ih r.st r.inp (count + r.buf.out.length) h2.inv_is h2.inv_os hlt
        refine ⟨x, hx, hxi, hxo, ?_⟩
        intro o i f h
        obtain ⟨o1, i1, f1, hr1⟩ := runs_total (ec := encChar c.enc c.discard)
          (discard := c.discard) hd _ r.st r.inp h2.inv_is (Nat.le_refl _)
        obtain ⟨rfl, rfl, rfl⟩ := runs_det (h2.cont _ _ _ hr1) h
        have := hxp _ _ _ hr1
        rw [hout] at this
        unfold SizePost at this ⊢
        split
        · simp only [List.length_append, Nat.add_assoc] at this ⊢; exact this
        · exact this
        · exact this
      rw [resultSizeLoop, if_neg hne]
      simp only [h1, Outcome.bind_ok]
      have hres := h2.res
      cases hret : r.ret with
      | ok n =>
        rw [hret] at hres
        apply hrec
        have : mu hd.pend r.st.is r.inp ≤ 1 := by
          rw [hres.1]; unfold mu; split <;> simp
        omega
      | error x =>
        rw [hret] at hres
        cases x with
        | E2BIG =>
          apply hrec
          have h3 := loop_no_E2BIG h2 hret
          have h4 := h2.len_eq
          rw [tmpbuf_len] at h4
          have : e ≠ [] := by intro h; simp [h] at h4; omega
          have := h2.mu_lt this
          omega
        | EINVAL =>
          refine ⟨_, rfl, h2.inv_is, h2.inv_os, ?_⟩
          intro o i f h
          obtain ⟨rfl, rfl, rfl⟩ := runs_det (h2.cont _ _ _ (.more hres.1 hres.2)) h
          rfl
        | EILSEQ =>
          refine ⟨_, rfl, h2.inv_is, h2.inv_os, ?_⟩
          intro o i f h
          obtain ⟨rfl, rfl, rfl⟩ := runs_det (h2.cont _ _ _ hres) h
          rfl
        | ENOMEM => exact absurd hres id

theorem resultSize_spec {c : Conv} (hd : DecOK c.dec c.unit) (he : EncOK c.enc) (s : St)
    (inp : List Byte) (hI : hd.Inv s.is) (hO : he.Inv s.os) :
    ∃ x, resultSize c s inp = .ok x ∧ hd.Inv x.2.is ∧ he.Inv x.2.os ∧
      ∀ o i f, Runs hd.atom c s inp o i f → SizePost c o f 0 x := by
  refine resultSizeLoop_spec hd he _ s inp 0 hI hO ?_
  unfold mu; split <;> omega

/-! ### `reiconv_convert_static_size` -/

/-- The conversion of `inp` from `s` ends in state `s'`, having read everything or leaving an
incomplete sequence. -/
def Ends (atom : IState → List Byte → Atom) (c : Conv) (s : St) (inp o : List Byte) (i : Nat)
    (s' : St) : Prop :=
  Runs atom c s inp o i (.done s') ∨ ∃ rest, Runs atom c s inp o i (.einval s' rest)

/-- The buffer was too small in the conversion loop, having written `e`. -/
structure StuckLoop (c : Conv) (hd : DecOK c.dec c.unit) (he : EncOK c.enc) (s : St)
    (inp e : List Byte) (room : Nat) (st : St) (rest : List Byte) (irr : Nat) : Prop where
  ne : rest ≠ []
  inv_is : hd.Inv st.is
  inv_os : he.Inv st.os
  blocked : Blocked c st rest room
  cont : ∀ out i fin, Runs hd.atom c st rest out i fin → Runs hd.atom c s inp (e ++ out) (irr + i) fin
  exact : ∀ T i s', RunsExact hd.atom c s inp T i (.done s') →
    ∃ T' i', T = e ++ T' ∧ RunsExact hd.atom c st rest T' i' (.done s')

/-- The buffer was too small for the final flush, having written `e`. -/
structure StuckFinish (c : Conv) (hd : DecOK c.dec c.unit) (he : EncOK c.enc) (s : St)
    (inp e : List Byte) (room : Nat) (o : List Byte) (i : Nat) (s' s'' : St) (e2 : List Byte)
    (j : Nat) : Prop where
  ends : Ends hd.atom c s inp o i s'
  e_eq : e = o ++ e2
  inv_os : he.Inv s''.os
  blocked : FinBlocked c s'' room
  cont : ∀ o i, finish c s'' = some (o, i) → finish c s' = some (e2 ++ o, j + i)
  cont_none : finish c s'' = none → finish c s' = none
  where_ : (pending c s'').1 = none ∨ s'' = s' ∧ e2 = []

/-- What `reiconv_convert_static_size` leaves behind, having written `e`. -/
structure StaticPost (c : Conv) (hd : DecOK c.dec c.unit) (he : EncOK c.enc) (s : St)
    (inp : List Byte) (b : Buf) (x : Except Errno Unit × St × Buf) (e : List Byte) : Prop where
  out_eq : x.2.2.out = b.out ++ e
  len_eq : x.2.2.room.length + e.length = b.room.length
  null_eq : x.2.2.null = b.null
  inv_is : hd.Inv x.2.1.is
  inv_os : he.Inv x.2.1.os
  clean : ∀ owed, he.Covers owed → x.1 ≠ .error .E2BIG → ∀ R, Under (owed s.os) R b.room →
    Under (owed x.2.1.os) (R.drop e.length) x.2.2.room
  res : match x.1 with
    | .ok _ => ∃ o i s' fo fi, Ends hd.atom c s inp o i s' ∧ finish c s' = some (fo, fi) ∧
        e = o ++ fo ∧ x.2.1 = s'.clear
    | .error .EILSEQ => ∃ i, Runs hd.atom c s inp e i .eilseq ∨
        ∃ s', Ends hd.atom c s inp e i s' ∧ finish c s' = none
    | .error .E2BIG =>
        (∃ st rest irr, StuckLoop c hd he s inp e x.2.2.room.length st rest irr) ∨
        (∃ o i s' s'' e2 j, StuckFinish c hd he s inp e x.2.2.room.length o i s' s'' e2 j)
    | .error _ => False

theorem staticFlush_spec {c : Conv} (hd : DecOK c.dec c.unit) (he : EncOK c.enc) {s s' : St}
    {inp e : List Byte} {i : Nat} {b b' : Buf} (hI : hd.Inv s'.is) (hO : he.Inv s'.os)
    (hn : b.null = false) (hends : Ends hd.atom c s inp e i s')
    (hout : b'.out = b.out ++ e) (hlen : b'.room.length + e.length = b.room.length)
    (hnull : b'.null = b.null) (hclean : ∀ owed, he.Covers owed → ∀ R, Under (owed s.os) R b.room →
      Under (owed s'.os) (R.drop e.length) b'.room)
    (hz : ∃ x, staticFlush c s' b' = .ok x) :
    ∃ x e', staticFlush c s' b' = .ok x ∧ StaticPost c hd he s inp b x e' := by
  obtain ⟨r, e2, irr, h1, h2⟩ := reset_spec hd he s' b' hI hO (hnull.trans hn) (by
    obtain ⟨x, hx⟩ := hz
    obtain ⟨r, hr, _⟩ := bind_ok_inv hx
    exact ⟨r, hr⟩)
  unfold staticFlush
  simp only [iconv, h1, Outcome.bind_ok]
  have hres := h2.res
  have ho : r.buf.out = b.out ++ (e ++ e2) := by rw [h2.out_eq, hout, List.append_assoc]
  have hl : r.buf.room.length + (e ++ e2).length = b.room.length := by
    have := h2.len_eq; simp only [List.length_append]; omega
  have hcl : ∀ owed, he.Covers owed → r.ret ≠ .error .E2BIG → ∀ R, Under (owed s.os) R b.room →
      Under (owed r.st.os) (R.drop (e ++ e2).length) r.buf.room := by
    intro owed hc hr R hR
    rw [List.length_append, ← List.drop_drop]
    exact h2.clean owed hc hr _ (hclean owed hc R hR)
  cases hret : r.ret with
  | ok n =>
    rw [hret] at hres
    obtain ⟨h3, _, h4⟩ := hres
    refine ⟨_, e ++ e2, rfl, ho, hl, h2.null_eq.trans hnull, h2.inv_is, h2.inv_os, ?_, ?_⟩
    · intro owed hc _; exact hcl owed hc (by rw [hret]; simp)
    · exact ⟨e, i, s', e2, irr, hends, h3, rfl, h4⟩
  | error y =>
    rw [hret] at hres
    cases y with
    | EILSEQ =>
      obtain ⟨h3, rfl, h4⟩ := hres
      simp only [List.append_nil] at ho hl hcl
      refine ⟨_, e, rfl, ho, hl, h2.null_eq.trans hnull, h2.inv_is, h2.inv_os, ?_, ?_⟩
      · intro owed hc _; exact hcl owed hc (by rw [hret]; simp)
      · exact ⟨i, Or.inr ⟨s', hends, h3⟩⟩
    | E2BIG =>
      refine ⟨_, e ++ e2, rfl, ho, hl, h2.null_eq.trans hnull, h2.inv_is, h2.inv_os, by simp, ?_⟩
      exact Or.inr ⟨e, i, s', r.st, e2, irr, hends, rfl, h2.inv_os, hres.1, hres.2.1,
        hres.2.2.1, hres.2.2.2⟩
    | EINVAL => exact absurd hres id
    | ENOMEM => exact absurd hres id

theorem staticFlush_safe {c : Conv} (hd : DecOK c.dec c.unit) (he : EncOK c.enc) {s : St} {b : Buf}
    (hI : hd.Inv s.is) (hO : he.Inv s.os) (hn : b.null = false)
    (hz : he.minRoom ≤ b.room.length ∨ ∀ wc, (pending c s).1 = some wc → Dry c s.os wc) :
    ∃ x, staticFlush c s b = .ok x := by
  obtain ⟨r, h1⟩ := reset_safe hd he s b hI hO hn hz
  unfold staticFlush
  simp only [iconv, h1, Outcome.bind_ok]
  cases r.ret with
  | ok n => exact ⟨_, rfl⟩
  | error y => exact ⟨_, rfl⟩

/-- `reiconv_convert_static_size` on a usable buffer is safe, if the flush is not reached with a
pending character and no room left (or the encoder checks the room first). -/
theorem convertStatic_safe {c : Conv} (hd : DecOK c.dec c.unit) (he : EncOK c.enc) (s : St)
    (inp : List Byte) (b : Buf) (hI : hd.Inv s.is) (hO : he.Inv s.os) (hn : b.null = false)
    (hz : ∀ o i s', Ends hd.atom c s inp o i s' →
      o.length + he.minRoom ≤ b.room.length ∨ ∀ wc, (pending c s').1 = some wc → Dry c s'.os wc) :
    ∃ x, convertStatic c s inp b = .ok x := by
  unfold convertStatic
  by_cases hne : inp = []
  · subst hne
    rw [staticLoop, if_pos rfl]
    exact staticFlush_safe hd he hI hO hn (by
        rcases hz [] 0 s (Or.inl (.done s)) with h | h
        · exact Or.inl (by simpa using h)
        · exact Or.inr h)
  · rw [staticLoop, if_neg hne]
    obtain ⟨r, e, irr, h1, h2⟩ := iconv_spec hd he s inp b hI hO (fun _ => hn)
    simp only [h1, Outcome.bind_ok]
    have hres := h2.res
    have hz' : Ends hd.atom c s inp e irr r.st →
        he.minRoom ≤ r.buf.room.length ∨ ∀ wc, (pending c r.st).1 = some wc → Dry c r.st.os wc := by
      intro h
      rcases hz _ _ _ h with h' | h'
      · have := h2.len_eq; exact Or.inl (by omega)
      · exact Or.inr h'
    cases hret : r.ret with
    | ok n =>
      rw [hret] at hres
      simp only
      have hends : Ends hd.atom c s inp e irr r.st := by
        refine Or.inl ?_
        have := h2.cont [] 0 (.done r.st) (by rw [hres.1]; exact .done _)
        simpa using this
      rw [hres.1, staticLoop, if_pos rfl]
      exact staticFlush_safe hd he h2.inv_is h2.inv_os (h2.null_eq.trans hn) (hz' hends)
    | error y =>
      rw [hret] at hres
      cases y with
      | EINVAL =>
        have hends : Ends hd.atom c s inp e irr r.st := by
          refine Or.inr ⟨r.inp, ?_⟩
          have := h2.cont [] 0 _ (.more hres.1 hres.2)
          simpa using this
        exact staticFlush_safe hd he h2.inv_is h2.inv_os (h2.null_eq.trans hn) (hz' hends)
      | EILSEQ => exact ⟨_, rfl⟩
      | E2BIG => exact ⟨_, rfl⟩
      | ENOMEM => exact absurd hres id

/-- `reiconv_convert_static_size` on a usable buffer. -/
theorem convertStatic_spec {c : Conv} (hd : DecOK c.dec c.unit) (he : EncOK c.enc) (s : St)
    (inp : List Byte) (b : Buf) (hI : hd.Inv s.is) (hO : he.Inv s.os) (hn : b.null = false)
    (hz : ∃ x, convertStatic c s inp b = .ok x) :
    ∃ x e, convertStatic c s inp b = .ok x ∧ StaticPost c hd he s inp b x e := by
  unfold convertStatic at hz ⊢
  by_cases hne : inp = []
  · subst hne
    rw [staticLoop, if_pos rfl] at hz ⊢
    exact staticFlush_spec (e := []) (i := 0) hd he hI hO hn (Or.inl (.done s)) (by simp) (by simp)
      rfl (by simp) hz
  · rw [staticLoop, if_neg hne] at hz ⊢
    obtain ⟨r, e, irr, h1, h2⟩ := iconv_spec hd he s inp b hI hO (fun _ => hn)
    simp only [h1, Outcome.bind_ok] at hz ⊢
    have hres := h2.res
    cases hret : r.ret with
    | ok n =>
      rw [hret] at hres
      simp only [hret] at hz ⊢
      have hends : Ends hd.atom c s inp e irr r.st := by
        refine Or.inl ?_
        have := h2.cont [] 0 (.done r.st) (by rw [hres.1]; exact .done _)
        simpa using this
      rw [hres.1, staticLoop, if_pos rfl] at hz ⊢
      exact staticFlush_spec hd he h2.inv_is h2.inv_os hn hends h2.out_eq h2.len_eq h2.null_eq
        (fun owed hc => h2.clean owed hc (by rw [hret]; simp)) hz
    | error y =>
      rw [hret] at hres
      rw [hret] at hz
      cases y with
      | EINVAL =>
        have hends : Ends hd.atom c s inp e irr r.st := by
          refine Or.inr ⟨r.inp, ?_⟩
          have := h2.cont [] 0 _ (.more hres.1 hres.2)
          simpa using this
        exact staticFlush_spec hd he h2.inv_is h2.inv_os hn hends h2.out_eq h2.len_eq h2.null_eq
          (fun owed hc => h2.clean owed hc (by rw [hret]; simp)) hz
      | EILSEQ =>
        refine ⟨_, e, rfl, h2.out_eq, h2.len_eq, h2.null_eq, h2.inv_is, h2.inv_os, ?_, ?_⟩
        · intro owed hc _; exact h2.clean owed hc (by rw [hret]; simp)
        · have := h2.cont [] 0 _ hres
          exact ⟨irr, Or.inl (by simpa using this)⟩
      | E2BIG =>
        refine ⟨_, e, rfl, h2.out_eq, h2.len_eq, h2.null_eq, h2.inv_is, h2.inv_os, by simp, ?_⟩
        exact Or.inl ⟨r.st, r.inp, irr, hres.1, h2.inv_is, h2.inv_os, hres.2, h2.cont, h2.exact⟩
      | ENOMEM => exact absurd hres id

/-! Consequences -/

/-- The written part never exceeds the whole conversion, and there are fewer than 64 bytes left, when
the buffer is reported too small. -/
theorem static_E2BIG {c : Conv} {hd : DecOK c.dec c.unit} {he : EncOK c.enc} {s inp b x e}
    (h : StaticPost c hd he s inp b x e) (hx : x.1 = .error .E2BIG) :
    x.2.2.room.length < 64 ∧
    ∀ o i s' fo fi, Ends hd.atom c s inp o i s' → finish c s' = some (fo, fi) →
      ∃ rest, o ++ fo = e ++ rest := by
  have hres := h.res
  rw [hx] at hres
  rcases hres with ⟨st, rest, irr, hs⟩ | ⟨o1, i1, s1, s2, e2, j, hs⟩
  · constructor
    · obtain ⟨wc, n, is', _, h0 | ⟨_, hb⟩⟩ := hs.blocked
      · omega
      · exact putBlocked_lt he hs.inv_os hb
    · intro o i s' fo fi hends hf
      obtain ⟨o1, i1, f1, hr1⟩ := runs_total (ec := encChar c.enc c.discard)
          (discard := c.discard) hd _ st rest hs.inv_is (Nat.le_refl _)
      have hr := hs.cont _ _ _ hr1
      rcases hends with h' | ⟨rest', h'⟩
      · obtain ⟨rfl, _, _⟩ := runs_det hr h'; exact ⟨o1 ++ fo, by simp⟩
      · obtain ⟨rfl, _, _⟩ := runs_det hr h'; exact ⟨o1 ++ fo, by simp⟩
  · refine ⟨finBlocked_lt he hs.inv_os hs.blocked, ?_⟩
    intro o i s' fo fi hends hf
    have : o1 = o ∧ s1 = s' := by
      rcases hs.ends with h1 | ⟨r1, h1⟩ <;> rcases hends with h2 | ⟨r2, h2⟩ <;>
        obtain ⟨rfl, _, h4⟩ := runs_det h1 h2 <;> cases h4 <;> exact ⟨rfl, rfl⟩
    obtain ⟨rfl, rfl⟩ := this
    cases hfin : finish c s2 with
    | none => rw [hs.cont_none hfin] at hf; cases hf
    | some y =>
      obtain ⟨o2, i2⟩ := y
      rw [hs.cont _ _ hfin] at hf
      cases hf
      exact ⟨o2, by rw [hs.e_eq, List.append_assoc]⟩

/-- Room-exactness of an encoder: `RET_TOOSMALL` is only reported when the room is really smaller
than the encoding, and writing a character leaves something to be written, unless it is a language tag
for which nothing is written. -/
structure EncTight (E : Encoder) (he : EncOK E) : Prop where
  tight : ∀ os wc n r bs os', he.Inv os → E.wctomb os wc n = .ok r →
    r.ret = .toosmall → r.ws.length ≤ n → E.full os wc = some (bs, os') → n < bs.length
  live : ∀ os wc bs os', he.Inv os → E.full os wc = some (bs, os') →
    bs ≠ [] ∨ E.tail os' ≠ [] ∨ isTag wc = true ∧ bs = [] ∧ E.Silent os wc os'
  reset_tight : ∀ f os n r, E.reset = some f → he.Inv os → f os n = .ok r → r.ret = .toosmall →
    n < (E.tail os).length

theorem EncTight.rep_live {E : Encoder} {he : EncOK E} (ht : EncTight E he) {os wc : Nat} {bs : List Byte}
    {os' : Nat} (hO : he.Inv os) (h : E.rep os wc = some (bs, os')) : bs ≠ [] ∨ E.tail os' ≠ [] := by
  rcases ht.live _ _ _ _ hO (Encoder.rep_full h) with h1 | h1 | ⟨h1, h2, _⟩
  · exact .inl h1
  · exact .inr h1
  · exact absurd h2 (Encoder.rep_ne h h1)

theorem finishExact_finish {c : Conv} {s : St} {fo} (h : finishExact c s = some fo) :
    finish c s = some (fo, 0) := by
  unfold finishExact at h
  unfold finish
  split at h
  · next hp => cases h; rfl
  · next wc hp =>
    simp only [Option.map_eq_some_iff] at h
    obtain ⟨⟨bs, os⟩, h1, rfl⟩ := h
    simp [encChar, Encoder.rep_full h1]

theorem exact_runs {c : Conv} {atom} {s inp T i f}
    (h : RunsExact atom c s inp T i f) : ∀ s', f = .done s' → Runs atom c s inp T i f := by
  induction h with
  | done s => intro _ _; exact .done s
  | more hne ha => rintro _ ⟨⟩
  | stop _ _ _ => rintro _ ⟨⟩
  | unenc _ _ _ => rintro _ ⟨⟩
  | skip hne ha hdis _ ih => intro s' hs; exact .skip hne ha hdis (ih s' hs)
  | shift hne ha _ ih => intro s' hs; exact .shift hne ha (ih s' hs)
  | char hne ha he _ ih =>
    intro s' hs
    refine .char hne ha ?_ (ih s' hs)
    simp only [Option.map_eq_some_iff] at he
    obtain ⟨⟨bs, os⟩, h1, h2⟩ := he
    cases h2
    simp [encChar, Encoder.rep_full h1]

theorem finishExact_live {c : Conv} {he : EncOK c.enc} (ht : EncTight c.enc he) {s : St} {fo}
    (hO : he.Inv s.os) (h : finishExact c s = some fo) (hl : c.enc.tail s.os ≠ []) : fo ≠ [] := by
  unfold finishExact at h
  split at h
  · cases h; exact hl
  · simp only [Option.map_eq_some_iff] at h
    obtain ⟨⟨bs, os⟩, h1, rfl⟩ := h
    rcases ht.rep_live hO h1 with h | h <;> simp [h]

theorem exact_live {c : Conv} {hd : DecOK c.dec c.unit} {he : EncOK c.enc}
    (ht : EncTight c.enc he) {s inp T i f} (h : RunsExact hd.atom c s inp T i f) :
    ∀ s' fo, f = .done s' → finishExact c s' = some fo → he.Inv s.os →
      c.enc.tail s.os ≠ [] → T ++ fo ≠ [] := by
  induction h with
  | done s => rintro _ fo ⟨⟩ hf hO hl; simpa using finishExact_live ht hO hf hl
  | more hne ha => rintro _ _ ⟨⟩
  | stop _ _ _ => rintro _ _ ⟨⟩
  | unenc _ _ _ => rintro _ _ ⟨⟩
  | skip hne ha hdis _ ih => exact ih
  | shift hne ha _ ih => exact ih
  | char hne ha he' _ ih =>
    intro s' fo hs hf hO hl
    simp only [Option.map_eq_some_iff] at he'
    obtain ⟨⟨bs, os⟩, h1, h2⟩ := he'
    cases h2
    rcases ht.rep_live hO h1 with h | h
    · simp [h]
    · have := ih s' fo hs hf (full_inv he hO (Encoder.rep_full h1)) h
      simp only [List.append_assoc]
      intro hc
      exact this (List.append_eq_nil_iff.1 hc).2

/-- When every character is representable, a buffer that holds the whole conversion is enough. -/
theorem static_exact {c : Conv} {hd : DecOK c.dec c.unit} {he : EncOK c.enc}
    (ht : EncTight c.enc he) {s inp b x e} (h : StaticPost c hd he s inp b x e)
    {T i s' fo} (hr : RunsExact hd.atom c s inp T i (.done s')) (hf : finishExact c s' = some fo)
    (hroom : (T ++ fo).length ≤ b.room.length) :
    x.1 = .ok () ∧ e = T ++ fo ∧ x.2.1 = s'.clear := by
  have hfin := finishExact_finish hf
  have hruns := exact_runs hr s' rfl
  have hdet : ∀ {o i s2}, Ends hd.atom c s inp o i s2 → o = T ∧ s2 = s' := by
    rintro o i s2 (h1 | ⟨r1, h1⟩) <;> obtain ⟨rfl, _, h4⟩ := runs_det h1 hruns <;> cases h4 <;>
      exact ⟨rfl, rfl⟩
  have hres := h.res
  cases hx : x.1 with
  | ok u =>
    rw [hx] at hres
    obtain ⟨o, i, s2, fo', fi, h1, h2, h3, h4⟩ := hres
    obtain ⟨rfl, rfl⟩ := hdet h1
    rw [hfin] at h2; cases h2
    exact ⟨rfl, h3, h4⟩
  | error y =>
    exfalso
    rw [hx] at hres
    cases y with
    | EILSEQ =>
      obtain ⟨j, h1 | ⟨s2, h1, h2⟩⟩ := hres
      · obtain ⟨_, _, h4⟩ := runs_det h1 hruns; cases h4
      · obtain ⟨rfl, rfl⟩ := hdet h1; rw [hfin] at h2; cases h2
    | EINVAL => exact hres
    | ENOMEM => exact hres
    | E2BIG =>
      have hlen := h.len_eq
      rcases hres with ⟨st, rest, irr, hs⟩ | ⟨o1, i1, s1, s2, e2, j, hs⟩
      · obtain ⟨T', i', rfl, hr'⟩ := hs.exact _ _ _ hr
        simp only [List.length_append] at hroom
        obtain ⟨wc, n, is', hm, hblk⟩ := hs.blocked
        obtain ⟨ret, is2, hm2, hbatch⟩ := hd.batch _ rest hs.inv_is hs.ne
        rw [hm] at hm2; cases hm2
        rcases (runs_batch_char (discard := c.discard) (unit := c.unit) hbatch hs.ne rfl).1 hr' with
          ⟨bs, os', k, out', irr', he', hr2, rfl, rfl⟩ | ⟨_, _, _, h0⟩
        · simp only [Option.map_eq_some_iff] at he'
          obtain ⟨⟨bs', os2⟩, h1, h2⟩ := he'
          cases h2
          simp only [List.length_append] at hroom
          rcases hblk with h0 | ⟨h1', hb | hb⟩
          · have : (bs' ++ (out' ++ fo)) ≠ [] := by
              rcases ht.rep_live hs.inv_os h1 with h | h
              · simp [h]
              · have := exact_live ht hr2 s' fo rfl hf (full_inv he hs.inv_os (Encoder.rep_full h1)) h
                intro hc; exact this (List.append_eq_nil_iff.1 hc).2
            have := List.length_pos_iff.mpr this
            simp only [List.length_append] at this
            omega
          · obtain ⟨r, g1, g2, g3⟩ := hb
            have := ht.tight _ _ _ _ _ _ hs.inv_os g1 g2 g3 (Encoder.rep_full h1)
            omega
          · obtain ⟨⟨r1, r2, r3⟩, r', g1, g2, g3, _⟩ := hb
            simp only at g2; subst g2
            have := full_of_iluni he hs.inv_os g3 g1
            rw [Encoder.rep_full h1] at this; cases this
        · cases h0
      · obtain ⟨rfl, rfl⟩ := hdet hs.ends
        have hblk := hs.blocked
        have heq := hs.e_eq
        subst heq
        simp only [List.length_append] at hroom hlen
        unfold FinBlocked at hblk
        rcases hs.where_ with hp | ⟨rfl, rfl⟩
        · rw [hp] at hblk
          obtain ⟨f, r, hf', g1, g2⟩ := hblk
          have h6 := ht.reset_tight f _ _ _ hf' hs.inv_os g1 g2
          have h7 := hs.cont (c.enc.tail s2.os) 0 (by simp [finish, hp])
          rw [hfin] at h7
          simp only [Option.some.injEq, Prod.mk.injEq] at h7
          rw [h7.1, List.length_append] at hroom
          omega
        · cases hp : (pending c s2).1 with
          | none =>
            rw [hp] at hblk
            obtain ⟨f, r, hf', g1, g2⟩ := hblk
            have h6 := ht.reset_tight f _ _ _ hf' hs.inv_os g1 g2
            simp only [finishExact, hp, Option.some.injEq] at hf
            subst hf
            simp only [List.length_nil] at hlen
            omega
          | some wc =>
            rw [hp] at hblk
            simp only [finishExact, hp, Option.map_eq_some_iff] at hf
            obtain ⟨⟨bs', os2⟩, h1, rfl⟩ := hf
            simp only [List.length_append, List.length_nil] at hroom hlen
            rcases hblk with hb | hb
            · obtain ⟨r, g1, g2, g3⟩ := hb
              have := ht.tight _ _ _ _ _ _ hs.inv_os g1 g2 g3 (Encoder.rep_full h1)
              omega
            · obtain ⟨⟨r1, r2, r3⟩, r', g1, g2, g3, _⟩ := hb
              simp only at g2; subst g2
              have := full_of_iluni he hs.inv_os g3 g1
              rw [Encoder.rep_full h1] at this; cases this

end Reiconv
