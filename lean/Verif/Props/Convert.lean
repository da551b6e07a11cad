import Verif.Entry

/-!
# Properties of conversion calls (C01, C02, C04–C07)

`A` and `B` are any two modelled encodings, `discard` the flag of the descriptor, `s` any state the
descriptor can reach by calls of the API. `Runs` (`Verif/Spec.lean`) is the specification of a
conversion.
-/

namespace Reiconv

variable {A B : Entry} {discard : Bool} {s : St}

theorem Entry.inv (A B : Entry) (h : Reach (A.conv B discard) s) :
    A.decOK.Inv s.is ∧ B.encOK.Inv s.os :=
  reach_inv (c := A.conv B discard) A.decOK B.encOK h

/-- Every state a conversion call leaves behind is reachable. -/
theorem Reach.step {c : Conv} (h : Reach c s) {k : Call} {s'} (h' : k.after c s = .ok s') :
    Reach c s' := by
  obtain ⟨ks, hk⟩ := h
  refine ⟨ks ++ [k], ?_⟩
  have : ∀ ks (s0 : St), afterAll c s0 ks = .ok s → afterAll c s0 (ks ++ [k]) = .ok s' := by
    intro ks
    induction ks with
    | nil => intro s0 h0; cases h0; simp [afterAll, h']
    | cons k' ks ih =>
      intro s0 h0
      obtain ⟨s1, h1, h2⟩ := bind_ok_inv h0
      simp only [List.cons_append, afterAll, h1, Outcome.bind_ok]
      exact ih s1 h2
  exact this ks _ hk

/-- C01. A conversion call has no undefined behaviour (no access outside the input or the output
buffer), does not call `abort()`, and returns. Partial: it holds for the encodings that have an `Entry`; for the
target encoding GB18030:2005 it is false, see `C01_gb18030_2005_overflow`. -/
theorem C01_convert_safe_partial (A B : Entry) (discard : Bool) (s : St) (h : Reach (A.conv B discard) s)
    (inp room : List Byte) :
    ∃ r, iconv (A.conv B discard) s (some inp) (some ⟨false, [], room⟩) = .ok r := by
  obtain ⟨hI, hO⟩ := Entry.inv A B h
  obtain ⟨r, _, _, hr, _⟩ := iconv_spec (c := A.conv B discard) A.decOK B.encOK s inp
    ⟨false, [], room⟩ hI hO (fun _ => rfl)
  exact ⟨r, hr⟩

/-- C02. What is left of the input is a suffix of it; the bytes passed in the output buffer and the
bytes ahead are together as many as there were; the bytes passed are the output of the part of the
input that was read: whatever follows, converting what is left from the new state continues the
conversion. -/
theorem C02_accounting (A B : Entry) (discard : Bool) (s : St) (h : Reach (A.conv B discard) s)
    (inp room : List Byte) {r}
    (hr : iconv (A.conv B discard) s (some inp) (some ⟨false, [], room⟩) = .ok r) :
    (∃ pre, inp = pre ++ r.inp) ∧
    r.buf.out.length + r.buf.room.length = room.length ∧
    ∃ irr, ∀ t out i fin, Runs A.atom (A.conv B discard) r.st (r.inp ++ t) out i fin →
      Runs A.atom (A.conv B discard) s (inp ++ t) (r.buf.out ++ out) (irr + i) fin := by
  obtain ⟨hI, hO⟩ := Entry.inv A B h
  obtain ⟨r', e, irr, hr', hp⟩ := iconv_spec (c := A.conv B discard) A.decOK B.encOK s inp
    ⟨false, [], room⟩ hI hO (fun _ => rfl)
  rw [hr] at hr'; cases hr'
  have hout : r.buf.out = e := by simpa using hp.out_eq
  refine ⟨hp.suffix, ?_, irr, ?_⟩
  · have := hp.len_eq; simp only at this; rw [hout]; omega
  · intro t out i fin hrun
    rw [hout]
    exact cont_ext (c := A.conv B discard) A.decOK B.encOK hI hp.inv_is hp.inv_os hp.cont t _ _ _ hrun

/-- Every conversion in the sense of the specification has a result, and only one. -/
theorem runs_exists (A B : Entry) (discard : Bool) (s : St) (h : Reach (A.conv B discard) s)
    (inp : List Byte) : ∃ out irr fin, Runs A.atom (A.conv B discard) s inp out irr fin ∧
      ∀ out' irr' fin', Runs A.atom (A.conv B discard) s inp out' irr' fin' →
        out' = out ∧ irr' = irr ∧ fin' = fin := by
  obtain ⟨hI, hO⟩ := Entry.inv A B h
  obtain ⟨o, i, f, hrun⟩ := runs_total (ec := encChar B.enc discard) (discard := discard) A.decOK _
    s inp hI (Nat.le_refl _)
  exact ⟨o, i, f, hrun, fun _ _ _ h' => runs_det h' hrun⟩

/-- The next character does not fit: after possible shift sequences, which `mbtowc` reads with it, the
input continues with a character, and there is no room at all, or too little for its encoding. (If
the character cannot be encoded, the encoder of some encodings asks for room for the longest
encoding, which is less than 64 bytes, before it notices.) -/
def NoRoom (A B : Entry) (s : St) (inp : List Byte) (room : Nat) : Prop :=
  ∃ wc n is, A.dec.mbtowc s.is inp = .ok (.char wc n, is) ∧ room < 64 ∧
    (room = 0 ∨ ∀ bs os, B.enc.full s.os wc = some (bs, os) → room < bs.length)

/-- C04. A conversion call either returns a count and has read the whole input, or fails with
`E2BIG`, `EINVAL` or `EILSEQ`; `E2BIG` means that the next character does not fit, `EINVAL` that the
input left is a proper beginning of an item, `EILSEQ` that the input left starts with an invalid or
unencodable sequence. -/
theorem C04_return_contract (A B : Entry) (discard : Bool) (s : St)
    (h : Reach (A.conv B discard) s) (inp room : List Byte) {r}
    (hr : iconv (A.conv B discard) s (some inp) (some ⟨false, [], room⟩) = .ok r) :
    (∃ n, r.ret = .ok n ∧ r.inp = [] ∧
      Runs A.atom (A.conv B discard) s inp r.buf.out n (.done r.st)) ∨
    (r.ret = .error .E2BIG ∧ r.inp ≠ [] ∧ NoRoom A B r.st r.inp r.buf.room.length) ∨
    (r.ret = .error .EINVAL ∧ r.inp ≠ [] ∧ A.atom r.st.is r.inp = .more ∧
      ∃ n, Runs A.atom (A.conv B discard) s inp r.buf.out n (.einval r.st r.inp)) ∨
    (r.ret = .error .EILSEQ ∧ r.inp ≠ [] ∧
      Runs A.atom (A.conv B discard) r.st r.inp [] 0 .eilseq ∧
      ∃ n, Runs A.atom (A.conv B discard) s inp r.buf.out n .eilseq) := by
  obtain ⟨hI, hO⟩ := Entry.inv A B h
  obtain ⟨r', e, irr, hr', hp⟩ := iconv_spec (c := A.conv B discard) A.decOK B.encOK s inp
    ⟨false, [], room⟩ hI hO (fun _ => rfl)
  rw [hr] at hr'; cases hr'
  have hout : r.buf.out = e := by simpa using hp.out_eq
  have hres := hp.res
  cases hret : r.ret with
  | ok n =>
    rw [hret] at hres
    obtain ⟨h1, h2⟩ := hres
    refine Or.inl ⟨n, rfl, h1, ?_⟩
    have := hp.cont [] 0 (.done r.st) (by rw [h1]; exact .done _)
    rw [hout, h2]; simpa using this
  | error x =>
    rw [hret] at hres
    cases x with
    | EINVAL =>
      refine Or.inr (Or.inr (Or.inl ⟨rfl, hres.1, hres.2, irr, ?_⟩))
      have := hp.cont [] 0 (.einval r.st r.inp) (.more hres.1 hres.2)
      rw [hout]; simpa using this
    | EILSEQ =>
      refine Or.inr (Or.inr (Or.inr ⟨rfl, ?_, hres, irr, ?_⟩))
      · intro h0
        rw [h0] at hres
        have hres' : Runs A.atom (A.conv B discard) r.st [] [] 0 .eilseq := hres
        have := runs_nil.1 hres'
        simp at this
      · have := hp.cont [] 0 .eilseq hres
        rw [hout]; simpa using this
    | E2BIG =>
      have h64 := loop_no_E2BIG hp hret
      obtain ⟨hne, wc, n, is, h1, h2⟩ := hres
      refine Or.inr (Or.inl ⟨rfl, hne, wc, n, is, h1, h64, ?_⟩)
      rcases h2 with h2 | ⟨h2, h3 | ⟨r1, r2, h3, h4, h5, _⟩⟩
      · exact Or.inl h2
      · obtain ⟨q, h3, h4, h5⟩ := h3
        exact Or.inr fun bs os hf => B.tight.tight _ _ _ _ _ _ hp.inv_os h3 h4 h5 hf
      · refine Or.inr fun bs os hf => ?_
        obtain ⟨ret, ws, st⟩ := r1
        simp only at h4; subst h4
        have := full_of_iluni B.encOK hp.inv_os h5 h3
        rw [show B.enc.full r.st.os wc = none from this] at hf; cases hf
    | ENOMEM => exact absurd hres id

/-- C07. With 64 free bytes or more, a call that fails with `E2BIG` has produced output (so a loop
that retries with a fresh buffer makes progress). -/
theorem C07_progress (A B : Entry) (discard : Bool) (s : St) (h : Reach (A.conv B discard) s)
    (inp room : List Byte) (hroom : 64 ≤ room.length) {r}
    (hr : iconv (A.conv B discard) s (some inp) (some ⟨false, [], room⟩) = .ok r)
    (he : r.ret = .error .E2BIG) : r.buf.out ≠ [] := by
  obtain ⟨hI, hO⟩ := Entry.inv A B h
  obtain ⟨r', e, irr, hr', hp⟩ := iconv_spec (c := A.conv B discard) A.decOK B.encOK s inp
    ⟨false, [], room⟩ hI hO (fun _ => rfl)
  rw [hr] at hr'; cases hr'
  have h64 := loop_no_E2BIG hp he
  have hout : r.buf.out = e := by simpa using hp.out_eq
  have := hp.len_eq
  simp only at this
  intro h0
  rw [← hout, h0] at this
  simp at this
  omega

/-- C07. The retry loop: calling again and again with fresh buffers of at least 64 bytes ends, after
at most `2 * n + 2` calls for `n` input bytes, in a result that is not `E2BIG`. -/
theorem C07_retry_terminates (A B : Entry) (discard : Bool) (s : St)
    (h : Reach (A.conv B discard) s) (inp room : List Byte) (hroom : 64 ≤ room.length) :
    ∃ k y v, k ≤ 2 * inp.length + 2 ∧
      session (A.conv B discard) (Sess.start s) (.feed inp :: List.replicate k (.call room)) = .ok y ∧
      y.Settled v := by
  obtain ⟨hI, hO⟩ := Entry.inv A B h
  have key : ∀ m (x : Sess), A.decOK.Inv x.st.is → B.encOK.Inv x.st.os →
      mu A.decOK.pend x.st.is x.left ≤ m →
      ∃ k y v, k ≤ m + 1 ∧ session (A.conv B discard) x (List.replicate k (.call room)) = .ok y ∧
        y.Settled v := by
    intro m
    induction m with
    | zero =>
      intro x hI hO hm
      obtain ⟨r, e, irr, hr, hp⟩ := iconv_spec (c := A.conv B discard) A.decOK B.encOK x.st x.left
        ⟨false, [], room⟩ hI hO (fun _ => rfl)
      have hstep : session (A.conv B discard) x (List.replicate 1 (.call room)) =
          .ok ⟨r.st, r.inp, x.out ++ r.buf.out, some r.ret⟩ := by
        simp [session, Op.step, hr]
      have hres := hp.res
      cases hret : r.ret with
      | ok n => exact ⟨1, _, .ok (), by omega, hstep, by simp [Sess.Settled, hret]⟩
      | error q =>
        rw [hret] at hres
        cases q with
        | EINVAL => exact ⟨1, _, .error .EINVAL, by omega, hstep, by simp [Sess.Settled, hret]⟩
        | EILSEQ => exact ⟨1, _, .error .EILSEQ, by omega, hstep, by simp [Sess.Settled, hret]⟩
        | ENOMEM => exact absurd hres id
        | E2BIG =>
          exfalso
          have h64 := loop_no_E2BIG hp hret
          have hl := hp.len_eq
          simp only at hl
          have : e ≠ [] := by rintro rfl; simp at hl; omega
          have := hp.mu_lt this
          omega
    | succ m ih =>
      intro x hI hO hm
      obtain ⟨r, e, irr, hr, hp⟩ := iconv_spec (c := A.conv B discard) A.decOK B.encOK x.st x.left
        ⟨false, [], room⟩ hI hO (fun _ => rfl)
      have hstep : session (A.conv B discard) x (List.replicate 1 (.call room)) =
          .ok ⟨r.st, r.inp, x.out ++ r.buf.out, some r.ret⟩ := by
        simp [session, Op.step, hr]
      have hres := hp.res
      cases hret : r.ret with
      | ok n => exact ⟨1, _, .ok (), by omega, hstep, by simp [Sess.Settled, hret]⟩
      | error q =>
        rw [hret] at hres
        cases q with
        | EINVAL => exact ⟨1, _, .error .EINVAL, by omega, hstep, by simp [Sess.Settled, hret]⟩
        | EILSEQ => exact ⟨1, _, .error .EILSEQ, by omega, hstep, by simp [Sess.Settled, hret]⟩
        | ENOMEM => exact absurd hres id
        | E2BIG =>
          have h64 := loop_no_E2BIG hp hret
          have hl := hp.len_eq
          simp only at hl
          have : e ≠ [] := by rintro rfl; simp at hl; omega
          have hlt := hp.mu_lt this
          obtain ⟨k, y, v, hk, hy, hv⟩ := ih ⟨r.st, r.inp, x.out ++ r.buf.out, some r.ret⟩
            hp.inv_is hp.inv_os (by simp only at hlt ⊢; omega)
          refine ⟨k + 1, y, v, by omega, ?_, hv⟩
          simp only [List.replicate_succ, session, Op.step, hr, Outcome.bind_ok, Outcome.pure_eq]
          exact hy
  have hmu : mu A.decOK.pend s.is inp ≤ 2 * inp.length + 1 := by unfold mu; split <;> omega
  obtain ⟨k, y, v, hk, hy, hv⟩ := key (2 * inp.length + 1) ⟨s, [] ++ inp, [], none⟩ hI hO hmu
  exact ⟨k, y, v, by omega, hy, hv⟩

/-- C05, C06. Two programs that feed the same text to the same descriptor, in any pieces, with any
output buffers and any number of calls in between, and that have come to an end of the input
(`Settled`: all read, or stopped by an incomplete or an invalid sequence), have collected the same
output and got the same verdict; unless the verdict is `EILSEQ`, the descriptor is in the same state
and the same bytes are left. -/
theorem C05_C06_chunking (A B : Entry) (discard : Bool) (s : St) (h : Reach (A.conv B discard) s)
    {ops1 ops2 : List Op} (hfed : fed ops1 = fed ops2) {y1 y2 v1 v2}
    (h1 : session (A.conv B discard) (Sess.start s) ops1 = .ok y1) (hv1 : y1.Settled v1)
    (h2 : session (A.conv B discard) (Sess.start s) ops2 = .ok y2) (hv2 : y2.Settled v2) :
    y1.out = y2.out ∧ v1 = v2 ∧ (v1 ≠ .error .EILSEQ → y1.st = y2.st ∧ y1.left = y2.left) := by
  obtain ⟨hI, hO⟩ := Entry.inv A B h
  exact session_agree (c := A.conv B discard) A.decOK B.encOK s hI hO hfed h1 hv1 h2 hv2

/-- C05, C06. No program of feeds and calls has undefined behaviour, and at any time what it has
collected is a beginning of the output of the conversion. -/
theorem C05_C06_prefix (A B : Entry) (discard : Bool) (s : St) (h : Reach (A.conv B discard) s)
    (ops : List Op) : ∃ y, session (A.conv B discard) (Sess.start s) ops = .ok y ∧
      ∀ t out irr fin, Runs A.atom (A.conv B discard) s (fed ops ++ t) out irr fin →
        ∃ rest, out = y.out ++ rest := by
  obtain ⟨hI, hO⟩ := Entry.inv A B h
  obtain ⟨y, e, irr, h1, h2, h3, h4, h5⟩ :=
    session_spec (c := A.conv B discard) A.decOK B.encOK ops (Sess.start s) hI hO
  refine ⟨y, h1, ?_⟩
  intro t out i fin hrun
  obtain ⟨o1, i1, f1, hr1⟩ := runs_total (ec := encChar B.enc discard) (discard := discard) A.decOK _
    y.st (y.left ++ t) h2 (Nat.le_refl _)
  have := h5 t _ _ _ hr1
  simp only [Sess.start, List.nil_append] at this h4
  obtain ⟨rfl, _, _⟩ := runs_det hrun this
  exact ⟨o1, by rw [h4]⟩

/-- C05. A single call with 64 bytes more than the output settles. -/
theorem C05_single_call (A B : Entry) (discard : Bool) (s : St) (h : Reach (A.conv B discard) s)
    (inp room : List Byte) {out irr fin}
    (hrun : Runs A.atom (A.conv B discard) s inp out irr fin) (hroom : out.length + 64 ≤ room.length) :
    ∃ y v, session (A.conv B discard) (Sess.start s) [.feed inp, .call room] = .ok y ∧ y.Settled v ∧
      y.out = out := by
  obtain ⟨r, hr⟩ := C01_convert_safe_partial A B discard s h inp room
  have hs : session (A.conv B discard) (Sess.start s) [.feed inp, .call room] =
      .ok ⟨r.st, r.inp, r.buf.out, some r.ret⟩ := by
    simp [session, Op.step, hr, Sess.start]
  rcases C04_return_contract A B discard s h inp room hr with
    ⟨n, h1, h2, h3⟩ | ⟨h1, h2, h3⟩ | ⟨h1, h2, h3, n, h4⟩ | ⟨h1, h2, h3, n, h4⟩
  · obtain ⟨rfl, _⟩ := runs_det hrun h3
    exact ⟨_, .ok (), hs, by simp [Sess.Settled, h1], rfl⟩
  · exfalso
    obtain ⟨_, hlen, irr, hc⟩ := C02_accounting A B discard s h inp room hr
    obtain ⟨wc, n, is, _, h64, _⟩ := h3
    have hreach : Reach (A.conv B discard) r.st :=
      h.step (k := .iconv (some inp) (some ⟨false, [], room⟩)) (by simp [Call.after, hr])
    obtain ⟨o, i, f, hrun', _⟩ := runs_exists A B discard r.st hreach r.inp
    have := hc [] o i f (by simpa using hrun')
    rw [List.append_nil] at this
    obtain ⟨rfl, _⟩ := runs_det hrun this
    simp only [List.length_append] at hroom
    omega
  · obtain ⟨rfl, _⟩ := runs_det hrun h4
    exact ⟨_, .error .EINVAL, hs, by simp [Sess.Settled, h1], rfl⟩
  · obtain ⟨rfl, _⟩ := runs_det hrun h4
    exact ⟨_, .error .EILSEQ, hs, by simp [Sess.Settled, h1], rfl⟩

/-! ## The hypotheses are met

UTF-8 to UTF-16 with the text `é€`, fed in three pieces and collected through small buffers. -/

/-- A new descriptor is reachable. -/
theorem Reach.init (c : Conv) : Reach c St.init := ⟨[], rfl⟩

example : ∃ y, session (utf8_entry.conv utf16_entry false) (Sess.start St.init)
    [.feed [0xC3], .call [0, 0], .feed [0xA9, 0xE2], .call [0, 0, 0], .call [0, 0, 0, 0],
      .feed [0x82, 0xAC], .call [0, 0]] = .ok y ∧ y.Settled (.ok ()) ∧
    y.out = [0xFE, 0xFF, 0x00, 0xE9, 0x20, 0xAC] := by
  exact ⟨_, rfl, rfl, rfl⟩

example : ∃ r, iconv (utf8_entry.conv utf16_entry false) St.init (some [0xC3, 0xA9, 0xE2, 0x82])
    (some ⟨false, [], List.replicate 10 0⟩) = .ok r ∧ r.ret = .error .EINVAL ∧ r.inp = [0xE2, 0x82] :=
  ⟨_, rfl, rfl, rfl⟩

example : ∃ r, iconv (utf8_entry.conv utf16_entry false) St.init (some [0xC3, 0xA9, 0xE2, 0x82, 0xAC])
    (some ⟨false, [], List.replicate 5 0⟩) = .ok r ∧ r.ret = .error .E2BIG ∧
    r.inp = [0xE2, 0x82, 0xAC] :=
  ⟨_, rfl, rfl, rfl⟩

example : ∃ r, iconv (utf8_entry.conv utf16_entry false) St.init (some [0xC3, 0xA9, 0xFF])
    (some ⟨false, [], List.replicate 10 0⟩) = .ok r ∧ r.ret = .error .EILSEQ ∧ r.inp = [0xFF] :=
  ⟨_, rfl, rfl, rfl⟩

end Reiconv
