import Verif.History

/-!
# Sessions: feeding a text in pieces, collecting the output in pieces
-/

namespace Reiconv

/-- What `e` is made of: encodings of characters one after the other, as in `encChar`. -/
inductive Wrote (c : Conv) : Nat → List Byte → Nat → Prop
  | nil (os) : Wrote c os [] os
  | cons {os wc bs os1 i e os'} : encChar c.enc c.discard os wc = some (bs, os1, i) →
      Wrote c os1 e os' → Wrote c os (bs ++ e) os'

/-- A step of a program that uses a descriptor: get more input, or call `reiconv_iconv` on the
input not yet read with a fresh output buffer. -/
inductive Op where
  | feed (x : List Byte)
  | call (room : List Byte)

/-- State of such a program: the descriptor, the input not yet read, all output collected so far,
and the result of the last step if it was a call. -/
structure Sess where
  st : St
  left : List Byte
  out : List Byte
  last : Option (Except Errno Nat)

/-- One call of a session. -/
def Op.step (c : Conv) (x : Sess) : Op → Outcome Sess
  | .feed y => .ok { x with left := x.left ++ y, last := none }
  | .call room => do
    let r ← iconv c x.st (some x.left) (some ⟨false, [], room⟩)
    return ⟨r.st, r.inp, x.out ++ r.buf.out, some r.ret⟩

/-- Run a program of feeds and calls. -/
def session (c : Conv) (x : Sess) : List Op → Outcome Sess
  | [] => .ok x
  | o :: os => do let x ← o.step c x; session c x os

/-- The whole input of a program. -/
def fed : List Op → List Byte
  | [] => []
  | .feed y :: os => y ++ fed os
  | .call _ :: os => fed os

/-- A program that just opened its descriptor, or holds one in state `s`. -/
def Sess.start (s : St) : Sess := ⟨s, [], [], none⟩

/-- The program is done with its input for now: the last call read it all, or stopped at an
incomplete or an invalid sequence; it was not short of output space. -/
def Sess.Settled (x : Sess) (v : Except Errno Unit) : Prop :=
  match x.last with
  | some (.ok _) => v = .ok ()
  | some (.error .EINVAL) => v = .error .EINVAL
  | some (.error .EILSEQ) => v = .error .EILSEQ
  | _ => False

variable {c : Conv}

theorem session_spec (hd : DecOK c.dec c.unit) (he : EncOK c.enc) : ∀ (ops : List Op) (x : Sess),
    hd.Inv x.st.is → he.Inv x.st.os →
    ∃ y e irr, session c x ops = .ok y ∧ hd.Inv y.st.is ∧ he.Inv y.st.os ∧ y.out = x.out ++ e ∧
      ∀ t out i fin, Runs hd.atom c y.st (y.left ++ t) out i fin →
        Runs hd.atom c x.st (x.left ++ (fed ops ++ t)) (e ++ out) (irr + i) fin := by
  intro ops
  induction ops with
  | nil =>
    intro x hI hO
    exact ⟨x, [], 0, rfl, hI, hO, by simp, fun t out i fin h => by simpa [fed] using h⟩
  | cons o ops ih =>
    intro x hI hO
    cases o with
    | feed z =>
      obtain ⟨y, e, irr, h1, h2, h3, h4, h5⟩ := ih { x with left := x.left ++ z, last := none } hI hO
      refine ⟨y, e, irr, h1, h2, h3, h4, ?_⟩
      intro t out i fin h
      have := h5 t out i fin h
      simpa only [fed, List.append_assoc] using this
    | call room =>
      obtain ⟨r, e0, irr0, hr, hp⟩ := iconv_spec hd he x.st x.left ⟨false, [], room⟩ hI hO (by simp)
      obtain ⟨y, e, irr, h1, h2, h3, h4, h5⟩ :=
        ih ⟨r.st, r.inp, x.out ++ r.buf.out, some r.ret⟩ hp.inv_is hp.inv_os
      have hout : r.buf.out = e0 := by simpa using hp.out_eq
      refine ⟨y, e0 ++ e, irr0 + irr, ?_, h2, h3, ?_, ?_⟩
      · simp only [session, Op.step, hr, Outcome.bind_ok, Outcome.pure_eq]; exact h1
      · rw [h4, hout, List.append_assoc]
      · intro t out i fin h
        have h6 := h5 t out i fin h
        have := cont_ext hd he hI hp.inv_is hp.inv_os hp.cont (fed ops ++ t) _ _ _ h6
        simpa only [fed, List.append_assoc, Nat.add_assoc] using this

/-- How a settled session ends, in terms of the specification. -/
theorem session_settled (hd : DecOK c.dec c.unit) (he : EncOK c.enc) (ops : List Op) (x : Sess)
    (hI : hd.Inv x.st.is) (hO : he.Inv x.st.os) (hx : x.last = none) {y v}
    (h : session c x ops = .ok y) (hv : y.Settled v) :
    ∃ e irr fin, y.out = x.out ++ e ∧ Runs hd.atom c x.st (x.left ++ fed ops) e irr fin ∧
      (v = .ok () → fin = .done y.st ∧ y.left = []) ∧
      (v = .error .EINVAL → fin = .einval y.st y.left ∧ y.left ≠ []) ∧
      (v = .error .EILSEQ → fin = .eilseq) := by
  -- the last step was a call
  have last : ∀ (ops : List Op) (x : Sess), hd.Inv x.st.is → he.Inv x.st.os → session c x ops = .ok y →
      y.last = x.last ∨ y.last = none ∨
      (∃ n, y.last = some (.ok n) ∧ y.left = []) ∨
      (y.last = some (.error .EINVAL) ∧ y.left ≠ [] ∧ hd.atom y.st.is y.left = .more) ∨
      (y.last = some (.error .EILSEQ) ∧ Runs hd.atom c y.st y.left [] 0 .eilseq) ∨
      y.last = some (.error .E2BIG) := by
    intro ops
    induction ops with
    | nil => intro x _ _ h; cases h; exact Or.inl rfl
    | cons o ops ih =>
      intro x hI hO h
      cases o with
      | feed z =>
        rcases ih { x with left := x.left ++ z, last := none } hI hO h with h | h
        · exact Or.inr (Or.inl h)
        · exact Or.inr h
      | call room =>
        obtain ⟨r, e0, irr0, hr, hp⟩ := iconv_spec hd he x.st x.left ⟨false, [], room⟩ hI hO (by simp)
        simp only [session, Op.step, hr, Outcome.bind_ok, Outcome.pure_eq] at h
        rcases ih ⟨r.st, r.inp, x.out ++ r.buf.out, some r.ret⟩ hp.inv_is hp.inv_os h with h1 | h1
        · cases ops with
          | nil =>
            cases h
            have hres := hp.res
            cases hret : r.ret with
            | ok n => rw [hret] at hres; exact Or.inr (Or.inr (Or.inl ⟨n, by simp, hres.1⟩))
            | error q =>
              rw [hret] at hres
              cases q with
              | EINVAL => exact Or.inr (Or.inr (Or.inr (Or.inl ⟨by simp, hres⟩)))
              | EILSEQ =>
                exact Or.inr (Or.inr (Or.inr (Or.inr (Or.inl ⟨by simp, hres⟩))))
              | E2BIG => exact Or.inr (Or.inr (Or.inr (Or.inr (Or.inr (by simp)))))
              | ENOMEM => exact absurd hres id
          | cons o' ops' =>
            -- the last step is in the rest
            cases o' with
            | feed z =>
              rcases ih ⟨r.st, r.inp, x.out ++ r.buf.out, none⟩ hp.inv_is hp.inv_os h with h2 | h2
              · exact Or.inr (Or.inl h2)
              · exact Or.inr h2
            | call room' =>
              rcases ih ⟨r.st, r.inp, x.out ++ r.buf.out, none⟩ hp.inv_is hp.inv_os h with h2 | h2
              · exact Or.inr (Or.inl h2)
              · exact Or.inr h2
        · exact Or.inr h1
  obtain ⟨y', e, irr, h1, hI', hO', h4, h5⟩ := session_spec hd he ops x hI hO
  rw [h] at h1; cases h1
  have h5' := fun out i fin => h5 [] out i fin
  simp only [List.append_nil] at h5'
  rcases last ops x hI hO h with h6 | h6 | ⟨n, h6, h7⟩ | ⟨h6, h7, h8⟩ | ⟨h6, h7⟩ | h6
  · rw [hx] at h6; simp [Sess.Settled, h6] at hv
  · simp [Sess.Settled, h6] at hv
  · simp only [Sess.Settled, h6] at hv
    refine ⟨e, irr, .done y.st, h4, ?_, fun _ => ⟨rfl, h7⟩, by simp [hv], by simp [hv]⟩
    have := h5' [] 0 (.done y.st) (by rw [h7]; exact .done _)
    simpa using this
  · simp only [Sess.Settled, h6] at hv
    refine ⟨e, irr, .einval y.st y.left, h4, ?_, by simp [hv], fun _ => ⟨rfl, h7⟩, by simp [hv]⟩
    have := h5' [] 0 _ (.more h7 h8)
    simpa using this
  · simp only [Sess.Settled, h6] at hv
    refine ⟨e, irr, .eilseq, h4, ?_, by simp [hv], by simp [hv], fun _ => rfl⟩
    simpa using h5' _ _ _ h7
  · simp [Sess.Settled, h6] at hv

/-- Two settled sessions with the same whole input agree. -/
theorem session_agree (hd : DecOK c.dec c.unit) (he : EncOK c.enc) (s : St) (hI : hd.Inv s.is)
    (hO : he.Inv s.os) {ops1 ops2 : List Op} (hfed : fed ops1 = fed ops2) {y1 y2 v1 v2}
    (h1 : session c (Sess.start s) ops1 = .ok y1) (hv1 : y1.Settled v1)
    (h2 : session c (Sess.start s) ops2 = .ok y2) (hv2 : y2.Settled v2) :
    y1.out = y2.out ∧ v1 = v2 ∧ (v1 ≠ .error .EILSEQ → y1.st = y2.st ∧ y1.left = y2.left) := by
  obtain ⟨e1, i1, f1, ho1, hr1, a1, b1, c1⟩ :=
    session_settled hd he ops1 (Sess.start s) hI hO rfl h1 hv1
  obtain ⟨e2, i2, f2, ho2, hr2, a2, b2, c2⟩ :=
    session_settled hd he ops2 (Sess.start s) hI hO rfl h2 hv2
  rw [hfed] at hr1
  obtain ⟨rfl, _, rfl⟩ := runs_det hr1 hr2
  have hcase : ∀ {y : Sess} {v}, y.Settled v → v = .ok () ∨ v = .error .EINVAL ∨ v = .error .EILSEQ := by
    intro y v hv
    unfold Sess.Settled at hv
    split at hv
    · exact Or.inl hv
    · exact Or.inr (Or.inl hv)
    · exact Or.inr (Or.inr hv)
    · exact absurd hv id
  refine ⟨by rw [ho1, ho2], ?_⟩
  rcases hcase hv1 with rfl | rfl | rfl <;> rcases hcase hv2 with rfl | rfl | rfl <;>
    simp_all

/-! ## What is written is a sequence of encodings of characters -/

theorem loop_wrote (hd : DecOK c.dec c.unit) (he : EncOK c.enc) : ∀ (fuel : Nat) (s : St)
    (inp : List Byte) (b : Buf) (res : Nat) (r : CallRes), hd.Inv s.is → he.Inv s.os →
    (b.room ≠ [] → b.null = false) →
    loopConvert c fuel s inp b res = .ok r → ∃ e, r.buf.out = b.out ++ e ∧ Wrote c s.os e r.st.os := by
  intro fuel
  induction fuel with
  | zero => intro s inp b res r _ _ _ h; cases h
  | succ fuel ih =>
    intro s inp b res r hI hO hb h
    by_cases hne : inp = []
    · subst hne; rw [loop_nil] at h; cases h; exact ⟨[], by simp, .nil _⟩
    obtain ⟨ret, is', hmb, hbatch⟩ := hd.batch s.is inp hI hne
    obtain ⟨hI', hbc, hbi, hbt⟩ := batch_ok hd hbatch hI hne
    cases ret with
    | ilseq k =>
      rw [loop_ilseq hne hmb (hbi k rfl).1] at h
      split at h
      · exact ih ⟨is', s.os⟩ _ _ _ _ hI' hO hb h
      · cases h; exact ⟨[], by simp, .nil _⟩
    | toofew k =>
      rw [loop_toofew hne hmb (hbt k rfl).1] at h
      split at h
      · cases h; exact ⟨[], by simp, .nil _⟩
      · exact ih ⟨is', s.os⟩ _ _ _ _ hI' hO hb h
    | char wc n =>
      rw [loop_char hne hmb (hbc wc n rfl).1] at h
      split at h
      · cases h; exact ⟨[], by simp, .nil _⟩
      · next hroom =>
        have hnull := hb (fun h => hroom (by simp [h]))
        obtain ⟨p, os', b', bs, hp, hpp⟩ := putChar_spec (wc := wc) he hO hnull
          (putChar_safe he hO hnull (Or.inl (by have := he.minRoom_le; omega)))
        rw [hp] at h
        simp only [Outcome.bind_ok] at h
        have hres := hpp.res
        cases p with
        | done irr =>
          obtain ⟨e, h1, h2⟩ := ih ⟨_, _⟩ _ _ _ _ hI' hpp.inv (fun _ => hpp.null_eq.trans hnull) h
          exact ⟨bs ++ e, by rw [h1, hpp.out_eq, List.append_assoc], .cons hres h2⟩
        | err x =>
          cases h
          cases x with
          | E2BIG =>
            obtain ⟨_, rfl, rfl⟩ := hres
            exact ⟨[], by simpa using hpp.out_eq, .nil _⟩
          | EILSEQ =>
            obtain ⟨_, rfl, rfl⟩ := hres
            exact ⟨[], by simpa using hpp.out_eq, .nil _⟩
          | EINVAL => exact absurd hres id
          | ENOMEM => exact absurd hres id

theorem Wrote.append {os e os1 e' os'} (h1 : Wrote c os e os1) (h2 : Wrote c os1 e' os') :
    Wrote c os (e ++ e') os' := by
  induction h1 with
  | nil => exact h2
  | cons h _ ih => rw [List.append_assoc]; exact .cons h (ih h2)

theorem iconv_wrote (hd : DecOK c.dec c.unit) (he : EncOK c.enc) {s : St} {inp b r}
    (hI : hd.Inv s.is) (hO : he.Inv s.os) (hb : b.room ≠ [] → b.null = false)
    (h : iconv c s (some inp) (some b) = .ok r) : ∃ e, r.buf.out = b.out ++ e ∧ Wrote c s.os e r.st.os :=
  loop_wrote hd he _ _ _ _ _ _ hI hO hb h

theorem session_wrote (hd : DecOK c.dec c.unit) (he : EncOK c.enc) : ∀ (ops : List Op) (x y : Sess),
    hd.Inv x.st.is → he.Inv x.st.os → session c x ops = .ok y →
    ∃ e, y.out = x.out ++ e ∧ Wrote c x.st.os e y.st.os := by
  intro ops
  induction ops with
  | nil => intro x y _ _ h; cases h; exact ⟨[], by simp, .nil _⟩
  | cons o ops ih =>
    intro x y hI hO h
    obtain ⟨z, hz, h⟩ := bind_ok_inv h
    cases o with
    | feed w => cases hz; exact ih { x with left := x.left ++ w, last := none } y hI hO h
    | call room =>
      obtain ⟨r, hr, hz⟩ := bind_ok_inv hz
      cases hz
      obtain ⟨h1, h2⟩ := iconv_inv hd he hI hO hr
      obtain ⟨e, h3, h4⟩ := iconv_wrote hd he hI hO (by simp) hr
      obtain ⟨e', h5, h6⟩ := ih _ _ (by exact h1) (by exact h2) h
      refine ⟨e ++ e', ?_, h4.append h6⟩
      have : r.buf.out = e := by simpa using h3
      rw [h5]; simp only [this, List.append_assoc]

/-- A run writes a sequence of encodings of characters. -/
theorem runs_wrote {atom} {s inp o i f} (h : Runs atom c s inp o i f) :
    ∃ os', Wrote c s.os o os' ∧ ∀ s', f = .done s' → os' = s'.os := by
  induction h with
  | done s => exact ⟨s.os, .nil _, by rintro _ ⟨⟩; rfl⟩
  | more _ _ => exact ⟨_, .nil _, by rintro _ ⟨⟩⟩
  | stop _ _ _ => exact ⟨_, .nil _, by rintro _ ⟨⟩⟩
  | unenc _ _ _ => exact ⟨_, .nil _, by rintro _ ⟨⟩⟩
  | skip _ _ _ _ ih => exact ih
  | shift _ _ _ ih => exact ih
  | char _ _ he _ ih =>
    obtain ⟨os', h1, h2⟩ := ih
    exact ⟨os', .cons he h1, h2⟩

end Reiconv
