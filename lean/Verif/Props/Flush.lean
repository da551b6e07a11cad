import Verif.Props.Bounds

/-!
# C03 exactly: which source encodings can be flushed with a full output buffer

Ten source encodings hold a character back. For six of them `C03_registered_violation` gives a target encoding for which
a flush with a full buffer stores a byte behind the buffer. The other four are the BIG5-HKSCS encodings, which hold back
U+0304 or U+030C only; for these it is safe with every target encoding: no encoding stores these two characters or U+FFFD
without checking the room, except UTF-7, and UTF-7 does so only when it is not within base64, which it is after the
letter that precedes the held back character.
-/

namespace Reiconv

variable {c : Conv}

/-! ## Invariants that relate the two states -/

/-- A property of the decoder state and the encoder state that every step keeps. -/
structure JointInv (c : Conv) (hd : DecOK c.dec c.unit) (he : EncOK c.enc) (J : Nat → Nat → Prop) : Prop where
  init : J 0 0
  flush : ∀ f, c.dec.flushwc = some f → ∀ is os, hd.Inv is → J (f is).2.st os
  other : ∀ is os inp r is', hd.Inv is → J is.st os → inp ≠ [] → c.dec.mbtowc is inp = .ok (r, is') →
    (∀ wc n, r ≠ .char wc n) → J is'.st os
  char : ∀ is os inp wc n is', hd.Inv is → he.Inv os → J is.st os → inp ≠ [] → c.dec.mbtowc is inp = .ok (.char wc n, is') →
    ∀ b i os' b', putChar c os wc b = .ok (.done i, os', b') → J is'.st os'

section

variable {hd : DecOK c.dec c.unit} {he : EncOK c.enc} {J : Nat → Nat → Prop}

/-- If a character is not written then the output state is as before. -/
theorem callWctomb_err (he : EncOK c.enc) {os wc : Nat} {b : Buf} {x} (hO : he.Inv os)
    (h : callWctomb c os wc b = .ok x) (hx : x.1 < 0) : x.2.1 = os := by
  unfold callWctomb at h
  obtain ⟨r, hr, h⟩ := bind_ok_inv h
  obtain ⟨b', hb, h⟩ := bind_ok_inv h
  cases h
  have hlen : r.ws.length ≤ b.room.length := by
    unfold Buf.store at hb
    split at hb
    · next h0 => simp [h0]
    · split at hb
      · cases hb
      · next hc =>
        simp only [Bool.or_eq_true, decide_eq_true_eq, not_or, Nat.not_lt] at hc
        exact hc.2
  obtain ⟨_, h2⟩ := he.any os wc _ r hO hr hlen
  cases hret : r.ret with
  | wrote k => simp only [hret, WcRet.code] at hx; omega
  | iluni => exact h2 (.inl hret)
  | toosmall => exact h2 (.inr hret)

theorem outcountOk_none {oc : Int} {os : Nat} {b b' : Buf} {i os' : Nat} {e : Errno}
    (h : outcountOk oc os b i = .ok (.err e, os', b')) : oc < 0 ∧ os' = os := by
  unfold outcountOk at h
  split at h
  · next hn => cases h; exact ⟨hn, rfl⟩
  · obtain ⟨b', _, h⟩ := bind_ok_inv h
    cases h

theorem putChar_err (he : EncOK c.enc) {os wc : Nat} {b b' : Buf} {e : Errno} {os' : Nat} (hO : he.Inv os)
    (h : putChar c os wc b = .ok (.err e, os', b')) : os' = os := by
  unfold putChar at h
  obtain ⟨⟨oc, os1, b1⟩, h1, h⟩ := bind_ok_inv h
  simp only at h
  split at h
  · obtain ⟨g1, rfl⟩ := outcountOk_none h
    exact callWctomb_err he hO h1 g1
  · next hil =>
    have hil : oc = RET_ILUNI := Decidable.not_not.1 hil
    have hn : oc < 0 := by rw [hil]; decide
    have e1 : os1 = os := callWctomb_err he hO h1 hn
    rw [e1] at h
    split at h
    · cases h
    · split at h
      · exact (outcountOk_none h).2
      · obtain ⟨⟨oc2, os2, b2⟩, h2, h⟩ := bind_ok_inv h
        simp only at h
        split at h
        · obtain ⟨g1, rfl⟩ := outcountOk_none h
          exact callWctomb_err he hO h2 g1
        · next hil2 =>
          have hil2 : oc2 = RET_ILUNI := Decidable.not_not.1 hil2
          have hn2 : oc2 < 0 := by rw [hil2]; decide
          have e2 : os2 = os := callWctomb_err he hO h2 hn2
          cases h
          exact e2

namespace JointInv

theorem loop (hJ : JointInv c hd he J) : ∀ (fuel : Nat) (s : St) (inp : List Byte) (b : Buf) (res : Nat) (r : CallRes),
    hd.Inv s.is → he.Inv s.os → J s.is.st s.os → loopConvert c fuel s inp b res = .ok r → J r.st.is.st r.st.os := by
  intro fuel
  induction fuel with
  | zero => intro s inp b res r _ _ _ h; cases h
  | succ fuel ih =>
    intro s inp b res r hI hO hj h
    by_cases hne : inp = []
    · subst hne; rw [loop_nil] at h; cases h; exact hj
    obtain ⟨ret, is', hmb, hbatch⟩ := hd.batch s.is inp hI hne
    obtain ⟨hI', hbc, hbi, hbt⟩ := batch_ok hd hbatch hI hne
    cases ret with
    | ilseq k =>
      have hj' := hJ.other s.is s.os inp _ is' hI hj hne hmb (fun _ _ => nofun)
      rw [loop_ilseq hne hmb (hbi k rfl).1] at h
      split at h
      · exact ih ⟨_, _⟩ _ _ _ _ hI' hO hj' h
      · cases h; exact hj'
    | toofew k =>
      have hj' := hJ.other s.is s.os inp _ is' hI hj hne hmb (fun _ _ => nofun)
      rw [loop_toofew hne hmb (hbt k rfl).1] at h
      split at h
      · cases h; exact hj'
      · exact ih ⟨_, _⟩ _ _ _ _ hI' hO hj' h
    | char wc n =>
      rw [loop_char hne hmb (hbc wc n rfl).1] at h
      split at h
      · cases h; exact hj
      · obtain ⟨⟨p, os, b'⟩, h1, h⟩ := bind_ok_inv h
        have hO' := putChar_inv he hO h1
        cases p with
        | err e =>
          have := putChar_err he hO h1
          cases h
          simp only [this]; exact hj
        | done i => exact ih ⟨_, _⟩ _ _ _ _ hI' hO' (hJ.char s.is s.os inp wc n is' hI hO hj hne hmb _ _ _ _ h1) h

theorem resetOut (hJ : JointInv c hd he J) {s : St} {b : Buf} {res : Nat} {r : CallRes} (hO : he.Inv s.os)
    (hj : J s.is.st s.os) (h : Reiconv.resetOut c s b res = .ok r) : J r.st.is.st r.st.os := by
  unfold Reiconv.resetOut at h
  cases hf : c.enc.reset with
  | none => rw [hf] at h; cases h; exact hJ.init
  | some f =>
    rw [hf] at h
    obtain ⟨x, hx, h⟩ := bind_ok_inv h
    obtain ⟨b', _, h⟩ := bind_ok_inv h
    obtain ⟨y, hy, _, hcase⟩ := he.reset_safe f hf s.os b.room.length hO
    rw [hx] at hy; cases hy
    split at h
    · next hneg =>
      cases h
      rcases hcase with hw | ⟨_, hst⟩
      · rw [hw] at hneg; simp only [WcRet.code] at hneg; omega
      · simp only [hst]; exact hj
    · obtain ⟨b'', _, h⟩ := bind_ok_inv h
      cases h; exact hJ.init

theorem reset (hJ : JointInv c hd he J) {s : St} {b : Buf} {r : CallRes} (hI : hd.Inv s.is) (hO : he.Inv s.os)
    (hj : J s.is.st s.os) (h : loopReset c s b = .ok r) : J r.st.is.st r.st.os := by
  unfold loopReset at h
  split at h
  · cases h; exact hJ.init
  · split at h
    · exact hJ.resetOut hO hj h
    · next f hf =>
      simp only at h
      split at h
      · exact hJ.resetOut (s := ⟨(f s.is).2, s.os⟩) hO (hJ.flush f hf s.is s.os hI) h
      · obtain ⟨⟨p, os, b'⟩, h1, h⟩ := bind_ok_inv h
        have hO' := putChar_inv he hO h1
        cases p with
        | err e =>
          have := putChar_err he hO h1
          cases h; simp only [this]; exact hj
        | done i => exact hJ.resetOut (s := ⟨_, _⟩) hO' (hJ.flush f hf s.is os hI) h

theorem iconv (hJ : JointInv c hd he J) {s : St} {inp out} {r : CallRes} (hI : hd.Inv s.is) (hO : he.Inv s.os)
    (hj : J s.is.st s.os) (h : Reiconv.iconv c s inp out = .ok r) : J r.st.is.st r.st.os := by
  unfold Reiconv.iconv at h
  split at h
  · cases h; exact hJ.init
  · exact hJ.reset hI hO hj h
  · cases h
  · exact hJ.loop _ _ _ _ _ _ hI hO hj h

theorem sizeLoop (hJ : JointInv c hd he J) : ∀ (fuel : Nat) (s : St) (inp : List Byte) (count : Nat) (x),
    hd.Inv s.is → he.Inv s.os → J s.is.st s.os → resultSizeLoop c fuel s inp count = .ok x → J x.2.is.st x.2.os := by
  intro fuel
  induction fuel with
  | zero => intro s inp count x _ _ _ h; cases h
  | succ fuel ih =>
    intro s inp count x hI hO hj h
    rw [resultSizeLoop] at h
    split at h
    · unfold resultSizeFlush at h
      obtain ⟨r, hr, h⟩ := bind_ok_inv h
      obtain ⟨r2, hr2, h⟩ := bind_ok_inv h
      obtain ⟨h1, h2⟩ := iconv_inv hd he hI hO hr
      have hj2 := hJ.iconv h1 h2 (hJ.iconv hI hO hj hr) hr2
      split at h <;> cases h <;> exact hj2
    · obtain ⟨r, hr, h⟩ := bind_ok_inv h
      obtain ⟨h1, h2⟩ := iconv_inv hd he hI hO hr
      have hj1 := hJ.iconv hI hO hj hr
      split at h
      · exact ih _ _ _ _ h1 h2 hj1 h
      · exact ih _ _ _ _ h1 h2 hj1 h
      · cases h; exact hj1
      · cases h; exact hj1

theorem staticFlush (hJ : JointInv c hd he J) {s : St} {b : Buf} {x} (hI : hd.Inv s.is) (hO : he.Inv s.os)
    (hj : J s.is.st s.os) (h : Reiconv.staticFlush c s b = .ok x) : J x.2.1.is.st x.2.1.os := by
  unfold Reiconv.staticFlush at h
  obtain ⟨r, hr, h⟩ := bind_ok_inv h
  have := hJ.iconv hI hO hj hr
  split at h <;> cases h <;> exact this

theorem staticLoop (hJ : JointInv c hd he J) : ∀ (fuel : Nat) (s : St) (inp : List Byte) (b : Buf) (x), hd.Inv s.is →
    he.Inv s.os → J s.is.st s.os → Reiconv.staticLoop c fuel s inp b = .ok x → J x.2.1.is.st x.2.1.os := by
  intro fuel
  induction fuel with
  | zero => intro s inp b x _ _ _ h; cases h
  | succ fuel ih =>
    intro s inp b x hI hO hj h
    rw [Reiconv.staticLoop] at h
    split at h
    · exact hJ.staticFlush hI hO hj h
    · obtain ⟨r, hr, h⟩ := bind_ok_inv h
      obtain ⟨h1, h2⟩ := iconv_inv hd he hI hO hr
      have hj1 := hJ.iconv hI hO hj hr
      split at h
      · exact ih _ _ _ _ h1 h2 hj1 h
      · exact hJ.staticFlush h1 h2 hj1 h
      · cases h; exact hj1

theorem after (hJ : JointInv c hd he J) {s s' : St} {k : Call} (hI : hd.Inv s.is) (hO : he.Inv s.os)
    (hj : J s.is.st s.os) (h : k.after c s = .ok s') : J s'.is.st s'.os := by
  cases k with
  | iconv inp out => obtain ⟨r, hr, h⟩ := bind_ok_inv h; cases h; exact hJ.iconv hI hO hj hr
  | size inp => obtain ⟨r, hr, h⟩ := bind_ok_inv h; cases h; exact hJ.sizeLoop _ _ _ _ _ hI hO hj hr
  | static inp b => obtain ⟨r, hr, h⟩ := bind_ok_inv h; cases h; exact hJ.staticLoop _ _ _ _ _ hI hO hj hr
  | convert inp dp lp al =>
    obtain ⟨r, hr, h⟩ := bind_ok_inv h; cases h
    unfold Reiconv.convert at hr
    obtain ⟨⟨sz, s1⟩, h1, hr⟩ := bind_ok_inv hr
    have hj1 := hJ.sizeLoop _ _ _ _ _ hI hO hj h1
    obtain ⟨y, hy, hI1, hO1, _⟩ := resultSize_spec hd he s inp hI hO
    rw [h1] at hy; cases hy
    simp only at hr hI1 hO1 hj1
    split at hr
    · cases hr; exact hj1
    · split at hr
      · cases hr; exact hj1
      · obtain ⟨⟨r, s2, b2⟩, h2, hr⟩ := bind_ok_inv hr
        have := hJ.staticLoop _ _ _ _ _ hI1 hO1 hj1 h2
        simp only at hr this
        split at hr <;> cases hr <;> exact this

/-- The property holds after every history of calls. -/
theorem reach (hJ : JointInv c hd he J) {s : St} (h : Reach c s) : J s.is.st s.os := by
  obtain ⟨ks, h⟩ := h
  have : ∀ (ks : List Call) {s s' : St}, hd.Inv s.is → he.Inv s.os → J s.is.st s.os → afterAll c s ks = .ok s' →
      J s'.is.st s'.os := by
    intro ks
    induction ks with
    | nil => intro s s' hI hO hj h; cases h; exact hj
    | cons k ks ih =>
      intro s s' hI hO hj h
      obtain ⟨s1, h1, h⟩ := bind_ok_inv h
      obtain ⟨hI1, hO1⟩ := after_inv hd he hI hO h1
      exact ih hI1 hO1 (hJ.after hI hO hj h1) h
  exact this ks hd.inv_init he.inv_init hJ.init h

end JointInv

end

/-! ## Encoders that check the room first -/

/-- With no room the encoder stores nothing for `w`, in state `os`. -/
def Entry.Quiet (B : Entry) (os w : Nat) : Prop := ∃ r, B.enc.wctomb os w 0 = .ok r ∧ r.ws = []

theorem putChar_quiet {A B : Entry} {discard : Bool} {os w : Nat} {b : Buf} (hO : B.encOK.Inv os) (hn : b.null = false)
    (hb : b.room = []) (h : B.Quiet os w) (hf : B.Quiet os 0xFFFD) :
    ∃ x, putChar (A.conv B discard) os w b = .ok x := by
  obtain ⟨null, out, room⟩ := b
  have hn' : null = false := hn
  have hb' : room = [] := hb
  clear hn hb
  subst hn' hb'
  obtain ⟨⟨ret, ws, st⟩, h1, rfl⟩ := h
  obtain ⟨⟨ret2, ws2, st2⟩, g1, rfl⟩ := hf
  have e1 : callWctomb (A.conv B discard) os w ⟨false, out, []⟩ = .ok (ret.code, st, ⟨false, out, []⟩) := by
    unfold callWctomb
    rw [show (A.conv B discard).enc = B.enc from rfl, List.length_nil, h1]
    rfl
  have e2 : callWctomb (A.conv B discard) os 0xFFFD ⟨false, out, []⟩ = .ok (ret2.code, st2, ⟨false, out, []⟩) := by
    unfold callWctomb
    rw [show (A.conv B discard).enc = B.enc from rfl, List.length_nil, g1]
    rfl
  obtain ⟨k1, k2⟩ := B.encOK.any os w 0 _ hO h1 (Nat.le_refl 0)
  obtain ⟨k3, k4⟩ := B.encOK.any os 0xFFFD 0 _ hO g1 (Nat.le_refl 0)
  have ho : ∀ (ret : WcRet) st i, (∀ k, ret = .wrote k → k = 0) → ∃ x, outcountOk ret.code st ⟨false, out, []⟩ i = .ok x := by
    intro ret st i hk
    refine outcountOk_ok ?_
    cases ret with
    | wrote k => rw [hk k rfl]; simp [WcRet.code]
    | _ => simp [WcRet.code, RET_ILUNI, RET_TOOSMALL]
  unfold putChar
  simp only [e1, Outcome.bind_ok]
  split
  · exact ho _ _ _ fun k hk => (k1 k hk).1
  · next hil =>
    have hret : ret = .iluni := by
      cases ret with
      | iluni => rfl
      | wrote k => simp only [WcRet.code, RET_ILUNI] at hil; omega
      | toosmall => simp [WcRet.code, RET_ILUNI, RET_TOOSMALL] at hil
    subst hret
    have hst : st = os := k2 (.inl rfl)
    subst hst
    split
    · exact ⟨_, rfl⟩
    · split
      · exact outcountOk_ok (by simp)
      · simp only [e2, Outcome.bind_ok]
        split
        · exact ho _ _ _ fun k hk => (k3 k hk).1
        · exact ⟨_, rfl⟩

/-- A flush with a full buffer is safe if nothing is stored for the pending character. -/
theorem flush_quiet (A B : Entry) (discard : Bool) (s : St) (h : Reach (A.conv B discard) s)
    (hq : ∀ w, A.dec.kept s.is = [w] → B.Quiet s.os w ∧ B.Quiet s.os 0xFFFD) (out : List Byte) :
    ∃ r, iconv (A.conv B discard) s none (some ⟨false, out, []⟩) = .ok r := by
  obtain ⟨hI, hO⟩ := Entry.inv A B h
  show ∃ r, loopReset (A.conv B discard) s ⟨false, out, []⟩ = .ok r
  unfold loopReset
  simp only [Bool.false_eq_true, if_false]
  have e : (A.conv B discard).dec = A.dec := rfl
  rw [e]
  cases hf : A.dec.flushwc with
  | none =>
    have hp : (pending (A.conv B discard) s).1 = none := by simp [pending, e, hf]
    obtain ⟨r, _, _, h1, _⟩ := resetOut_spec (c := A.conv B discard) A.decOK B.encOK s ⟨false, out, []⟩ 0 hI hO rfl hp
    exact ⟨r, h1⟩
  | some f =>
    obtain ⟨hI', hbo, hidem, hlt⟩ := A.decOK.flush_ok f hf s.is hI
    have hpend' : ∀ os, (pending (A.conv B discard) ⟨(f s.is).2, os⟩).1 = none := by simp [pending, e, hf, hidem]
    cases hw : (f s.is).1 with
    | none =>
      simp only [hw]
      obtain ⟨r, _, _, h1, _⟩ := resetOut_spec (c := A.conv B discard) A.decOK B.encOK ⟨(f s.is).2, s.os⟩ ⟨false, out, []⟩ 0
        hI' hO rfl (hpend' _)
      exact ⟨r, h1⟩
    | some wc =>
      simp only [hw]
      have hk : A.dec.kept s.is = [wc] := by simp [Decoder.kept, hf, hw]
      obtain ⟨q1, q2⟩ := hq wc hk
      obtain ⟨p, os', b', bs, hp, hpp⟩ := putChar_spec (c := A.conv B discard) (wc := wc) B.encOK hO rfl
        (putChar_quiet (b := ⟨false, out, []⟩) hO rfl rfl q1 q2)
      simp only [hp, Outcome.bind_ok]
      cases p with
      | done irr0 =>
        obtain ⟨r, _, _, h1, _⟩ := resetOut_spec (c := A.conv B discard) A.decOK B.encOK ⟨(f s.is).2, os'⟩ b' irr0 hI' hpp.inv
          hpp.null_eq (hpend' _)
        exact ⟨r, h1⟩
      | err x => exact ⟨_, rfl⟩

theorem quiet_min {B : Entry} (h : B.encOK.minRoom = 0) {os : Nat} (hO : B.encOK.Inv os) (w : Nat) : B.Quiet os w := by
  obtain ⟨r, h1, h2, _⟩ := B.encOK.safe os w 0 hO (by omega)
  exact ⟨r, h1, List.eq_nil_of_length_eq_zero (by omega)⟩

theorem quiet_st {idx : Nat} {hu : unitOf idx = 1} {D : Decoder} {E : Encoder} {d : StDec D} {e : StEnc E} {os w : Nat}
    (hO : e.I os) (hj : e.junk os w 0 = []) (hl : ∀ bs st, e.enc os w = some (bs, st) → bs.length ≤ e.need os w) :
    (stEntry idx hu d e).Quiet os w := by
  refine ⟨_, e.eq os w 0 hO, ?_⟩
  split
  · next hn =>
    cases he : e.enc os w with
    | none => exact hj
    | some x =>
      obtain ⟨bs, st⟩ := x
      have := hl bs st he
      exact List.eq_nil_of_length_eq_zero (show bs.length = 0 by omega)
  · exact hj

theorem quiet_sw {idx : Nat} {hu : unitOf idx = 1} {D : Decoder} {d : StDec D} {w : Nat → Nat → SW} {rt : Nat → List Nat}
    {I : Nat → Prop} {h0 : I 0} {hg : ∀ os wc, I os → SW.Good I 0 (w os wc)} {hr : ∀ os, I os → (rt os).length ≤ 64}
    {os : Nat} (hO : (stEntry idx hu d (SW.toSt h0 hg hr)).encOK.Inv os) (wc : Nat) :
    (stEntry idx hu d (SW.toSt h0 hg hr)).Quiet os wc := by
  refine quiet_st (e := SW.toSt h0 hg hr) hO rfl ?_
  intro bs st he
  have := (SW.good_res _ 0 bs st (hg os wc hO) he).2.2
  show bs.length ≤ (w os wc).need
  omega

theorem quiet_pair {idx : Nat} {hu : unitOf idx = 1} {body : M SItem} {hd : M.Good PairItemOK 1 body} {I : Nat → Prop}
    {comp : Nat → Nat → Option (List Nat)} {last : Nat → List Nat} {base : Nat → Nat → BW} {he : PairGood I comp last base}
    {os : Nat} (hO : (pairEntry idx hu hd he).encOK.Inv os) (wc : Nat) : (pairEntry idx hu hd he).Quiet os wc := by
  have hg := pair_good he os wc hO
  refine quiet_st (e := pairEncSt he) hO ?_ ?_
  · exact List.eq_nil_of_length_eq_zero (Nat.le_zero.1 (BW.good_junk _ [] 0 0 hg (Nat.le_refl _) (Nat.le_refl _)))
  · intro bs st hb
    have := (BW.good_res _ [] 0 bs st hg hb).2.1
    show bs.length ≤ (pairProg comp last base os wc).need
    omega

theorem quiet_jp2 {os : Nat} (hO : iso2022_jp2_entry.encOK.Inv os) (wc : Nat) : iso2022_jp2_entry.Quiet os wc := by
  refine quiet_st (e := iso2022_jp2_enc) hO rfl ?_
  intro bs st hb
  have hb : (iso2022_jp2_wctomb os wc).res = some (bs, st) := hb
  show bs.length ≤ (iso2022_jp2_wctomb os wc).need
  rcases jp2_prog wc hO with ⟨_, st', h, _⟩ | ⟨_, h⟩
  · rw [h] at hb
    cases hb
    exact Nat.zero_le _
  · have := (SW.good_res _ 0 bs st h hb).2.2
    omega

theorem quiet_jp3 {os : Nat} (hO : iso2022_jp3_entry.encOK.Inv os) (wc : Nat) : iso2022_jp3_entry.Quiet os wc := by
  have hg := iso2022_jp3_wctomb_good (wc := wc) hO
  refine quiet_st (e := iso2022_jp3_enc) hO ?_ ?_
  · exact List.eq_nil_of_length_eq_zero (Nat.le_zero.1 (BW.good_junk _ [] 0 0 hg (Nat.le_refl _) (Nat.le_refl _)))
  · intro bs st hb
    have := (BW.good_res _ [] 0 bs st hg hb).2.1
    show bs.length ≤ (iso2022_jp3_wctomb os wc).need
    omega

/-- UTF-7 stores nothing when it is within base64. -/
theorem quiet_utf7 {os : Nat} (hO : utf7_entry.encOK.Inv os) (h0 : os % 4 ≠ 0) (wc : Nat) : utf7_entry.Quiet os wc := by
  refine quiet_st (e := utf7_enc) hO (if_neg h0) ?_
  intro bs st hb
  have hb : ((u7enc os wc).map fun (x : List Nat × Nat) => (x.1.map u8, x.2)) = some (bs, st) := hb
  show bs.length ≤ u7need os wc
  obtain ⟨x, h1, h2⟩ := Option.map_eq_some_iff.1 hb
  cases h2
  unfold u7need
  rw [if_neg (fun h => h0 h.1), h1]
  simp

/-- With no room, in the initial state, nothing is stored. -/
def Entry.quietb (B : Entry) (w : Nat) : Bool :=
  match B.enc.wctomb 0 w 0 with
  | .ok r => r.ws.isEmpty
  | _ => false

theorem quiet_simple {B : Entry} (e : SimpleEnc B.enc) {w : Nat} (h : B.quietb w = true) (os : Nat) : B.Quiet os w := by
  unfold Entry.quietb at h
  refine ⟨_, e.eq os w 0, ?_⟩
  rw [e.eq 0 w 0] at h
  have h := List.isEmpty_iff.1 h
  revert h
  split
  · cases e.enc w <;> exact id
  · exact id

/-- The characters that BIG5-HKSCS holds back, and the replacement character. -/
def heldBack : List Nat := [0x304, 0x30c, 0xFFFD]

theorem single_quietb : ∀ r ∈ singleRows, ∀ w ∈ heldBack, r.entry.quietb w = true := by decide +kernel

theorem single_quiet : ∀ r ∈ singleRows, ∀ os, ∀ w ∈ heldBack, r.entry.Quiet os w := by
  intro r hr os w hw
  have hq := single_quietb r hr w hw
  rcases List.mem_append.1 hr with h | h
  · simp only [plainRows, List.mem_cons, List.not_mem_nil, or_false] at h
    rcases h with rfl | rfl
    · exact quiet_simple (B := ascii_entry) ascii_senc hq os
    · exact quiet_simple (B := iso8859_1_entry) iso8859_1_senc hq os
  · obtain ⟨e, h, hu, he, _⟩ := sbRows_ok r h
    rw [he] at hq ⊢
    exact quiet_simple (B := sbEntry e h hu) (e.senc h) hq os

theorem mb_quiet {idx : Nat} {hu : unitOf idx = 1} {m : M MbRet} {hg : M.Good M.RetOK 1 m} {w : Nat → W}
    {hwg : ∀ wc, W.Good 0 (w wc)}
    (h : ∀ x ∈ heldBack, (simpleEntry idx 1 hu (M.simple m hg) (W.senc w hwg)).quietb x = true) (os : Nat) :
    ∀ x ∈ heldBack, (simpleEntry idx 1 hu (M.simple m hg) (W.senc w hwg)).Quiet os x :=
  fun x hx => quiet_simple (B := simpleEntry idx 1 hu (M.simple m hg) (W.senc w hwg)) (W.senc w hwg) (h x hx) os

theorem multi_quiet : ∀ r ∈ mbRows, ∀ os, ∀ w ∈ heldBack, r.entry.Quiet os w :=
  all_cons (mb_quiet (by decide +kernel)) <| all_cons (mb_quiet (by decide +kernel)) <| all_cons (mb_quiet (by decide +kernel)) <|
  all_cons (mb_quiet (by decide +kernel)) <| all_cons (mb_quiet (by decide +kernel)) <| all_cons (mb_quiet (by decide +kernel)) <|
  all_cons (mb_quiet (by decide +kernel)) <| all_cons (mb_quiet (by decide +kernel)) <| all_cons (mb_quiet (by decide +kernel)) <|
  all_cons (mb_quiet (by decide +kernel)) <| all_cons (mb_quiet (by decide +kernel)) <| all_cons (mb_quiet (by decide +kernel)) <|
  all_cons (mb_quiet (by decide +kernel)) <| all_cons (mb_quiet (by decide +kernel)) <| all_cons (mb_quiet (by decide +kernel)) <|
  all_cons (mb_quiet (by decide +kernel)) <| all_cons (mb_quiet (by decide +kernel)) <| all_cons (mb_quiet (by decide +kernel)) <|
  all_cons (mb_quiet (by decide +kernel)) <| all_cons (mb_quiet (by decide +kernel)) <| all_cons (mb_quiet (by decide +kernel)) <|
  all_cons (mb_quiet (by decide +kernel)) all_nil

theorem uni_quiet : ∀ B ∈ exactUni, ∀ os, B.encOK.Inv os → ∀ w, B.Quiet os w :=
  all_cons (fun _ h => quiet_min rfl h) <| all_cons (fun _ h => quiet_min rfl h) <| all_cons (fun _ h => quiet_min rfl h) <|
  all_cons (fun _ h => quiet_min rfl h) <| all_cons (fun _ h => quiet_min rfl h) <| all_cons (fun _ h => quiet_min rfl h) <|
  all_cons (fun _ h => quiet_min rfl h) <| all_cons (fun _ h => quiet_min rfl h) <| all_cons (fun _ h => quiet_min rfl h) <|
  all_cons (fun _ h => quiet_min rfl h) <| all_cons (fun _ h => quiet_min rfl h) <| all_cons (fun _ h => quiet_min rfl h) <|
  all_cons (fun _ h => quiet_min rfl h) all_nil

theorem comp_quiet {idx : Nat} {hu : unitOf idx = 1} {d : CompDec} {hd : d.Ok} {e : CompEnc} {he : e.Ok}
    (h : ∀ x ∈ heldBack, (compEntry idx hu d hd e he).quietb x = true) (os : Nat) :
    ∀ x ∈ heldBack, (compEntry idx hu d hd e he).Quiet os x :=
  fun x hx => quiet_simple (B := compEntry idx hu d hd e he) (e.senc he) (h x hx) os

theorem other_quiet : ∀ B ∈ otherEntries, ∀ os, B.encOK.Inv os → ∀ w ∈ heldBack, B.Quiet os w :=
  all_cons (fun _ h w _ => quiet_min rfl h w) <| all_cons (fun _ h w _ => quiet_min rfl h w) <|
  all_cons (fun _ h w _ => quiet_min rfl h w) <| all_cons (fun _ h w _ => quiet_min rfl h w) <|
  all_cons (fun os _ w hw => quiet_simple (B := c99_entry) c99_senc (by revert w; decide +kernel) os) <|
  all_cons (fun os _ w hw => quiet_simple (B := java_entry) java_senc (by revert w; decide +kernel) os) <|
  all_cons (fun os _ => comp_quiet (by decide +kernel) os) <| all_cons (fun os _ => comp_quiet (by decide +kernel) os) <|
  all_cons (fun os _ => comp_quiet (by decide +kernel) os) all_nil

theorem pairs_quiet : ∀ r ∈ pairRows, ∀ os, r.entry.encOK.Inv os → ∀ w, r.entry.Quiet os w :=
  all_cons (fun _ => quiet_pair) <| all_cons (fun _ => quiet_pair) <| all_cons (fun _ => quiet_pair) <|
  all_cons (fun _ => quiet_pair) <| all_cons (fun _ => quiet_pair) <| all_cons (fun _ => quiet_pair) all_nil

/-- Whether a target encoding stores nothing for the held back characters depends on its state for UTF-7 only. -/
def Entry.calm (B : Entry) (os : Nat) : Prop := B.idx = ei_utf7 → os % 4 ≠ 0

theorem shift_quiet : ∀ r ∈ shiftRows, ∀ os, r.entry.encOK.Inv os → r.entry.calm os → ∀ w, r.entry.Quiet os w :=
  all_cons (fun _ h _ => quiet_sw h) <| all_cons (fun _ h _ => quiet_sw h) <| all_cons (fun _ h _ => quiet_sw h) <|
  all_cons (fun _ h _ => quiet_sw h) <| all_cons (fun _ h _ => quiet_sw h) <| all_cons (fun _ h _ => quiet_sw h) <|
  all_cons (fun _ h _ => quiet_jp2 h) <| all_cons (fun _ h _ => quiet_jp3 h) <| all_cons (fun _ h _ => quiet_sw h) <|
  all_cons (fun _ h h0 => quiet_utf7 h (h0 rfl)) all_nil

theorem targets_quiet : ∀ B ∈ targets, ∀ os, B.encOK.Inv os → B.calm os → ∀ w ∈ heldBack, B.Quiet os w := by
  intro B hB os hO h0 w hw
  cases targets_kinds B hB with
  | single r h e => exact e ▸ single_quiet r h os w hw
  | multi r h e => exact e ▸ multi_quiet r h os w hw
  | uni h => exact uni_quiet B h os hO w
  | pair r h e => subst e; exact pairs_quiet r h os hO w
  | shift r h e => subst e; exact shift_quiet r h os hO h0 w
  | other h => exact other_quiet B h os hO w hw

/-! ## BIG5-HKSCS -/

/-- UTF-7 is within base64 after a letter with diacritic. -/
theorem utf7_calm {A : Entry} {discard : Bool} {os wc : Nat} (hO : utf7_entry.encOK.Inv os) (hw : wc = 0xca ∨ wc = 0xea)
    {b b' : Buf} {i os' : Nat} (h : putChar (A.conv utf7_entry discard) os wc b = .ok (.done i, os', b')) : os' % 4 ≠ 0 := by
  have hd : u7_isdirect wc = false := by rcases hw with rfl | rfl <;> decide
  have hlt : wc < 0x10000 := by rcases hw with rfl | rfl <;> omega
  have h2b : wc ≠ 0x2b := by rcases hw with rfl | rfl <;> omega
  have hbody : ∀ st, u7J st → st % 4 ≠ 0 → (u7body st wc).2 % 4 ≠ 0 := by
    intro st hJ h0
    unfold u7J at hJ
    unfold u7body u7two
    (repeat' split) <;> (dsimp only; omega)
  have henc : ∃ bs st', u7enc os wc = some (bs, st') ∧ st' % 4 ≠ 0 := by
    unfold u7enc
    rw [if_neg (by simp [hd]), if_neg (fun h => h2b h.2), if_pos (by omega)]
    by_cases h0 : os % 4 = 0
    · rw [if_pos h0]
      exact ⟨_, _, rfl, hbody 1 (.inr (.inl rfl)) (by omega)⟩
    · rw [if_neg h0]
      exact ⟨_, _, rfl, hbody os hO h0⟩
  obtain ⟨bs, st', he, hst⟩ := henc
  unfold putChar at h
  obtain ⟨⟨oc, os1, b1⟩, h1, h⟩ := bind_ok_inv h
  unfold callWctomb at h1
  obtain ⟨r, hr, h1⟩ := bind_ok_inv h1
  obtain ⟨b2, _, h1⟩ := bind_ok_inv h1
  cases h1
  rw [show (A.conv utf7_entry discard).enc.wctomb = utf7_wctomb from rfl, utf7_wctomb_eq hO, he] at hr
  simp only [Option.map_some] at h hr
  by_cases hn : u7need os wc ≤ b.room.length
  · rw [if_pos hn] at hr
    cases hr
    have hc : ((WcRes.put (bs.map u8) st').ret.code) = (bs.length : Int) := by simp [WcRes.put, WcRet.code]
    rw [hc] at h
    rw [if_pos (by unfold RET_ILUNI; omega)] at h
    unfold outcountOk at h
    rw [if_neg (by omega)] at h
    obtain ⟨_, _, h⟩ := bind_ok_inv h
    cases h
    exact hst
  · rw [if_neg hn] at hr
    cases hr
    rw [if_pos (by simp [WcRet.code, RET_ILUNI, RET_TOOSMALL])] at h
    unfold outcountOk at h
    rw [if_pos (by simp [WcRet.code, RET_TOOSMALL])] at h
    cases h

/-- What is held back, and the state of the target encoding then. -/
def HkJ (B : Entry) (st os : Nat) : Prop := st = 0 ∨ ((st = 0x304 ∨ st = 0x30c) ∧ B.calm os)

theorem hk_joint {idx : Nat} {hu : unitOf idx = 1} {body : M SItem} {hd : M.Good PairItemOK 1 body} {I : Nat → Prop}
    {comp : Nat → Nat → Option (List Nat)} {last : Nat → List Nat} {base : Nat → Nat → BW} {he : PairGood I comp last base}
    {m : M MbRet} {w : Nat → W} {hold : Nat → Nat} (h : PairRel body comp last base m w hold hkPairs)
    (B : Entry) (hB : B ∈ targets) (discard : Bool) :
    JointInv ((pairEntry idx hu hd he).conv B discard) (pairEntry idx hu hd he).decOK B.encOK (HkJ B) where
  init := .inl rfl
  flush := by
    intro f hf is os _
    cases hf
    left
    unfold normal_flushwc
    split <;> simp_all
  other := by
    intro is os inp r is' hI hJ hne hr hnc
    obtain ⟨r', is'', h1, hb⟩ := (pairEntry idx hu hd he).decOK.batch is inp hI hne
    have h1 : ((pairEntry idx hu hd he).conv B discard).dec.mbtowc is inp = .ok (r', is'') := h1
    rw [hr] at h1
    cases h1
    have hns : ∀ n is2, satom (pairItem body) is inp ≠ .shift n is2 := by
      intro n is2 hs
      obtain ⟨st, hs, _⟩ := satom_shift hs
      unfold pairItem at hs
      split at hs
      · cases hs
      · obtain ⟨o, g1, g2⟩ := M.good_run body 1 inp hd (one_le_length hne)
        rw [hs] at g1; cases g1
        obtain ⟨j, _, _, hp⟩ := g2 _ rfl
        exact hp
    cases hb with
    | more _ => exact hJ
    | ilseq _ => exact hJ
    | char _ => exact absurd rfl (hnc _ _)
    | pause _ h => exact absurd h (hns _ _)
    | shift h _ _ => exact absurd h (hns _ _)
  char := by
    intro is os inp wc n is' hI hO hJ hne hr b i os' b' hp
    obtain ⟨r', is'', h1, hb⟩ := (pairEntry idx hu hd he).decOK.batch is inp hI hne
    have h1 : ((pairEntry idx hu hd he).conv B discard).dec.mbtowc is inp = .ok (r', is'') := h1
    rw [hr] at h1
    have hns : ∀ n is2, satom (pairItem body) is inp ≠ .shift n is2 := by
      intro n is2 hs
      obtain ⟨st, hs, _⟩ := satom_shift hs
      unfold pairItem at hs
      split at hs
      · cases hs
      · obtain ⟨o, g1, g2⟩ := M.good_run body 1 inp hd (one_le_length hne)
        rw [hs] at g1; cases g1
        obtain ⟨j, _, _, hp⟩ := g2 _ rfl
        exact hp
    cases hb with
    | more _ => cases h1
    | ilseq _ => cases h1
    | pause _ h => exact absurd h (hns _ _)
    | shift h _ _ => exact absurd h (hns _ _)
    | char ha =>
      cases h1
      obtain ⟨st, hq, rfl⟩ := satom_char (item := pairItem body) ha
      unfold pairItem at hq
      show HkJ B st os'
      split at hq
      · cases hq
        exact .inl rfl
      · rcases h.dec2 inp wc n st hne hq with ⟨h1, _⟩ | ⟨h1, h2, h3⟩
        · exact .inl h1
        · right
          have key : ∀ x ∈ hkPairs, (x.2.1 = 0xca ∨ x.2.1 = 0xea) ∧ (x.2.2 = 0x304 ∨ x.2.2 = 0x30c) := by decide +kernel
          obtain ⟨k1, k2⟩ := key _ h3
          refine ⟨k2, fun hi => ?_⟩
          have hBe : B = utf7_entry := by
            refine sources_unique B (List.mem_cons_of_mem _ hB) utf7_entry (List.mem_of_getElem? (i := 15) rfl) hi
          subst hBe
          exact utf7_calm hO k1 hp

theorem hk_flush {idx : Nat} {hu : unitOf idx = 1} {body : M SItem} {hd : M.Good PairItemOK 1 body} {I : Nat → Prop}
    {comp : Nat → Nat → Option (List Nat)} {last : Nat → List Nat} {base : Nat → Nat → BW} {he : PairGood I comp last base}
    {m : M MbRet} {w : Nat → W} {hold : Nat → Nat} (h : PairRel body comp last base m w hold hkPairs)
    (B : Entry) (hB : B ∈ targets) (discard : Bool) (s : St) (hs : Reach ((pairEntry idx hu hd he).conv B discard) s)
    (out : List Byte) : ∃ r, iconv ((pairEntry idx hu hd he).conv B discard) s none (some ⟨false, out, []⟩) = .ok r := by
  refine flush_quiet _ B discard s hs ?_ out
  intro wc hk
  have hJ := (hk_joint h B hB discard).reach hs
  have hO := (Entry.inv _ B hs).2
  have hk : (pairDec body).kept s.is = [wc] := hk
  have hf : (pairDec body).kept s.is = if s.is.st ≠ 0 then [s.is.st] else [] := by
    unfold Decoder.kept pairDec normal_flushwc
    by_cases h : s.is.st = 0 <;> simp [h]
  rw [hf] at hk
  rcases hJ with h0 | ⟨h1, h2⟩
  · rw [if_neg (not_not_intro h0)] at hk; cases hk
  · rw [if_pos (by omega)] at hk
    cases hk
    refine ⟨targets_quiet B hB _ hO h2 _ ?_, targets_quiet B hB _ hO h2 _ (by simp [heldBack])⟩
    rcases h1 with h1 | h1 <;> simp [h1, heldBack]

/-! ## The theorems -/

/-- The source encodings for which a flush with a full buffer writes behind the buffer: CP1255, CP1258, TCVN,
EUC-JISX0213, Shift_JISX0213, ISO-2022-JP-3. -/
def overflowIdx : List Nat := [ei_cp1255, ei_cp1258, ei_tcvn, ei_euc_jisx0213, ei_shift_jisx0213, ei_iso2022_jp3]

/-- A flush is safe, whatever the room. -/
theorem flush_safe : ∀ A ∈ sources, ∀ B ∈ targets, A.idx ∉ overflowIdx → ∀ (discard : Bool) (s : St),
    Reach (A.conv B discard) s → ∀ out room : List Byte,
      ∃ r, iconv (A.conv B discard) s none (some ⟨false, out, room⟩) = .ok r := by
  intro A hA B hB hi discard s hs out room
  obtain ⟨hI, hO⟩ := Entry.inv A B hs
  by_cases hr : room = []
  · subst hr
    by_cases hh : A.idx ∈ holdingIdx
    · have : A.idx = ei_big5hkscs1999 ∨ A.idx = ei_big5hkscs2001 ∨ A.idx = ei_big5hkscs2004 ∨ A.idx = ei_big5hkscs2008 := by
        unfold holdingIdx at hh
        unfold overflowIdx at hi
        simp only [List.mem_cons, List.not_mem_nil, or_false, not_or] at hh hi
        grind
      rcases this with h | h | h | h
      · have : A = big5hkscs1999_entry := sources_unique A hA _ (List.mem_of_getElem? (i := 39) rfl) h
        subst this
        exact hk_flush (hk_rel hk1999_two hk1999_dgood hk1999_pairs) B hB discard s hs out
      · have : A = big5hkscs2001_entry := sources_unique A hA _ (List.mem_of_getElem? (i := 40) rfl) h
        subst this
        exact hk_flush (hk_rel hk2001_two hk2001_dgood hk2001_pairs) B hB discard s hs out
      · have : A = big5hkscs2004_entry := sources_unique A hA _ (List.mem_of_getElem? (i := 41) rfl) h
        subst this
        exact hk_flush (hk_rel hk2004_two hk2004_dgood hk2004_pairs) B hB discard s hs out
      · have : A = big5hkscs2008_entry := sources_unique A hA _ (List.mem_of_getElem? (i := 42) rfl) h
        subst this
        exact hk_flush (hk_rel hk2008_two hk2008_dgood hk2008_pairs) B hB discard s hs out
    · refine reset_safe (c := A.conv B discard) A.decOK B.encOK s ⟨false, out, []⟩ hI hO rfl (.inr ?_)
      intro wc hwc
      have : (pending (A.conv B discard) s).1 = none := by
        unfold pending
        rw [show (A.conv B discard).dec.flushwc = none from sources_no_flush A hA hh]
      rw [this] at hwc; cases hwc
  · refine reset_safe (c := A.conv B discard) A.decOK B.encOK s ⟨false, out, room⟩ hI hO rfl (.inl ?_)
    have := List.length_pos_iff.mpr hr
    have := B.encOK.minRoom_le
    simp only
    omega

/-- Their entries. -/
noncomputable def overflowing : List Entry :=
  [cp1255_entry, cp1258_entry, tcvn_entry, euc_jisx0213_entry, shift_jisx0213_entry, iso2022_jp3_entry]

theorem overflow_mem : ∀ i ∈ overflowIdx, ∃ X ∈ overflowing, X ∈ sources ∧ i = X.idx :=
  all_cons ⟨cp1255_entry, List.mem_of_getElem? (i := 0) rfl, List.mem_of_getElem? (i := 72) rfl, rfl⟩ <|
  all_cons ⟨cp1258_entry, List.mem_of_getElem? (i := 1) rfl, List.mem_of_getElem? (i := 75) rfl, rfl⟩ <|
  all_cons ⟨tcvn_entry, List.mem_of_getElem? (i := 2) rfl, List.mem_of_getElem? (i := 105) rfl, rfl⟩ <|
  all_cons ⟨euc_jisx0213_entry, List.mem_of_getElem? (i := 3) rfl, List.mem_of_getElem? (i := 191) rfl, rfl⟩ <|
  all_cons ⟨shift_jisx0213_entry, List.mem_of_getElem? (i := 4) rfl, List.mem_of_getElem? (i := 192) rfl, rfl⟩ <|
  all_cons ⟨iso2022_jp3_entry, List.mem_of_getElem? (i := 5) rfl, List.mem_of_getElem? (i := 193) rfl, rfl⟩ all_nil

/-- **C03** exactly. For a source encoding, the following holds with every target encoding, in every state that a
descriptor reaches and for every room, if and only if it is not one of the six of `overflowIdx`:
`reiconv_iconv (cd, NULL, NULL, &out, &outleft)` stores within the room only, and it returns after writing what is
pending; or it reports `EILSEQ` for a pending character that cannot be written, with the descriptor as before; or it
reports `E2BIG`, and then what is pending is larger than the room unless a character of it is dropped or replaced. -/
theorem C03_exact : ∀ A ∈ sources, (∀ B ∈ targets, ∀ (discard : Bool) (s : St), Reach (A.conv B discard) s →
      ∀ room : List Byte, ∃ r, iconv (A.conv B discard) s none (some ⟨false, [], room⟩) = .ok r ∧
        r.buf.out.length + r.buf.room.length = room.length ∧
        ((∃ n, r.ret = .ok n ∧ finish (A.conv B discard) s = some (r.buf.out, n) ∧ r.st = s.clear) ∨
         (r.ret = .error .EILSEQ ∧ finish (A.conv B discard) s = none ∧ r.st = s) ∨
         (r.ret = .error .E2BIG ∧ r.buf.room.length < 64 ∧
          ∀ fo, finishExact (A.conv B discard) s = some fo → room.length < fo.length))) ↔
    A.idx ∉ overflowIdx := by
  intro A hA
  constructor
  · intro h hi
    have key : ∀ X ∈ overflowing, A = X → False := by
      intro X hX e
      subst e
      obtain ⟨B, hB, s, hs, hub⟩ := C03_registered_violation A hX
      obtain ⟨r, hr, _⟩ := h B hB false s hs []
      rw [hub] at hr
      cases hr
    obtain ⟨X, h1, h2, h3⟩ := overflow_mem _ hi
    exact key X h1 (sources_unique A hA X h2 h3)
  · intro hi B hB discard s hs room
    exact flush_result A B discard s hs room (flush_safe A hA B hB hi discard s hs [] room)

/-- A conversion into a buffer is safe if a flush is. -/
theorem static_safe (A B : Entry) (discard : Bool)
    (hf : ∀ s, Reach (A.conv B discard) s → ∀ out room : List Byte,
      ∃ r, iconv (A.conv B discard) s none (some ⟨false, out, room⟩) = .ok r)
    (s : St) (hs : Reach (A.conv B discard) s) (inp room : List Byte) :
    ∃ x, convertStatic (A.conv B discard) s inp ⟨false, [], room⟩ = .ok x := by
  have flush : ∀ s, Reach (A.conv B discard) s → ∀ b : Buf, b.null = false →
      ∃ x, staticFlush (A.conv B discard) s b = .ok x := by
    intro s hs b hb
    obtain ⟨null, out, rm⟩ := b
    cases (show null = false from hb)
    obtain ⟨r, h1⟩ := hf s hs out rm
    unfold staticFlush
    rw [h1]
    simp only [Outcome.bind_ok]
    cases r.ret with
    | ok n => exact ⟨_, rfl⟩
    | error y => exact ⟨_, rfl⟩
  obtain ⟨hI, hO⟩ := Entry.inv A B hs
  unfold convertStatic
  by_cases hne : inp = []
  · subst hne
    rw [staticLoop, if_pos rfl]
    exact flush s hs _ rfl
  · rw [staticLoop, if_neg hne]
    obtain ⟨r, e, irr, h1, h2⟩ := iconv_spec (c := A.conv B discard) A.decOK B.encOK s inp ⟨false, [], room⟩ hI hO (fun _ => rfl)
    have hreach : Reach (A.conv B discard) r.st :=
      hs.step (k := .iconv (some inp) (some ⟨false, [], room⟩)) (by simp only [Call.after, h1, Outcome.bind_ok]; rfl)
    simp only [h1, Outcome.bind_ok]
    have hres := h2.res
    cases hret : r.ret with
    | ok n =>
      rw [hret] at hres
      simp only
      rw [hres.1, staticLoop, if_pos rfl]
      exact flush _ hreach _ h2.null_eq
    | error y =>
      rw [hret] at hres
      cases y with
      | EINVAL => exact flush _ hreach _ h2.null_eq
      | EILSEQ => exact ⟨_, rfl⟩
      | E2BIG => exact ⟨_, rfl⟩
      | ENOMEM => exact absurd hres id

/-- A conversion that a program does with one call, and a flush. -/
theorem whole_of_calls (A B : Entry) (discard : Bool) {inp room room' : List Byte} {n k : Nat} {s1 : St} {b1 r1 r2}
    (h1 : iconv (A.conv B discard) St.init (some inp) (some ⟨false, [], room⟩) = .ok r1) (e1 : r1.ret = .ok n)
    (e2 : r1.st = s1) (e3 : r1.buf.out = b1)
    (h2 : iconv (A.conv B discard) s1 none (some ⟨false, [], room'⟩) = .ok r2) (e4 : r2.ret = .ok k) :
    ∃ irr, Whole A.atom (A.conv B discard) St.init inp (b1 ++ r2.buf.out) irr := by
  have hI := A.decOK.inv_init
  have hO := B.encOK.inv_init
  obtain ⟨r, e, irr, g1, g2⟩ := iconv_spec (c := A.conv B discard) A.decOK B.encOK St.init inp ⟨false, [], room⟩ hI hO
    (fun _ => rfl)
  rw [h1] at g1
  cases g1
  have hres := g2.res
  rw [e1] at hres
  have hrun : Runs A.atom (A.conv B discard) St.init inp e irr (.done s1) := by
    have := g2.cont [] 0 (.done r1.st) (by rw [hres.1]; exact .done _)
    rw [e2] at this
    simpa using this
  have hout : b1 = e := by rw [← e3]; simpa using g2.out_eq
  have hreach : Reach (A.conv B discard) s1 := (Reach.init _).step (k := .iconv (some inp) (some ⟨false, [], room⟩))
    (by simp only [Call.after, h1, Outcome.bind_ok, e2]; rfl)
  obtain ⟨r', h3, _, h4⟩ := flush_result A B discard s1 hreach room' ⟨_, h2⟩
  rw [h2] at h3
  cases h3
  rcases h4 with ⟨m, _, h5, _⟩ | ⟨h5, _⟩ | ⟨h5, _⟩
  · exact ⟨_, e, irr, s1, _, _, hrun, h5, by rw [hout], rfl⟩
  · rw [e4] at h5; cases h5
  · rw [e4] at h5; cases h5

/-- The input can be converted, the buffer is too small, and a byte is stored behind it. -/
def overflows (c : Conv) (inp room : List Byte) : Bool :=
  match iconv c St.init (some inp) (some ⟨false, [], List.replicate 8 0⟩) with
  | .ok ⟨.ok _, s1, _, b1⟩ =>
    match iconv c s1 none (some ⟨false, [], List.replicate 8 0⟩), convertStatic c St.init inp ⟨false, [], room⟩ with
    | .ok ⟨.ok _, _, _, b2⟩, .ub => decide (room.length < b1.out.length + b2.out.length)
    | _, _ => false
  | _ => false

theorem overflows_ok {A B : Entry} (k : Nat) {inp room : List Byte} (hB : targets[k]? = some B)
    (h : overflows (A.conv B false) inp room = true) :
    ∃ B ∈ targets, ∃ inp room out irr, Whole A.atom (A.conv B false) St.init inp out irr ∧ room.length < out.length ∧
      convertStatic (A.conv B false) St.init inp ⟨false, [], room⟩ = .ub := by
  unfold overflows at h
  split at h
  · next s1 _ b1 h1 =>
    split at h
    · next b2 h2 hub =>
      obtain ⟨irr, hw⟩ := whole_of_calls A B false h1 rfl rfl rfl h2 rfl
      exact ⟨B, List.mem_of_getElem? hB, inp, room, _, irr, hw, by rw [List.length_append]; exact of_decide_eq_true h, hub⟩
    · cases h
  · cases h

/-- For six source encodings there is a target encoding for which a byte is stored behind a buffer that is too small by
one. -/
theorem C11_violation : ∀ A ∈ overflowing, ∃ B ∈ targets, ∃ inp room out irr,
    Whole A.atom (A.conv B false) St.init inp out irr ∧ room.length < out.length ∧
      convertStatic (A.conv B false) St.init inp ⟨false, [], room⟩ = .ub :=
  all_cons (overflows_ok (B := iso8859_8_entry) (inp := [0xE0]) (room := []) 55 rfl (by decide +kernel)) <|
  all_cons (overflows_ok (B := ascii_entry) (inp := [0x41]) (room := []) 0 rfl (by decide +kernel)) <|
  all_cons (overflows_ok (B := ascii_entry) (inp := [0x41]) (room := []) 0 rfl (by decide +kernel)) <|
  all_cons (overflows_ok (B := cp1129_entry) (inp := [0xab, 0xc4]) (room := [0]) 118 rfl (by decide +kernel)) <|
  all_cons (overflows_ok (B := cp1129_entry) (inp := [0x86, 0x63]) (room := [0]) 118 rfl (by decide +kernel)) <|
  all_cons (overflows_ok (B := cp1129_entry) (inp := [0x1b, 0x24, 0x28, 0x51, 0x2b, 0x44]) (room := [0]) 118 rfl
    (by decide +kernel)) all_nil

/-- **C11** exactly. For a source encoding, the following holds with every target encoding, in every state that a
descriptor reaches, if and only if it is not one of the six of `overflowIdx`: if the result of a conversion is larger than
the buffer, `reiconv_convert_static_size` stores within the buffer only, and reports `E2BIG`. -/
theorem C11_exact : ∀ A ∈ sources, (∀ B ∈ targets, ∀ (discard : Bool) (s : St), Reach (A.conv B discard) s →
      ∀ (inp room out : List Byte) (irr : Nat), Whole A.atom (A.conv B discard) s inp out irr → room.length < out.length →
        ∃ s2 b, convertStatic (A.conv B discard) s inp ⟨false, [], room⟩ = .ok (.error .E2BIG, s2, b) ∧
          b.out.length + b.room.length = room.length) ↔
    A.idx ∉ overflowIdx := by
  intro A hA
  constructor
  · intro h hi
    obtain ⟨X, h1, h2, h3⟩ := overflow_mem _ hi
    have e := sources_unique A hA X h2 h3
    subst e
    obtain ⟨B, hB, inp, room, out, irr, hw, hl, hub⟩ := C11_violation A h1
    obtain ⟨s2, b, hx, _⟩ := h B hB false St.init (Reach.init _) inp room out irr hw hl
    rw [hub] at hx
    cases hx
  · intro hi B hB discard s hs inp room out irr hw hlt
    obtain ⟨hI, hO⟩ := Entry.inv A B hs
    obtain ⟨ret, s2, b, hx, hl, ⟨rfl, _⟩ | ⟨rfl, _⟩⟩ := static_result A B discard s hI hO inp room hw
      (static_safe A B discard (flush_safe A hA B hB hi discard) s hs inp room)
    · exact absurd hx ((C11_too_small_partial A B discard s hs inp room hw hlt).1 _ _)
    · exact ⟨s2, b, hx, hl⟩

/-- C03: BIG5-HKSCS:2008 holds back U+0304 after the bytes 0x88 0x62. UTF-7 is then within base64, and a flush with a full
buffer reports `E2BIG`; with room it writes the character and what ends base64. -/
example : ∃ s, Reach (big5hkscs2008_entry.conv utf7_entry false) s ∧ s.is.st = 0x304 ∧ s.os % 4 ≠ 0 ∧
    (∃ r, iconv (big5hkscs2008_entry.conv utf7_entry false) s none (some ⟨false, [], []⟩) = .ok r ∧ r.ret = .error .E2BIG) ∧
    (∃ r, iconv (big5hkscs2008_entry.conv utf7_entry false) s none (some ⟨false, [], List.replicate 8 0⟩) = .ok r ∧
      r.ret = .ok 0 ∧ r.buf.out.length = 5) := by
  refine ⟨⟨⟨0, 0x304⟩, 43⟩, ⟨[.iconv (some [0x88, 0x62]) (some ⟨false, [], List.replicate 8 0⟩)], by decide +kernel⟩, rfl,
    by decide, ⟨_, rfl, by decide +kernel⟩, ⟨_, rfl, by decide +kernel, by decide +kernel⟩⟩

end Reiconv
