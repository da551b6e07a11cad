import Verif.LoopProofs

/-!
# The reset function writes what `finish` says
-/

namespace Reiconv

/-- Why finishing does not fit into `room` bytes. -/
def FinBlocked (c : Conv) (s : St) (room : Nat) : Prop :=
  match (pending c s).1 with
  | some wc => PutBlocked c s.os wc room
  | none => ∃ f r, c.enc.reset = some f ∧ f s.os room = .ok r ∧ r.ret = .toosmall

structure ResetPost (c : Conv) (hd : DecOK c.dec c.unit) (he : EncOK c.enc) (s : St) (b : Buf)
    (result : Nat) (r : CallRes) (e : List Byte) (irr : Nat) : Prop where
  out_eq : r.buf.out = b.out ++ e
  len_eq : r.buf.room.length + e.length = b.room.length
  null_eq : r.buf.null = b.null
  inv_is : hd.Inv r.st.is
  inv_os : he.Inv r.st.os
  clean : ∀ owed, he.Covers owed → r.ret ≠ .error .E2BIG → ∀ R, Under (owed s.os) R b.room →
    Under (owed r.st.os) (R.drop e.length) r.buf.room
  e_len : r.ret = .error .E2BIG → e.length ≤ 64
  res : match r.ret with
    | .ok n => finish c s = some (e, irr) ∧ n = result + irr ∧ r.st = s.clear
    | .error .EILSEQ => finish c s = none ∧ e = [] ∧ r.st = s
    | .error .E2BIG => FinBlocked c r.st r.buf.room.length ∧
        (∀ o i, finish c r.st = some (o, i) → finish c s = some (e ++ o, irr + i)) ∧
        (finish c r.st = none → finish c s = none) ∧
        ((pending c r.st).1 = none ∨ r.st = s ∧ e = [])
    | .error _ => False

theorem reset_full {E : Encoder} (he : EncOK E) {f} (hf : E.reset = some f) {os n : Nat} {r}
    (hI : he.Inv os) (h : f os n = .ok r) (hr : r.ret ≠ .toosmall) : E.tail os = r.ws := by
  by_cases h64 : n ≤ 64
  · have := he.reset_mono f hf os n 64 r hI h hr h64
    simp [Encoder.tail, hf, this]
  · obtain ⟨r', hr', _⟩ := he.reset_safe f hf os 64 hI
    have hb := he.reset_big f hf os 64 r' hI (by omega) hr'
    have := he.reset_mono f hf os 64 n r' hI hr' hb (by omega)
    rw [h] at this; cases this
    simp [Encoder.tail, hf, hr']

theorem encChar_len {c : Conv} (he : EncOK c.enc) {os wc : Nat} {x} (hO : he.Inv os)
    (h : encChar c.enc c.discard os wc = some x) : x.1.length ≤ 64 := by
  have key : ∀ wc y, c.enc.full os wc = some y → y.1.length ≤ 64 := by
    intro wc y hy
    obtain ⟨r, hr, hl, _⟩ := he.safe os wc 64 hO (by have := he.minRoom_le; omega)
    unfold Encoder.full at hy
    rw [hr] at hy
    split at hy
    · next heq => cases heq; cases hy; exact hl
    · cases hy
  unfold encChar at h
  split at h
  · next heq => cases h; exact key _ _ heq
  · split at h
    · cases h; simp
    · split at h
      · cases h; simp
      · split at h
        · next heq => cases h; exact key _ _ heq
        · cases h

theorem resetOut_spec {c : Conv} (hd : DecOK c.dec c.unit) (he : EncOK c.enc) (s : St) (b : Buf)
    (result : Nat) (hI : hd.Inv s.is) (hO : he.Inv s.os) (hn : b.null = false)
    (hp : (pending c s).1 = none) :
    ∃ r e irr, resetOut c s b result = .ok r ∧ ResetPost c hd he s b result r e irr ∧
      (r.ret = .error .E2BIG → e = []) := by
  unfold resetOut
  cases hf : c.enc.reset with
  | none =>
    refine ⟨_, [], 0, rfl, ⟨by simp, by simp, rfl, hd.inv_clear _ hI, he.inv_init, ?_, by simp, ?_⟩,
      fun _ => rfl⟩
    · intro owed hc _ R hR
      rw [hc.none hf _ hO] at hR
      show Under (owed 0) R b.room
      rw [hc.init]; exact hR
    · simp [finish, hp, Encoder.tail, hf]
  | some f =>
    obtain ⟨⟨ret, ws, st⟩, hr, hlen, hcase⟩ := he.reset_safe f hf s.os b.room.length hO
    simp only at hlen hcase
    simp only [hr, Outcome.bind_ok, store_ok hn hlen]
    rcases hcase with rfl | ⟨rfl, rfl⟩
    · have ht := reset_full he hf hO hr (by simp)
      have hge : ¬ ((ws.length : Int) < 0) := by omega
      simp only [WcRet.code, hge, if_false, Int.toNat_natCast, advance_ws, Outcome.bind_ok,
        Outcome.pure_eq]
      refine ⟨_, ws, 0, rfl, ⟨rfl, ?_, rfl, hd.inv_clear _ hI, he.inv_init, ?_, by simp, ?_⟩, by simp⟩
      · simp only [List.length_drop]; omega
      · intro owed hc _ R hR
        exact hR.adv (Nat.le_trans (hc.tail f hf _ _ _ hO hr (by simp)) (Nat.le_add_right _ _))
      · simp only at ht; simp [finish, hp, ht]
    · simp only [WcRet.code, RET_TOOSMALL, show ((-2 : Int) < 0) by omega, if_true]
      have hl : (ws ++ b.room.drop ws.length).length = b.room.length := by
        simp only [List.length_append, List.length_drop]; omega
      refine ⟨_, [], 0, rfl, ⟨by simp, by simpa using hl, rfl, hI, hO, by simp, by simp, ?_⟩,
        fun _ => rfl⟩
      simp only [FinBlocked, hp]
      refine ⟨⟨f, _, hf, by rw [hl]; exact hr, rfl⟩, ?_, ?_, Or.inl trivial⟩
      · intro o i h; simpa using h
      · exact id

/-- Finishing with a non-NULL output pointer is safe when there is room for at least one byte (or the
encoder checks the room first) or nothing has to be written for a pending character. -/
theorem reset_safe {c : Conv} (hd : DecOK c.dec c.unit) (he : EncOK c.enc) (s : St) (b : Buf)
    (hI : hd.Inv s.is) (hO : he.Inv s.os) (hn : b.null = false)
    (hroom : he.minRoom ≤ b.room.length ∨ ∀ wc, (pending c s).1 = some wc → Dry c s.os wc) :
    ∃ r, loopReset c s b = .ok r := by
  unfold loopReset
  simp only [hn, Bool.false_eq_true, if_false]
  cases hf : c.dec.flushwc with
  | none =>
    have hp : (pending c s).1 = none := by simp [pending, hf]
    obtain ⟨r, e, irr, h1, _⟩ := resetOut_spec hd he s b 0 hI hO hn hp
    exact ⟨r, h1⟩
  | some f =>
    obtain ⟨hI', hbo, hidem, hlt⟩ := hd.flush_ok f hf s.is hI
    have hpend : pending c s = f s.is := by simp [pending, hf]
    have hpend' : ∀ os, (pending c ⟨(f s.is).2, os⟩).1 = none := by simp [pending, hf, hidem]
    cases hw : (f s.is).1 with
    | none =>
      simp only [hw]
      obtain ⟨r, e, irr, h1, _⟩ := resetOut_spec hd he ⟨(f s.is).2, s.os⟩ b 0 hI' hO hn (hpend' _)
      exact ⟨r, h1⟩
    | some wc =>
      simp only [hw]
      obtain ⟨p, os', b', bs, hp, hpp⟩ := putChar_spec (wc := wc) he hO hn
        (putChar_safe he hO hn (hroom.imp_right fun h => ⟨hlt wc hw, h wc (by rw [hpend, hw])⟩))
      simp only [hp, Outcome.bind_ok]
      cases p with
      | done irr0 =>
        obtain ⟨r, e, irr, h1, _⟩ := resetOut_spec hd he ⟨(f s.is).2, os'⟩ b' irr0 hI' hpp.inv
          (hpp.null_eq.trans hn) (hpend' _)
        exact ⟨r, h1⟩
      | err x => exact ⟨_, rfl⟩

/-- Finishing with a non-NULL output pointer. -/
theorem reset_spec {c : Conv} (hd : DecOK c.dec c.unit) (he : EncOK c.enc) (s : St) (b : Buf)
    (hI : hd.Inv s.is) (hO : he.Inv s.os) (hn : b.null = false)
    (hok : ∃ r, loopReset c s b = .ok r) :
    ∃ r e irr, loopReset c s b = .ok r ∧ ResetPost c hd he s b 0 r e irr := by
  unfold loopReset
  simp only [hn, Bool.false_eq_true, if_false]
  cases hf : c.dec.flushwc with
  | none =>
    have hp : (pending c s).1 = none := by simp [pending, hf]
    obtain ⟨r, e, irr, h1, h2, _⟩ := resetOut_spec hd he s b 0 hI hO hn hp
    exact ⟨r, e, irr, h1, h2⟩
  | some f =>
    obtain ⟨hI', hbo, hidem, hlt⟩ := hd.flush_ok f hf s.is hI
    have hpend : pending c s = f s.is := by simp [pending, hf]
    have hpend' : ∀ os, (pending c ⟨(f s.is).2, os⟩).1 = none := by simp [pending, hf, hidem]
    cases hw : (f s.is).1 with
    | none =>
      simp only [hw]
      obtain ⟨r, e, irr, h1, h2, h2n⟩ := resetOut_spec hd he ⟨(f s.is).2, s.os⟩ b 0 hI' hO hn
        (hpend' _)
      have hfin : finish c ⟨(f s.is).2, s.os⟩ = finish c s := by
        simp only [finish, hpend', hpend, hw]
      have hclr : St.clear ⟨(f s.is).2, s.os⟩ = s.clear := by simp [St.clear, hbo]
      refine ⟨r, e, irr, h1, h2.out_eq, h2.len_eq, h2.null_eq, h2.inv_is, h2.inv_os, h2.clean,
        h2.e_len, ?_⟩
      have := h2.res
      rw [hfin, hclr] at this
      revert this
      cases r.ret with
      | ok n => exact id
      | error x =>
        cases x with
        | EILSEQ => rintro ⟨h, _, h3⟩; simp [finish, hpend, hw] at h
        | E2BIG =>
          rintro ⟨h3, h4, h5, h6⟩
          refine ⟨h3, h4, h5, Or.inl ?_⟩
          rcases h6 with h6 | ⟨h6, _⟩
          · exact h6
          · rw [h6]; exact hpend' _
        | EINVAL => exact id
        | ENOMEM => exact id
    | some wc =>
      simp only [hw]
      have hroom' : ∃ x, putChar c s.os wc b = .ok x := by
        obtain ⟨r, hr⟩ := hok
        unfold loopReset at hr
        simp only [hn, Bool.false_eq_true, if_false, hf, hw] at hr
        obtain ⟨y, hy, _⟩ := bind_ok_inv hr
        exact ⟨y, hy⟩
      obtain ⟨p, os', b', bs, hp, hpp⟩ := putChar_spec (wc := wc) he hO hn hroom'
      have hrest : (⟨{ (f s.is).2 with st := s.is.st }, s.os⟩ : St) = s := by
        obtain ⟨⟨bo, st⟩, os⟩ := s; simp only at hbo ⊢; rw [hbo]
      simp only [hp, Outcome.bind_ok]
      cases p with
      | done irr0 =>
        have henc : encChar c.enc c.discard s.os wc = some (bs, os', irr0) := hpp.res
        obtain ⟨r, e, irr, h1, h2, h2n⟩ := resetOut_spec hd he ⟨(f s.is).2, os'⟩ b' irr0 hI' hpp.inv
          (hpp.null_eq.trans hn) (hpend' _)
        have hclr : St.clear ⟨(f s.is).2, os'⟩ = s.clear := by simp [St.clear, hbo]
        have hfin : ∀ o i, finish c ⟨(f s.is).2, os'⟩ = some (o, i) →
            finish c s = some (bs ++ o, irr0 + i) := by
          intro o i h
          simp only [finish, hpend', Option.some.injEq, Prod.mk.injEq] at h
          obtain ⟨rfl, rfl⟩ := h
          simp [finish, hpend, hw, henc]
        refine ⟨r, bs ++ e, irr0 + irr, h1, ?_, ?_, h2.null_eq.trans hpp.null_eq, h2.inv_is,
          h2.inv_os, ?_, ?_, ?_⟩
        · rw [h2.out_eq, hpp.out_eq, List.append_assoc]
        · have := h2.len_eq; have := hpp.len_eq; simp only [List.length_append]; omega
        · intro owed hc hr R hR
          rw [List.length_append, ← List.drop_drop]
          exact h2.clean owed hc hr _ (hpp.clean owed hc (by simp) R hR)
        · intro hr
          have h3 := encChar_len he hO henc
          have h4 : e = [] := h2n hr
          simp [h4, h3]
        · have := h2.res
          revert this
          cases r.ret with
          | ok n =>
            rintro ⟨h3, h4, h5⟩
            exact ⟨hfin _ _ h3, by omega, h5.trans hclr⟩
          | error x =>
            cases x with
            | EILSEQ =>
              rintro ⟨h, _, _⟩
              simp [finish, hpend'] at h
            | E2BIG =>
              rintro ⟨h3, h4, h5, h6⟩
              refine ⟨h3, ?_, ?_, ?_⟩
              · intro o i h
                have := hfin _ _ (h4 o i h)
                rw [this, List.append_assoc, Nat.add_assoc]
              · intro h
                have := h5 h
                simp [finish, hpend'] at this
              · rcases h6 with h6 | ⟨h6, _⟩
                · exact Or.inl h6
                · rw [h6]; exact Or.inl (hpend' _)
            | EINVAL => exact id
            | ENOMEM => exact id
      | err x =>
        have hres := hpp.res
        cases x with
        | E2BIG =>
          obtain ⟨hblk, rfl, rfl⟩ := hres
          have hlen := hpp.len_eq
          simp only [List.length_nil, Nat.add_zero] at hlen
          simp only [hrest]
          refine ⟨⟨.error .E2BIG, s, [], b'⟩, [], 0, rfl, hpp.out_eq, hpp.len_eq, hpp.null_eq, hI, hO,
            by simp, by simp, ?_⟩
          simp only [FinBlocked, hpend, hw, hlen]
          refine ⟨hblk, ?_, id, Or.inr ⟨trivial, trivial⟩⟩
          intro o i h; simpa using h
        | EILSEQ =>
          obtain ⟨henc, rfl, rfl⟩ := hres
          simp only [hrest]
          refine ⟨⟨.error .EILSEQ, s, [], b'⟩, [], 0, rfl, hpp.out_eq, hpp.len_eq, hpp.null_eq, hI, hO,
            ?_, by simp, ?_⟩
          · intro owed hc _; exact hpp.clean owed hc (by simp)
          · simp [finish, hpend, hw, henc]
        | EINVAL => exact absurd hres id
        | ENOMEM => exact absurd hres id

theorem finBlocked_lt {c : Conv} (he : EncOK c.enc) {s : St} {room : Nat} (hO : he.Inv s.os)
    (h : FinBlocked c s room) : room < 64 := by
  unfold FinBlocked at h
  split at h
  · exact putBlocked_lt he hO h
  · obtain ⟨f, r, hf, h1, h2⟩ := h
    exact Nat.lt_of_not_le fun hc => he.reset_big f hf _ _ _ hO hc h1 h2

end Reiconv
