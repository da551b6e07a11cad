import Verif.RunLemmas

/-!
# The conversion loop refines the run specification
-/

namespace Reiconv

/-- `owed os` bytes, or more, are certain to be written after the state `os`; when the encoder returns `RET_ILUNI` it
has stored no more than these. -/
structure EncOK.Covers {E : Encoder} (he : EncOK E) (owed : Nat → Nat) : Prop where
  init : owed 0 = 0
  none : E.reset = none → ∀ os, he.Inv os → owed os = 0
  iluni : ∀ os wc n r, he.Inv os → E.wctomb os wc n = .ok r → r.ret = .iluni → r.ws.length ≤ owed os
  wrote : ∀ os wc n r k, he.Inv os → E.wctomb os wc n = .ok r → r.ret = .wrote k → owed os ≤ r.ws.length + owed r.st
  tail : ∀ f, E.reset = some f → ∀ os n r, he.Inv os → f os n = .ok r → r.ret ≠ .toosmall → owed os ≤ r.ws.length

/-- The buffer `X` is like `R` behind the first `d` bytes. -/
def Under (d : Nat) (R X : List Byte) : Prop := X.drop d = R.drop d

theorem Under.refl (d : Nat) (R : List Byte) : Under d R R := rfl

theorem Under.zero {d : Nat} {R X : List Byte} (h : Under d R X) (hd : d = 0) : X = R := by
  subst hd; exact h

theorem Under.adv {d k d' : Nat} {R X : List Byte} (h : Under d R X) (hd : d ≤ k + d') :
    Under d' (R.drop k) (X.drop k) := by
  unfold Under at *
  obtain ⟨j, hj⟩ : ∃ j, k + d' = d + j := ⟨k + d' - d, by omega⟩
  rw [List.drop_drop, List.drop_drop, hj, ← List.drop_drop, h, List.drop_drop]

theorem Under.junk {d : Nat} {R X ws : List Byte} (h : Under d R X) (hd : ws.length ≤ d) :
    Under d R (ws ++ X.drop ws.length) := by
  unfold Under at *
  rw [List.drop_append, List.drop_eq_nil_of_le hd, List.nil_append, List.drop_drop,
    show ws.length + (d - ws.length) = d by omega, h]

/-- An encoder that stores nothing when it returns `RET_ILUNI`. -/
def EncOK.Clean {E : Encoder} (he : EncOK E) : Prop :=
  ∀ os wc n r, he.Inv os → E.wctomb os wc n = .ok r → r.ret = .iluni → r.ws = []

theorem EncOK.Clean.covers {E : Encoder} {he : EncOK E} (h : he.Clean) : he.Covers (fun _ => 0) where
  init := rfl
  none := fun _ _ _ => rfl
  iluni := fun os wc n r hI h1 h2 => by rw [h os wc n r hI h1 h2]; exact Nat.zero_le _
  wrote := fun _ _ _ _ _ _ _ _ => Nat.zero_le _
  tail := fun _ _ _ _ _ _ _ _ => Nat.zero_le _

theorem store_ok {b : Buf} {ws : List Byte} (hn : b.null = false) (h : ws.length ≤ b.room.length) :
    b.store ws = .ok { b with room := ws ++ b.room.drop ws.length } := by
  unfold Buf.store
  by_cases hw : ws = []
  · subst hw; simp
  · simp [hw, hn, Nat.not_lt.mpr h]

theorem store_nil (b : Buf) : b.store [] = .ok b := by simp [Buf.store]

theorem bind_ok_inv {α β : Type} {x : Outcome α} {f : α → Outcome β} {b : β}
    (h : (x >>= f) = .ok b) : ∃ a, x = .ok a ∧ f a = .ok b := by
  cases x with
  | ok a => exact ⟨a, rfl, h⟩
  | _ => cases h

/-- If a store succeeds, it fits. -/
theorem store_inv {b b' : Buf} {ws : List Byte} (hn : b.null = false) (h : b.store ws = .ok b') :
    ws.length ≤ b.room.length ∧ b' = { b with room := ws ++ b.room.drop ws.length } := by
  have hle : ws.length ≤ b.room.length := by
    unfold Buf.store at h
    split at h
    · next h0 => simp [h0]
    · split at h
      · cases h
      · next hc => simp [hn] at hc; exact hc
  rw [store_ok hn hle] at h
  cases h
  exact ⟨hle, rfl⟩

theorem callWctomb_ok {c : Conv} (he : EncOK c.enc) {os wc : Nat} {b : Buf} (hI : he.Inv os)
    (hn : b.null = false) (hr : ∃ x, callWctomb c os wc b = .ok x) :
    ∃ r, c.enc.wctomb os wc b.room.length = .ok r ∧ r.ws.length ≤ b.room.length ∧
      (∀ k, r.ret = .wrote k → k = r.ws.length ∧ he.Inv r.st) ∧
      (r.ret = .iluni ∨ r.ret = .toosmall → r.st = os) ∧
      callWctomb c os wc b =
        .ok (r.ret.code, r.st, { b with room := r.ws ++ b.room.drop r.ws.length }) := by
  obtain ⟨x, hx⟩ := hr
  obtain ⟨r, h1, hx⟩ := bind_ok_inv hx
  obtain ⟨b', hb, _⟩ := bind_ok_inv hx
  obtain ⟨h2, _⟩ := store_inv hn hb
  obtain ⟨h3, h4⟩ := he.any os wc _ r hI h1 h2
  exact ⟨r, h1, h2, h3, h4, by simp [callWctomb, h1, store_ok hn h2]⟩

/-- The encoder writes nothing for the character `wc`, however much room there is. -/
def Encoder.Silent (E : Encoder) (os wc os' : Nat) : Prop := ∀ n, E.wctomb os wc n = .ok (.put [] os')

theorem callWctomb_safe {c : Conv} (he : EncOK c.enc) {os wc : Nat} {b : Buf} (hI : he.Inv os)
    (hn : b.null = false) (hr : he.minRoom ≤ b.room.length ∨ wc < 0x110000 ∧ c.enc.full os wc = none ∨
      ∃ os', c.enc.Silent os wc os') :
    ∃ x, callWctomb c os wc b = .ok x := by
  obtain ⟨r, h1, h2⟩ : ∃ r, c.enc.wctomb os wc b.room.length = .ok r ∧
      r.ws.length ≤ b.room.length := by
    rcases hr with hr | hr | ⟨os', hr⟩
    · obtain ⟨r, h1, h2, _⟩ := he.safe os wc b.room.length hI hr
      exact ⟨r, h1, h2⟩
    · obtain ⟨r, h1, h2, _⟩ := he.dry os wc b.room.length hI hr.1 hr.2
      exact ⟨r, h1, h2⟩
    · exact ⟨_, hr _, Nat.zero_le _⟩
  refine ⟨(r.ret.code, r.st, { b with room := r.ws ++ b.room.drop r.ws.length }), ?_⟩
  simp only [callWctomb, h1, store_ok hn h2, Outcome.bind_ok, Outcome.pure_eq]

theorem full_of_ok {E : Encoder} (he : EncOK E) {os wc n : Nat} {r : WcRes}
    (hI : he.Inv os) (hn : r.ws.length ≤ n) (h : E.wctomb os wc n = .ok r) (ht : r.ret ≠ .toosmall) :
    E.full os wc = (match r.ret with | .wrote _ => some (r.ws, r.st) | _ => none) := by
  obtain ⟨ret, ws, st⟩ := r
  by_cases h64 : n ≤ 64
  · have := he.mono os wc n 64 _ hI h hn ht h64
    cases ret <;> simp [Encoder.full, this]
  · obtain ⟨r, hr, hl, _⟩ := he.safe os wc 64 hI (by have := he.minRoom_le; omega)
    have hb := he.big os wc 64 r hI (by omega) hr
    have := he.mono os wc 64 n r hI hr hl hb (by omega)
    rw [h] at this; cases this
    cases ret <;> simp [Encoder.full, hr]

theorem full_of_wrote {E : Encoder} (he : EncOK E) {os wc n k : Nat} {ws : List Byte} {st : Nat}
    (hI : he.Inv os) (hn : ws.length ≤ n) (h : E.wctomb os wc n = .ok ⟨.wrote k, ws, st⟩) :
    E.full os wc = some (ws, st) := full_of_ok he hI hn h (by simp)

theorem full_of_iluni {E : Encoder} (he : EncOK E) {os wc n : Nat} {ws : List Byte} {st : Nat}
    (hI : he.Inv os) (hn : ws.length ≤ n) (h : E.wctomb os wc n = .ok ⟨.iluni, ws, st⟩) :
    E.full os wc = none := full_of_ok he hI hn h (by simp)

/-- Why a character cannot be written: the encoder says `RET_TOOSMALL` for it or for its
replacement. -/
def PutBlocked (c : Conv) (os wc room : Nat) : Prop :=
  (∃ r, c.enc.wctomb os wc room = .ok r ∧ r.ret = .toosmall ∧ r.ws.length ≤ room) ∨
  (∃ r r', c.enc.wctomb os wc room = .ok r ∧ r.ret = .iluni ∧ r.ws.length ≤ room ∧
    isTag wc = false ∧ c.discard = false ∧ c.enc.wctomb os 0xFFFD room = .ok r' ∧
    r'.ret = .toosmall ∧ r'.ws.length ≤ room)

theorem putBlocked_lt {c : Conv} (he : EncOK c.enc) {os wc room : Nat} (hI : he.Inv os)
    (h : PutBlocked c os wc room) : room < 64 := by
  rcases h with ⟨r, h1, h2, _⟩ | ⟨r, r', _, _, _, _, _, h1, h2, _⟩
  · exact Nat.lt_of_not_le fun hc => he.big _ _ _ _ hI hc h1 h2
  · exact Nat.lt_of_not_le fun hc => he.big _ _ _ _ hI hc h1 h2

/-- Nothing is written for the character `wc`: it cannot be encoded and is dropped, or cannot be
replaced, or the encoder writes nothing for it. -/
def Dry (c : Conv) (os wc : Nat) : Prop :=
  c.enc.full os wc = none ∧ (isTag wc = true ∨ c.discard = true ∨ c.enc.full os 0xFFFD = none) ∨
    ∃ os', c.enc.Silent os wc os'

/-- What writing one character does to the buffer. -/
structure PutPost (c : Conv) (he : EncOK c.enc) (os wc : Nat) (b : Buf)
    (p : PutRes) (os' : Nat) (b' : Buf) (bs : List Byte) : Prop where
  out_eq : b'.out = b.out ++ bs
  len_eq : b'.room.length + bs.length = b.room.length
  null_eq : b'.null = b.null
  inv : he.Inv os'
  clean : ∀ owed, he.Covers owed → p ≠ .err .E2BIG → ∀ R, Under (owed os) R b.room →
    Under (owed os') (R.drop bs.length) b'.room
  res : match p with
    | .done irr => encChar c.enc c.discard os wc = some (bs, os', irr)
    | .err .EILSEQ => encChar c.enc c.discard os wc = none ∧ bs = [] ∧ os' = os
    | .err .E2BIG => PutBlocked c os wc b.room.length ∧ bs = [] ∧ os' = os
    | .err _ => False

theorem isTag_iff (wc : Nat) : (wc / 128 = 0xe0000 / 128) ↔ isTag wc = true := by
  simp only [isTag, decide_eq_true_eq]; omega

theorem advance_ws (b : Buf) (ws : List Byte) :
    Buf.advance { b with room := ws ++ b.room.drop ws.length } ws.length =
      .ok { null := b.null, out := b.out ++ ws, room := b.room.drop ws.length } := by
  unfold Buf.advance
  rw [if_pos (by simp)]
  simp

theorem putChar_spec {c : Conv} (he : EncOK c.enc) {os wc : Nat} {b : Buf} (hI : he.Inv os)
    (hn : b.null = false) (hr : ∃ x, putChar c os wc b = .ok x) :
    ∃ p os' b' bs, putChar c os wc b = .ok (p, os', b') ∧ PutPost c he os wc b p os' b' bs := by
  have hr1 : ∃ x, callWctomb c os wc b = .ok x := by
    obtain ⟨x, hx⟩ := hr
    obtain ⟨y, hy, _⟩ := bind_ok_inv hx
    exact ⟨y, hy⟩
  obtain ⟨⟨ret, ws, st⟩, h1, h2, h3, h4, h5⟩ := callWctomb_ok (wc := wc) he hI hn hr1
  simp only at h2 h3 h4 h5
  cases ret with
  | wrote k =>
    obtain ⟨rfl, hI'⟩ := h3 _ rfl
    have hf := full_of_wrote he hI h2 h1
    have hne : ¬ ((ws.length : Int) = -1) := by omega
    have hge : ¬ ((ws.length : Int) < 0) := by omega
    refine ⟨.done 0, st, { null := b.null, out := b.out ++ ws, room := b.room.drop ws.length }, ws, ?_, rfl, ?_, rfl, hI', ?_, ?_⟩
    · simp only [putChar, h5, Outcome.bind_ok, WcRet.code, RET_ILUNI, ne_eq, hne, not_false_eq_true,
        if_true, outcountOk, hge, if_false, Int.toNat_natCast, advance_ws, Outcome.pure_eq]
    · simp only [List.length_drop]; omega
    · intro owed hc _ R hR
      exact hR.adv (hc.wrote _ _ _ _ _ hI h1 rfl)
    · simp [encChar, hf]
  | toosmall =>
    have hst := h4 (Or.inr rfl); subst hst
    refine ⟨.err .E2BIG, st, { b with room := ws ++ b.room.drop ws.length }, [], ?_, ?_, ?_, ?_, hI, ?_, ?_⟩
    · simp [putChar, h5, WcRet.code, RET_ILUNI, RET_TOOSMALL, outcountOk]
    · simp
    · simp only [List.length_append, List.length_drop, List.length_nil]; omega
    · rfl
    · intro _ _ h; exact absurd rfl h
    · exact ⟨Or.inl ⟨_, h1, rfl, h2⟩, rfl, rfl⟩
  | iluni =>
    have hst := h4 (Or.inl rfl); subst hst
    have hf := full_of_iluni he hI h2 h1
    by_cases ht : wc / 128 = 0xe0000 / 128
    · have ht' := (isTag_iff wc).1 ht
      refine ⟨.done 0, st, { b with room := ws ++ b.room.drop ws.length }, [], ?_, ?_, ?_, ?_, hI, ?_, ?_⟩
      · simp only [putChar, h5, Outcome.bind_ok, WcRet.code, RET_ILUNI, ne_eq, not_true_eq_false,
          if_false, ht, if_true]
      · simp
      · simp only [List.length_append, List.length_drop, List.length_nil]; omega
      · rfl
      · intro owed hc _ R hR
        exact hR.junk (hc.iluni _ _ _ _ hI h1 rfl)
      · simp [encChar, hf, ht']
    · have ht' : isTag wc = false := by
        cases h : isTag wc with
        | false => rfl
        | true => exact absurd ((isTag_iff wc).2 h) ht
      cases hdis : c.discard with
      | true =>
        refine ⟨.done 1, st, { b with room := ws ++ b.room.drop ws.length }, [], ?_, ?_, ?_, ?_, hI, ?_, ?_⟩
        · simp only [putChar, h5, Outcome.bind_ok, WcRet.code, RET_ILUNI, ne_eq, not_true_eq_false,
            if_false, ht, hdis, if_true, outcountOk]
          simp [Buf.advance]
        · simp
        · simp only [List.length_append, List.length_drop, List.length_nil]; omega
        · rfl
        · intro owed hc _ R hR
          exact hR.junk (hc.iluni _ _ _ _ hI h1 rfl)
        · simp [encChar, hf, ht', hdis]
      | false =>
        let b1 : Buf := { b with room := ws ++ b.room.drop ws.length }
        have hb1 : b1.room.length = b.room.length := by
          simp only [b1, List.length_append, List.length_drop]; omega
        have hr2 : ∃ x, callWctomb c st 0xFFFD b1 = .ok x := by
          obtain ⟨x, hx⟩ := hr
          simp only [putChar, h5, Outcome.bind_ok, WcRet.code, RET_ILUNI, ne_eq, not_true_eq_false,
            if_false, ht, hdis, Bool.false_eq_true] at hx
          obtain ⟨y, hy, _⟩ := bind_ok_inv hx
          exact ⟨y, hy⟩
        obtain ⟨⟨ret2, ws2, st2⟩, g1, g2, g3, g4, g5⟩ :=
          callWctomb_ok (wc := 0xFFFD) (b := b1) he hI hn hr2
        simp only at g2 g3 g4 g5
        have hstep : putChar c st wc b =
            (if ret2.code ≠ RET_ILUNI then outcountOk ret2.code st2
                { b1 with room := ws2 ++ b1.room.drop ws2.length } 1
             else .ok (.err .EILSEQ, st2, { b1 with room := ws2 ++ b1.room.drop ws2.length })) := by
          simp only [putChar, h5, Outcome.bind_ok, WcRet.code, RET_ILUNI, ne_eq, not_true_eq_false,
            if_false, ht, hdis]
          simp only [Bool.false_eq_true, if_false]
          show (callWctomb c st 0xFFFD b1 >>= _) = _
          rw [g5]; rfl
        rw [hb1] at g1 g2
        cases ret2 with
        | wrote k =>
          obtain ⟨rfl, hI'⟩ := g3 _ rfl
          have hf2 := full_of_wrote he hI g2 g1
          have hne : ¬ ((ws2.length : Int) = -1) := by omega
          have hge : ¬ ((ws2.length : Int) < 0) := by omega
          refine ⟨.done 1, st2, { null := b1.null, out := b1.out ++ ws2, room := b1.room.drop ws2.length }, ws2, ?_, ?_, ?_, ?_, hI', ?_, ?_⟩
          · rw [hstep]
            simp only [WcRet.code, RET_ILUNI, ne_eq, hne, not_false_eq_true,
              if_true, outcountOk, hge, if_false, Int.toNat_natCast, advance_ws,
              Outcome.pure_eq, Outcome.bind_ok]
          · rfl
          · simp only [List.length_drop]; omega
          · rfl
          · intro owed hc _ R hR
            exact (hR.junk (hc.iluni _ _ _ _ hI h1 rfl)).adv (hc.wrote _ _ _ _ _ hI g1 rfl)
          · simp [encChar, hf, ht', hdis, hf2]
        | toosmall =>
          have hst := g4 (Or.inr rfl); subst hst
          refine ⟨.err .E2BIG, st2, { b1 with room := ws2 ++ b1.room.drop ws2.length }, [], ?_, ?_, ?_, ?_, hI, ?_, ?_⟩
          · rw [hstep]; simp [WcRet.code, RET_ILUNI, RET_TOOSMALL, outcountOk]
          · simp [b1]
          · simp only [List.length_append, List.length_drop, List.length_nil]; omega
          · rfl
          · intro _ _ h; exact absurd rfl h
          · exact ⟨Or.inr ⟨_, _, h1, rfl, h2, ht', hdis, g1, rfl, g2⟩, rfl, rfl⟩
        | iluni =>
          have hst := g4 (Or.inl rfl); subst hst
          have hf2 := full_of_iluni he hI g2 g1
          refine ⟨.err .EILSEQ, st2, { b1 with room := ws2 ++ b1.room.drop ws2.length }, [], ?_, ?_, ?_, ?_, hI, ?_, ?_⟩
          · rw [hstep]; simp [WcRet.code, RET_ILUNI]
          · simp [b1]
          · simp only [List.length_append, List.length_drop, List.length_nil]; omega
          · rfl
          · intro owed hc _ R hR
            exact (hR.junk (hc.iluni _ _ _ _ hI h1 rfl)).junk (hc.iluni _ _ _ _ hI g1 rfl)
          · exact ⟨by simp [encChar, hf, ht', hdis, hf2], rfl, rfl⟩

theorem outcountOk_ok {oc : Int} {os : Nat} {b : Buf} {i : Nat} (h : oc.toNat ≤ b.room.length) :
    ∃ x, outcountOk oc os b i = .ok x := by
  unfold outcountOk
  split
  · exact ⟨_, rfl⟩
  · unfold Buf.advance
    rw [if_pos h]
    exact ⟨_, rfl⟩

/-- Writing a character is safe if there is enough room for a call of the encoder, or if nothing is
going to be written. -/
theorem putChar_safe {c : Conv} (he : EncOK c.enc) {os wc : Nat} {b : Buf} (hI : he.Inv os)
    (hn : b.null = false) (hr : he.minRoom ≤ b.room.length ∨ wc < 0x110000 ∧ Dry c os wc) :
    ∃ x, putChar c os wc b = .ok x := by
  have hr1 : he.minRoom ≤ b.room.length ∨ wc < 0x110000 ∧ c.enc.full os wc = none ∨
      ∃ os', c.enc.Silent os wc os' := by
    rcases hr with hr | ⟨h1, h2 | h2⟩
    · exact .inl hr
    · exact .inr (.inl ⟨h1, h2.1⟩)
    · exact .inr (.inr h2)
  obtain ⟨⟨ret, ws, st⟩, h1, h2, h3, h4, h5⟩ := callWctomb_ok (wc := wc) he hI hn
    (callWctomb_safe he hI hn hr1)
  simp only at h2 h3 h4 h5
  let b1 : Buf := { b with room := ws ++ b.room.drop ws.length }
  have hb1 : b1.room.length = b.room.length := by
    simp only [b1, List.length_append, List.length_drop]; omega
  simp only [putChar, h5, Outcome.bind_ok]
  change ∃ x, (if _ ≠ RET_ILUNI then outcountOk _ _ b1 _ else _) = .ok x
  have hcode : ∀ {ret : WcRet} {ws : List Byte} {b : Buf}, ws.length ≤ b.room.length →
      (∀ k, ret = .wrote k → k = ws.length) → ret.code.toNat ≤ b.room.length := by
    intro ret ws b h h'
    cases ret with
    | wrote k => rw [h' k rfl]; simpa [WcRet.code] using h
    | _ => simp [WcRet.code, RET_ILUNI, RET_TOOSMALL]
  split
  · exact outcountOk_ok (b := b1) (hcode (ws := ws) (by omega) fun k hk => (h3 k hk).1)
  · next hil =>
    have hret : ret = .iluni := by
      cases ret with
      | iluni => rfl
      | wrote k => simp only [WcRet.code, RET_ILUNI] at hil; omega
      | toosmall => simp [WcRet.code, RET_ILUNI, RET_TOOSMALL] at hil
    subst hret
    have := h4 (Or.inl rfl)
    subst this
    split
    · exact ⟨_, rfl⟩
    · next htag =>
      split
      · exact outcountOk_ok (by simp)
      · next hdis =>
        have hr2 : he.minRoom ≤ b1.room.length ∨ 0xFFFD < 0x110000 ∧ c.enc.full st 0xFFFD = none ∨
            ∃ os', c.enc.Silent st 0xFFFD os' := by
          rcases hr with hr | ⟨_, ⟨_, hr | hr | hr⟩ | ⟨os', hr⟩⟩
          · exact Or.inl (by omega)
          · exact absurd ((isTag_iff wc).2 hr) htag
          · exact absurd hr hdis
          · exact Or.inr (.inl ⟨by omega, hr⟩)
          · rw [hr] at h1; cases h1
        obtain ⟨⟨ret2, ws2, st2⟩, g1, g2, g3, g4, g5⟩ := callWctomb_ok (wc := 0xFFFD) (b := b1) he hI hn
          (callWctomb_safe he hI hn hr2)
        simp only at g2 g3 g4 g5
        rw [show callWctomb c st 0xFFFD b1 = _ from g5]
        simp only [Outcome.bind_ok]
        split
        · exact outcountOk_ok (hcode (ws := ws2) (by
            simp only [List.length_append, List.length_drop]; omega) fun k hk => (g3 k hk).1)
        · exact ⟨_, rfl⟩

/-! ### Steps of the loop -/

theorem loop_nil (c : Conv) (fuel : Nat) (s : St) (b : Buf) (res : Nat) :
    loopConvert c (fuel + 1) s [] b res = .ok ⟨.ok res, s, [], b⟩ := by
  simp [loopConvert]

theorem loop_char {c : Conv} {fuel : Nat} {s : St} {inp : List Byte} {b : Buf} {res wc n : Nat}
    {is : IState} (hne : inp ≠ []) (h : c.dec.mbtowc s.is inp = .ok (.char wc n, is))
    (hn : n ≤ inp.length) :
    loopConvert c (fuel + 1) s inp b res =
      if b.room.length = 0 then
        .ok ⟨.error .E2BIG, ⟨{ is with st := s.is.st }, s.os⟩, inp, b⟩
      else (do
        let (p, os, b) ← putChar c s.os wc b
        match p with
        | .err e => .ok ⟨.error e, ⟨{ is with st := s.is.st }, os⟩, inp, b⟩
        | .done irr => loopConvert c fuel ⟨is, os⟩ (inp.drop n) b (res + irr)) := by
  have hge : ¬ ((n : Int) < 0) := by omega
  have hle : (n : Int) ≤ inp.length := by omega
  conv => lhs; rw [loopConvert]
  simp only [hne, if_false, h, Outcome.bind_ok, MbRet.code, MbRet.wc, hge, advanceIn, hle, if_true,
    Int.toNat_natCast]
  cases putChar c s.os wc b with
  | ok x => obtain ⟨p, os, b'⟩ := x; cases p <;> rfl
  | _ => rfl

theorem loop_ilseq {c : Conv} {fuel : Nat} {s : St} {inp : List Byte} {b : Buf} {res k : Nat}
    {is : IState} (hne : inp ≠ []) (h : c.dec.mbtowc s.is inp = .ok (.ilseq k, is))
    (hn : k + c.unit ≤ inp.length) :
    loopConvert c (fuel + 1) s inp b res =
      if c.discard then loopConvert c fuel ⟨is, s.os⟩ (inp.drop (k + c.unit)) b res
      else .ok ⟨.error .EILSEQ, ⟨is, s.os⟩, inp.drop k, b⟩ := by
  have hlt : (-1 - 2 * (k : Int)) < 0 := by omega
  have hmod : (-1 - (-1 - 2 * (k : Int))) % 2 = (-1 - (-1 - 2 * 0)) % 2 := by omega
  have hdec : (-1 - 2 * 0 - (-1 - 2 * (k : Int))) / 2 = k := by omega
  have hle : (k : Int) + c.unit ≤ inp.length := by omega
  have hle' : (k : Int) ≤ inp.length := by omega
  have hto : ((k : Int) + c.unit).toNat = k + c.unit := by omega
  conv => lhs; rw [loopConvert]
  simp only [hne, if_false, h, Outcome.bind_ok, MbRet.code, RET_SHIFT_ILSEQ, RET_ILSEQ, hlt, if_true,
    hmod, DECODE_SHIFT_ILSEQ, hdec, advanceIn, hle, hle', hto, Int.toNat_natCast]

theorem loop_toofew {c : Conv} {fuel : Nat} {s : St} {inp : List Byte} {b : Buf} {res k : Nat}
    {is : IState} (hne : inp ≠ []) (h : c.dec.mbtowc s.is inp = .ok (.toofew k, is))
    (hn : k ≤ inp.length) :
    loopConvert c (fuel + 1) s inp b res =
      if k = 0 then .ok ⟨.error .EINVAL, ⟨is, s.os⟩, inp, b⟩
      else loopConvert c fuel ⟨is, s.os⟩ (inp.drop k) b res := by
  have hlt : (-2 - 2 * (k : Int)) < 0 := by omega
  have hmod : ¬ ((-1 - (-2 - 2 * (k : Int))) % 2 = (-1 - (-1 - 2 * 0)) % 2) := by omega
  have hdec : (-2 - 2 * 0 - (-2 - 2 * (k : Int))) / 2 = k := by omega
  have hle : (k : Int) ≤ inp.length := by omega
  have hk : (-2 - 2 * (k : Int) = -2 - 2 * 0) ↔ k = 0 := by omega
  conv => lhs; rw [loopConvert]
  simp only [hne, if_false, h, Outcome.bind_ok, MbRet.code, RET_SHIFT_ILSEQ, RET_ILSEQ, RET_TOOFEW,
    hlt, if_true, hmod, DECODE_TOOFEW, hdec, advanceIn, hle, hk, Int.toNat_natCast]

/-! ### The loop -/

/-- The next character of the input is known but cannot be written into `room` bytes. -/
def Blocked (c : Conv) (s : St) (inp : List Byte) (room : Nat) : Prop :=
  ∃ wc n is', c.dec.mbtowc s.is inp = .ok (.char wc n, is') ∧
    (room = 0 ∨ 1 ≤ room ∧ PutBlocked c s.os wc room)

/-- What the loop guarantees when it returns `r`, having appended `e` to the output with `irr`
irreversible conversions. -/
structure LoopPost (c : Conv) (hd : DecOK c.dec c.unit) (he : EncOK c.enc) (s : St)
    (inp : List Byte) (b : Buf) (result : Nat) (r : CallRes) (e : List Byte) (irr : Nat) : Prop where
  out_eq : r.buf.out = b.out ++ e
  len_eq : r.buf.room.length + e.length = b.room.length
  null_eq : r.buf.null = b.null
  inv_is : hd.Inv r.st.is
  inv_os : he.Inv r.st.os
  suffix : ∃ pre, inp = pre ++ r.inp
  mu_le : mu hd.pend r.st.is r.inp ≤ mu hd.pend s.is inp
  mu_lt : e ≠ [] → mu hd.pend r.st.is r.inp < mu hd.pend s.is inp
  clean : ∀ owed, he.Covers owed → r.ret ≠ .error .E2BIG → ∀ R, Under (owed s.os) R b.room →
    Under (owed r.st.os) (R.drop e.length) r.buf.room
  cont : ∀ out i fin, Runs hd.atom c r.st r.inp out i fin →
    Runs hd.atom c s inp (e ++ out) (irr + i) fin
  exact : ∀ T i s', RunsExact hd.atom c s inp T i (.done s') →
    ∃ T' i', T = e ++ T' ∧ RunsExact hd.atom c r.st r.inp T' i' (.done s')
  res : match r.ret with
    | .ok n => r.inp = [] ∧ n = result + irr
    | .error .EINVAL => r.inp ≠ [] ∧ hd.atom r.st.is r.inp = .more
    | .error .EILSEQ => Runs hd.atom c r.st r.inp [] 0 .eilseq
    | .error .E2BIG => r.inp ≠ [] ∧ Blocked c r.st r.inp r.buf.room.length
    | .error .ENOMEM => False

theorem drop_suffix {α : Type} {n : Nat} {l pre r : List α} (h : l.drop n = pre ++ r) :
    ∃ pre', l = pre' ++ r :=
  ⟨l.take n ++ pre, by rw [List.append_assoc, ← h, List.take_append_drop]⟩

theorem loop_spec {c : Conv} (hd : DecOK c.dec c.unit) (he : EncOK c.enc) :
    ∀ (fuel : Nat) (s : St) (inp : List Byte) (b : Buf) (result : Nat),
      hd.Inv s.is → he.Inv s.os → (b.room ≠ [] → b.null = false) →
      mu hd.pend s.is inp < fuel →
      ∃ r e irr, loopConvert c fuel s inp b result = .ok r ∧
        LoopPost c hd he s inp b result r e irr := by
  intro fuel
  induction fuel with
  | zero => intro s inp b result _ _ _ h; omega
  | succ fuel ih =>
    intro s inp b result hI hO hb hfuel
    by_cases hne : inp = []
    · subst hne
      refine ⟨_, [], 0, loop_nil c fuel s b result, by simp, by simp, rfl, hI, hO, ⟨[], rfl⟩,
        Nat.le_refl _, by simp, by simp, ?_, ?_, ?_⟩
      · intro out i fin h; simpa using h
      · intro T i s' h; exact ⟨T, i, rfl, h⟩
      · simp
    obtain ⟨ret, is', hmb, hbatch⟩ := hd.batch s.is inp hI hne
    obtain ⟨hI', hbc, hbi, hbt⟩ := batch_ok hd hbatch hI hne
    cases ret with
    | ilseq k =>
      obtain ⟨hk, hmu⟩ := hbi k rfl
      have hru := fun {ec os out irr fin} =>
        (runs_batch_ilseq (ec := ec) (unit := c.unit) (discard := c.discard) hbatch hne (k := k) rfl
          (os := os) (out := out) (irr := irr) (fin := fin))
      rw [loop_ilseq hne hmb hk]
      have hup := hd.unit_pos
      cases hdis : c.discard with
      | false =>
        simp only [Bool.false_eq_true, if_false]
        have hstop : Runs hd.atom c ⟨is', s.os⟩ (inp.drop k) [] 0 .eilseq := by
          -- the decoder stands at the invalid item
          have : ∀ {is s r is''}, Batch hd.atom is s r is'' → s ≠ [] → ∀ k, r = .ilseq k →
              s.drop k ≠ [] ∧ hd.atom is'' (s.drop k) = .ilseq := by
            intro is s r is'' hB
            induction hB with
            | more _ => rintro _ _ ⟨⟩
            | char _ => rintro _ _ ⟨⟩
            | pause _ _ => rintro _ _ ⟨⟩
            | ilseq ha => rintro hne _ ⟨⟩; exact ⟨by simpa using hne, by simpa using ha⟩
            | shift ha hne' _ ih2 =>
              intro _ k hk
              obtain ⟨m, rfl, rfl⟩ := addCount_ilseq hk
              have := ih2 hne' m rfl
              simpa only [List.drop_drop] using this
          obtain ⟨h1, h2⟩ := this hbatch hne k rfl
          exact .stop h1 h2 hdis
        refine ⟨_, [], 0, rfl, by simp, by simp, rfl, hI', hO, ⟨inp.take k, by simp⟩,
          hmu, by simp, by simp, ?_, ?_, hstop⟩
        · intro out i fin h
          obtain ⟨h1, h2, h3⟩ := runs_det hstop h
          subst h1 h2 h3
          simp only [List.append_nil, Nat.add_zero]
          exact hru.2 (Or.inl ⟨hdis, rfl, rfl, rfl⟩)
        · intro T i s' h
          rcases hru.1 h with ⟨_, _, _, h0⟩ | ⟨h0, _⟩
          · cases h0
          · rw [hdis] at h0; cases h0
      | true =>
        simp only [if_true]
        have hmu' : mu hd.pend is' (inp.drop (k + c.unit)) < mu hd.pend s.is inp := by
          refine Nat.lt_of_lt_of_le ?_ hmu
          unfold mu; simp only [List.length_drop]; omega
        obtain ⟨r, e, irr, hr, hp⟩ := ih ⟨is', s.os⟩ (inp.drop (k + c.unit)) b result hI' hO hb
          (by simp only; omega)
        obtain ⟨pre, hpre⟩ := hp.suffix
        refine ⟨r, e, irr, hr, hp.out_eq, hp.len_eq, hp.null_eq, hp.inv_is, hp.inv_os,
          drop_suffix hpre, ?_, ?_, hp.clean, ?_, ?_, hp.res⟩
        · have := hp.mu_le; simp only at this; omega
        · intro he'; have := hp.mu_lt he'; simp only at this; omega
        · intro out i fin h
          exact hru.2 (Or.inr ⟨hdis, hp.cont _ _ _ h⟩)
        · intro T i s' h
          rcases hru.1 h with ⟨_, _, _, h0⟩ | ⟨_, h0⟩
          · cases h0
          · exact hp.exact _ _ _ h0
    | toofew k =>
      obtain ⟨hk, hmu, hmu'⟩ := hbt k rfl
      have h0 := (runs_batch_toofew (ec := fun _ _ => none) (unit := c.unit) (discard := c.discard)
        hbatch hne (k := k) rfl).1
      have hru := fun {ec os out irr fin} => (runs_batch_toofew (ec := ec) (unit := c.unit)
        (discard := c.discard) hbatch hne (k := k) rfl).2 (os := os) (out := out) (irr := irr)
          (fin := fin)
      rw [loop_toofew hne hmb hk]
      by_cases hz : k = 0
      · subst hz
        simp only [if_true]
        refine ⟨_, [], 0, rfl, by simp, by simp, rfl, hI', hO, ⟨[], rfl⟩,
          by simpa using hmu, by simp, by simp, ?_, ?_, hne, h0 rfl⟩
        · intro out i fin h
          simp only [List.nil_append, Nat.zero_add]
          exact hru.2 (by simpa using h)
        · intro T i s' h
          exact ⟨T, i, rfl, by simpa using hru.1 h⟩
      · simp only [hz, if_false]
        have hlt := hmu' (by omega)
        obtain ⟨r, e, irr, hr, hp⟩ := ih ⟨is', s.os⟩ (inp.drop k) b result hI' hO hb
          (by simp only; omega)
        obtain ⟨pre, hpre⟩ := hp.suffix
        refine ⟨r, e, irr, hr, hp.out_eq, hp.len_eq, hp.null_eq, hp.inv_is, hp.inv_os,
          drop_suffix hpre, ?_, ?_, hp.clean, ?_, ?_, hp.res⟩
        · have := hp.mu_le; simp only at this; omega
        · intro he'; have := hp.mu_lt he'; simp only at this; omega
        · intro out i fin h
          exact hru.2 (hp.cont _ _ _ h)
        · intro T i s' h
          exact hp.exact _ _ _ (hru.1 h)
    | char wc n =>
      obtain ⟨hn, hmu⟩ := hbc wc n rfl
      have hru := fun {ec os out irr fin} =>
        (runs_batch_char (ec := ec) (unit := c.unit) (discard := c.discard) hbatch hne (wc := wc)
          (n := n) rfl (os := os) (out := out) (irr := irr) (fin := fin))
      obtain ⟨hIr, hretry⟩ := hd.retry s.is inp wc n is' hI hne hmb
      have hpst : mu hd.pend { is' with st := s.is.st } inp = mu hd.pend s.is inp := rfl
      -- a retry from the restored state converts like the original state
      have hback : ∀ out i fin, Runs hd.atom c ⟨{ is' with st := s.is.st }, s.os⟩ inp out i fin →
          Runs hd.atom c s inp out i fin := by
        intro out i fin h
        obtain ⟨ret2, is2, hmb2, hbatch2⟩ := hd.batch _ inp hIr hne
        rw [hretry] at hmb2; cases hmb2
        have h' := (runs_batch_char hbatch2 hne rfl).1 h
        exact hru.2 h'
      have hfwd : ∀ out i fin, RunsExact hd.atom c s inp out i fin →
          RunsExact hd.atom c ⟨{ is' with st := s.is.st }, s.os⟩ inp out i fin := by
        intro out i fin h
        obtain ⟨ret2, is2, hmb2, hbatch2⟩ := hd.batch _ inp hIr hne
        rw [hretry] at hmb2; cases hmb2
        exact (runs_batch_char hbatch2 hne rfl).2 (hru.1 h)
      rw [loop_char hne hmb hn]
      by_cases hroom : b.room.length = 0
      · simp only [hroom, if_true]
        refine ⟨_, [], 0, rfl, by simp, by simp, rfl, hIr, hO, ⟨[], rfl⟩,
          Nat.le_of_eq hpst, by simp, by simp, ?_, ?_, hne, wc, n, is', hretry, Or.inl hroom⟩
        · intro out i fin h
          simp only [List.nil_append, Nat.zero_add]
          exact hback _ _ _ h
        · intro T i s' h
          exact ⟨T, i, rfl, hfwd _ _ _ h⟩
      · simp only [hroom, if_false]
        have hnull := hb (fun h => hroom (by simp [h]))
        obtain ⟨p, os', b', bs, hp, hpp⟩ := putChar_spec (wc := wc) he hO hnull
          (putChar_safe he hO hnull (Or.inl (by have := he.minRoom_le; omega)))
        rw [hp]
        simp only [Outcome.bind_ok]
        cases p with
        | done irr0 =>
          have henc : encChar c.enc c.discard s.os wc = some (bs, os', irr0) := hpp.res
          obtain ⟨r, e, irr, hr, hq⟩ := ih ⟨is', os'⟩ (inp.drop n) b' (result + irr0) hI' hpp.inv
            (fun _ => hpp.null_eq.trans hnull) (by simp only; omega)
          obtain ⟨pre, hpre⟩ := hq.suffix
          have hle := hq.mu_le
          simp only at hle
          refine ⟨r, bs ++ e, irr0 + irr, hr, ?_, ?_, hq.null_eq.trans hpp.null_eq, hq.inv_is,
            hq.inv_os, drop_suffix hpre, by omega, fun _ => by omega, ?_, ?_, ?_, ?_⟩
          · rw [hq.out_eq, hpp.out_eq, List.append_assoc]
          · have h1 := hq.len_eq; have h2 := hpp.len_eq
            simp only [List.length_append]; omega
          · intro owed hc hr' R hR
            rw [List.length_append, ← List.drop_drop]
            exact hq.clean owed hc hr' _ (hpp.clean owed hc (by simp) R hR)
          · intro out i fin h
            refine hru.2 (Or.inl ⟨bs, os', irr0, e ++ out, irr + i, henc, hq.cont _ _ _ h, ?_, ?_⟩)
            · rw [List.append_assoc]
            · omega
          · intro T i s' h
            rcases hru.1 h with ⟨bs', os'', j, out', irr', he', hr', rfl, rfl⟩ | ⟨_, _, _, h0⟩
            · simp only [Option.map_eq_some_iff] at he'
              obtain ⟨⟨x, y⟩, hx, hy⟩ := he'
              simp only [Prod.mk.injEq] at hy
              obtain ⟨rfl, rfl, rfl⟩ := hy
              have : encChar c.enc c.discard s.os wc = some (x, y, 0) := by simp [encChar, Encoder.rep_full hx]
              rw [henc] at this
              simp only [Option.some.injEq, Prod.mk.injEq] at this
              obtain ⟨rfl, rfl, _⟩ := this
              obtain ⟨T', i', rfl, h2⟩ := hq.exact _ _ _ hr'
              exact ⟨T', i', by rw [List.append_assoc], h2⟩
            · cases h0
          · have hres := hq.res
            revert hres
            cases r.ret with
            | ok n' => simp only; rintro ⟨h1, h2⟩; exact ⟨h1, by omega⟩
            | error x => cases x <;> exact id
        | err x =>
          have hres := hpp.res
          cases x with
          | E2BIG =>
            obtain ⟨hblk, rfl, rfl⟩ := hres
            have hlen := hpp.len_eq
            simp only [List.length_nil, Nat.add_zero] at hlen
            refine ⟨⟨.error .E2BIG, ⟨{ is' with st := s.is.st }, s.os⟩, inp, b'⟩, [], 0, rfl, hpp.out_eq,
              hpp.len_eq, hpp.null_eq, hIr, hpp.inv,
              ⟨[], rfl⟩, Nat.le_of_eq hpst, by simp, by simp, ?_, ?_, hne, wc, n, is', hretry, ?_⟩
            · intro out i fin h
              simp only [List.nil_append, Nat.zero_add]
              exact hback _ _ _ h
            · intro T i s' h
              exact ⟨T, i, rfl, hfwd _ _ _ h⟩
            · exact Or.inr ⟨by simp only [hlen]; omega, by simp only [hlen]; exact hblk⟩
          | EILSEQ =>
            obtain ⟨henc, rfl, rfl⟩ := hres
            refine ⟨⟨.error .EILSEQ, ⟨{ is' with st := s.is.st }, s.os⟩, inp, b'⟩, [], 0, rfl, hpp.out_eq,
              hpp.len_eq, hpp.null_eq, hIr, hpp.inv,
              ⟨[], rfl⟩, Nat.le_of_eq hpst, by simp, ?_, ?_, ?_, ?_⟩
            · intro owed hc _; exact hpp.clean owed hc (by simp)
            · intro out i fin h
              simp only [List.nil_append, Nat.zero_add]
              exact hback _ _ _ h
            · intro T i s' h
              exact ⟨T, i, rfl, hfwd _ _ _ h⟩
            · obtain ⟨ret2, is2, hmb2, hbatch2⟩ := hd.batch _ inp hIr hne
              rw [hretry] at hmb2; cases hmb2
              exact (runs_batch_char hbatch2 hne rfl).2 (Or.inr ⟨henc, rfl, rfl, rfl⟩)
          | EINVAL => exact absurd hres id
          | ENOMEM => exact absurd hres id

end Reiconv
