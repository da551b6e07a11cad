import Verif.Props.OneShot

/-!
# Texts as sequences of characters

A second specification of conversions, by way of the characters of a text: converting from `A` to `B`
is reading the characters of the input in `A` and writing them in `B`.
-/

namespace Reiconv

/-- `Chars atom is inp cs is'`: from state `is` the bytes `inp` are valid items with the characters
`cs`, and the state is then `is'`. -/
inductive Chars (atom : IState → List Byte → Atom) : IState → List Byte → List Nat → IState → Prop
  | nil (is) : Chars atom is [] [] is
  | char {is inp wc n is' cs is''} : inp ≠ [] → atom is inp = .char wc n is' →
      Chars atom is' (inp.drop n) cs is'' → Chars atom is inp (wc :: cs) is''
  | shift {is inp n is' cs is''} : inp ≠ [] → atom is inp = .shift n is' →
      Chars atom is' (inp.drop n) cs is'' → Chars atom is inp cs is''

/-- The encodings of characters one after the other, from output state `os`, and the state then;
`none` if one of them is not representable. -/
def Encoder.text (E : Encoder) : Nat → List Nat → Option (List Byte × Nat)
  | os, [] => some ([], os)
  | os, c :: cs =>
    match E.rep os c with
    | none => none
    | some (bs, os1) =>
      match E.text os1 cs with
      | none => none
      | some (r, os2) => some (bs ++ r, os2)

/-- The character a decoder has read but not delivered. -/
def Decoder.kept (D : Decoder) (is : IState) : List Nat :=
  match D.flushwc with
  | none => []
  | some f => (f is).1.toList

/-- In encoding `A` the bytes `inp` are a text with the characters `cs`. -/
def Entry.Text (A : Entry) (inp : List Byte) (cs : List Nat) : Prop :=
  ∃ cs0 is, Chars A.atom IState.init inp cs0 is ∧ cs = cs0 ++ A.dec.kept is

/-- The text with the characters `cs`, as written in encoding `B`, is `out` (including the return to
the initial state at the end). -/
def Entry.Encodes (B : Entry) (cs : List Nat) (out : List Byte) : Prop :=
  ∃ bs os, B.enc.text 0 cs = some (bs, os) ∧ out = bs ++ B.enc.tail os

/-! ## Faithful conversions -/

theorem Encoder.text_append {E : Encoder} : ∀ (a b : List Nat) (os : Nat),
    E.text os (a ++ b) = match E.text os a with
      | none => none
      | some (x, os1) =>
        match E.text os1 b with
        | none => none
        | some (y, os2) => some (x ++ y, os2) := by
  intro a
  induction a with
  | nil =>
    intro b os
    simp only [List.nil_append, Encoder.text]
    cases E.text os b with
    | none => rfl
    | some x => rfl
  | cons c a ih =>
    intro b os
    simp only [List.cons_append, Encoder.text]
    cases E.rep os c with
    | none => rfl
    | some x =>
      obtain ⟨bs, os1⟩ := x
      simp only [ih]
      cases E.text os1 a with
      | none => rfl
      | some y =>
        obtain ⟨r, os2⟩ := y
        simp only
        cases E.text os2 b with
        | none => rfl
        | some z => simp

abbrev exactEc (E : Encoder) (os wc : Nat) : Option (List Byte × Nat × Nat) :=
  (E.rep os wc).map fun x => (x.1, x.2, 0)

theorem runs_of_chars {atom unit discard} {E : Encoder} {is is' : IState} {inp cs}
    (h : Chars atom is inp cs is') : ∀ {os o os'}, E.text os cs = some (o, os') →
    RunsG atom unit discard (exactEc E) ⟨is, os⟩ inp o 0 (.done ⟨is', os'⟩) := by
  induction h with
  | nil is => intro os o os' ht; cases ht; exact .done _
  | @char is inp wc n is' cs is'' hne ha _ ih =>
    intro os o os' ht
    simp only [Encoder.text] at ht
    cases hf : E.rep os wc with
    | none => rw [hf] at ht; cases ht
    | some x =>
      obtain ⟨bs, os1⟩ := x
      rw [hf] at ht
      simp only at ht
      cases hr : E.text os1 cs with
      | none => rw [hr] at ht; cases ht
      | some y =>
        obtain ⟨r, os2⟩ := y
        rw [hr] at ht
        cases ht
        exact RunsG.char (i := 0) (irr := 0) (s := ⟨is, os⟩) hne ha (by simp [exactEc, hf]) (ih hr)
  | shift hne ha _ ih => intro os o os' ht; exact .shift hne ha (ih ht)

theorem chars_of_runs {atom unit} {E : Encoder} {s : St} {inp o i f}
    (h : RunsG atom unit false (exactEc E) s inp o i f) : ∀ s', f = .done s' →
    ∃ cs, Chars atom s.is inp cs s'.is ∧ E.text s.os cs = some (o, s'.os) := by
  induction h with
  | done s => rintro _ ⟨⟩; exact ⟨[], .nil _, rfl⟩
  | more _ _ => rintro _ ⟨⟩
  | stop _ _ _ => rintro _ ⟨⟩
  | unenc _ _ _ => rintro _ ⟨⟩
  | skip _ _ h _ _ => cases h
  | shift hne ha _ ih =>
    intro s' hs
    obtain ⟨cs, h1, h2⟩ := ih s' hs
    exact ⟨cs, .shift hne ha h1, h2⟩
  | @char s inp wc n is bs os i out irr fin hne ha he _ ih =>
    intro s' hs
    obtain ⟨cs, h1, h2⟩ := ih s' hs
    refine ⟨wc :: cs, .char hne ha h1, ?_⟩
    simp only [exactEc] at he
    cases hf : E.rep s.os wc with
    | none => rw [hf] at he; cases he
    | some x =>
      rw [hf] at he
      cases he
      simp only [Encoder.text, hf]
      simp only at h2
      rw [h2]

theorem pending_kept {A B : Entry} {discard : Bool} {is : IState} {os : Nat} :
    (pending (A.conv B discard) ⟨is, os⟩).1.toList = A.dec.kept is := by
  unfold pending Decoder.kept Entry.conv
  cases A.dec.flushwc <;> rfl

/-- Reading the characters in `A` and writing them in `B` is a faithful conversion. -/
theorem faithful_of_text {A B : Entry} {inp out : List Byte} {cs : List Nat} (discard : Bool)
    (h1 : A.Text inp cs) (h2 : B.Encodes cs out) :
    Faithful A.atom (A.conv B discard) St.init inp out := by
  obtain ⟨cs0, is, h1, rfl⟩ := h1
  obtain ⟨bs, os, h2, rfl⟩ := h2
  rw [Encoder.text_append] at h2
  cases hx : B.enc.text 0 cs0 with
  | none => rw [hx] at h2; cases h2
  | some x =>
    obtain ⟨x, os1⟩ := x
    rw [hx] at h2
    simp only at h2
    have hrun := runs_of_chars (unit := A.unit) (discard := discard) h1 hx
    rw [← pending_kept (A := A) (B := B) (discard := discard) (os := os1)] at h2
    refine ⟨x, 0, ⟨is, os1⟩, ?_⟩
    cases hp : (pending (A.conv B discard) ⟨is, os1⟩).1 with
    | none =>
      rw [hp] at h2
      simp only [Option.toList, Encoder.text] at h2
      cases h2
      exact ⟨_, hrun, by simp only [finishExact, hp]; rfl, by simp [Entry.conv]⟩
    | some wc =>
      rw [hp] at h2
      simp only [Option.toList, Encoder.text] at h2
      cases hf : B.enc.rep os1 wc with
      | none => rw [hf] at h2; cases h2
      | some y =>
        obtain ⟨y, os2⟩ := y
        rw [hf] at h2
        cases h2
        refine ⟨y ++ B.enc.tail os, hrun, ?_, by simp⟩
        simp only [finishExact, hp]
        show (B.enc.rep os1 wc).map _ = _
        rw [hf]; rfl

/-- Without the discard flag every faithful conversion is of this kind. -/
theorem text_of_faithful {A B : Entry} {inp out : List Byte}
    (h : Faithful A.atom (A.conv B false) St.init inp out) :
    ∃ cs, A.Text inp cs ∧ B.Encodes cs out := by
  obtain ⟨o, i, s', fo, h1, h2, rfl⟩ := h
  obtain ⟨cs, h3, h4⟩ := chars_of_runs (E := B.enc) h1 s' rfl
  refine ⟨cs ++ A.dec.kept s'.is, ⟨cs, s'.is, h3, rfl⟩, ?_⟩
  have h4 : B.enc.text 0 cs = some (o, s'.os) := h4
  unfold Entry.Encodes
  rw [← pending_kept (A := A) (B := B) (discard := false) (os := s'.os), Encoder.text_append, h4]
  simp only [finishExact] at h2
  cases hp : (pending (A.conv B false) ⟨s'.is, s'.os⟩).1 with
  | none =>
    rw [show pending (A.conv B false) s' = pending (A.conv B false) ⟨s'.is, s'.os⟩ from rfl, hp] at h2
    cases h2
    exact ⟨_, _, rfl, by simp [Entry.conv]⟩
  | some wc =>
    rw [show pending (A.conv B false) s' = pending (A.conv B false) ⟨s'.is, s'.os⟩ from rfl, hp] at h2
    simp only [Option.toList, Encoder.text]
    simp only at h2
    have h2 : (B.enc.rep s'.os wc).map (fun x => x.1 ++ B.enc.tail x.2) = some fo := h2
    cases hf : B.enc.rep s'.os wc with
    | none => rw [hf] at h2; cases h2
    | some y =>
      rw [hf] at h2
      cases h2
      exact ⟨o ++ y.1, y.2, by simp, by simp⟩

theorem faithful_whole {A B : Entry} {discard : Bool} {inp out : List Byte} {s : St}
    (h : Faithful A.atom (A.conv B discard) s inp out) :
    Whole A.atom (A.conv B discard) s inp out 0 := by
  obtain ⟨o, i, s', fo, h1, h2, rfl⟩ := h
  have key : ∀ {s : St} {inp o i f}, RunsExact A.atom (A.conv B discard) s inp o i f →
      ∀ s', f = .done s' → Runs A.atom (A.conv B discard) s inp o 0 f := by
    intro s inp o i f h
    induction h with
    | done s => intro _ _; exact .done s
    | more _ _ => rintro _ ⟨⟩
    | stop _ _ _ => rintro _ ⟨⟩
    | unenc _ _ _ => rintro _ ⟨⟩
    | skip hne ha hd _ ih => intro s' hs; exact .skip hne ha hd (ih s' hs)
    | shift hne ha _ ih => intro s' hs; exact .shift hne ha (ih s' hs)
    | @char s inp wc n is bs os i out irr fin hne ha he _ ih =>
      intro s' hs
      refine RunsG.char (i := 0) (irr := 0) hne ha ?_ (ih s' hs)
      cases hf : (A.conv B discard).enc.rep s.os wc with
      | none => rw [hf] at he; cases he
      | some x =>
        rw [hf] at he
        cases he
        simp only [encChar, Encoder.rep_full hf]
  refine ⟨o, 0, s', fo, 0, key h1 s' rfl, ?_, rfl, rfl⟩
  unfold finishExact at h2
  unfold finish
  split
  · next hp => rw [hp] at h2; cases h2; rfl
  · next wc hp =>
    rw [hp] at h2
    simp only at h2
    cases hf : (A.conv B discard).enc.rep s'.os wc with
    | none => rw [hf] at h2; cases h2
    | some x =>
      rw [hf] at h2
      cases h2
      simp only [encChar, Encoder.rep_full hf]

/-- `reiconv_convert` on a new descriptor for text all of whose characters the target has: it returns
0 and the text in the target encoding. -/
theorem convert_text {A B : Entry} {inp out : List Byte} {cs : List Nat} (discard : Bool)
    (hA : A.FixedOrder) (h1 : A.Text inp cs) (h2 : B.Encodes cs out)
    (alloc : Nat → List Byte) (hal : ∀ n, (alloc n).length = n) :
    ∃ r, convert (A.conv B discard) St.init inp true true (fun n => some (alloc n)) = .ok r ∧
      r.ret = .ok () ∧ r.outLen = some out.length ∧ r.data = some out := by
  have hf := faithful_of_text discard h1 h2
  obtain ⟨r, h3, h4, h5, _⟩ := C09_convert_whole_partial A B discard hA inp alloc hal
  refine ⟨r, h3, h5 ⟨_, hf⟩, ?_⟩
  rcases h4 with ⟨_, o, irr, hw, h6, h7⟩ | ⟨⟨e, h6⟩, _⟩
  · obtain ⟨rfl, _⟩ := whole_det hw (faithful_whole hf)
    exact ⟨h6, h7⟩
  · rw [h5 ⟨_, hf⟩] at h6; cases h6

/-- `reiconv_convert` reads the input twice, the second time in the byte order found the first time.
If both readings give the characters `cs`, the result is `cs` in the target encoding. -/
theorem convert_twice {A B : Entry} {inp out : List Byte} {cs : List Nat} (discard : Bool)
    {is1 is2 is3 : IState} (hI : A.decOK.Inv is1) (h1 : Chars A.atom is1 inp cs is2)
    (h2 : Chars A.atom { is2 with st := 0 } inp cs is3) (hf : A.dec.flushwc = none)
    (h3 : B.Encodes cs out) (alloc : Nat → List Byte) (hal : ∀ n, (alloc n).length = n) :
    convert (A.conv B discard) ⟨is1, 0⟩ inp true true (fun n => some (alloc n)) =
      .ok ⟨.ok (), ⟨{ is3 with st := 0 }, 0⟩, some out.length, some out⟩ := by
  obtain ⟨bs, os, h3, rfl⟩ := h3
  have hr1 := runs_of_chars (unit := A.unit) (discard := discard) h1 h3
  have hr2 := runs_of_chars (unit := A.unit) (discard := discard) h2 h3
  have hp : ∀ s, (pending (A.conv B discard) s).1 = none := by
    intro s; simp only [pending, Entry.conv, hf]
  have hfe : ∀ is, finishExact (A.conv B discard) ⟨is, os⟩ = some (B.enc.tail os) := by
    intro is; simp only [finishExact, hp]; rfl
  have hff : ∀ is, finish (A.conv B discard) ⟨is, os⟩ = some (B.enc.tail os, 0) :=
    fun is => finishExact_finish (hfe is)
  obtain ⟨⟨sz, s1⟩, hs, hIs, hOs, hpost⟩ := resultSize_spec (c := A.conv B discard) A.decOK B.encOK
    ⟨is1, 0⟩ inp hI B.encOK.inv_init
  have hz := hpost _ _ _ (exact_runs (c := A.conv B discard) hr1 _ rfl)
  simp only [SizePost, hff, Prod.mk.injEq] at hz
  obtain ⟨rfl, rfl⟩ := hz
  have hfaith : Faithful A.atom (A.conv B discard) (St.clear ⟨is2, os⟩) inp (bs ++ B.enc.tail os) :=
    ⟨bs, 0, _, _, hr2, hfe _, rfl⟩
  have hw := faithful_whole hfaith
  obtain ⟨ret, s2, b, hx, hl, h5⟩ := static_whole A B discard (St.clear ⟨is2, os⟩) hIs hOs inp
    (alloc (bs ++ B.enc.tail os).length) hw (Or.inr hf)
  rw [hal] at hl h5
  rcases h5 with ⟨rfl, h5, _, _⟩ | ⟨rfl, h5, _, h6⟩
  · have hroom : b.room = [] := by
      apply List.eq_nil_of_length_eq_zero
      rw [h5] at hl; omega
    obtain ⟨o, i, s', fo, fi, g1, g2, g3, g4, _, _⟩ := static_ok_inv (c := A.conv B discard) A.decOK
      B.encOK hIs hOs rfl hx
    obtain ⟨rfl, rfl, rfl⟩ := ends_det (Or.inl (exact_runs (c := A.conv B discard) hr2 _ rfl)) g1
    subst g4
    have hn : b.null = false := by
      obtain ⟨y, e, hy, hp⟩ := convertStatic_spec (c := A.conv B discard) A.decOK B.encOK _
        inp ⟨false, [], alloc (bs ++ B.enc.tail os).length⟩ hIs hOs rfl ⟨_, hx⟩
      rw [hx] at hy; cases hy
      exact hp.null_eq
    have hlen : 0 + (bs.length + (B.enc.tail os).length) = (bs ++ B.enc.tail os).length := by simp
    simp only [convert, hs, Outcome.bind_ok, Bool.not_true, Bool.false_eq_true, if_false, if_true, hlen,
      hx, hn, h5, hroom, List.append_nil]
    rfl
  · have := h6 _ hfaith
    omega

theorem Chars.append {A : Entry} {is is' is'' : IState} {a b : List Byte} {cs cs' : List Nat}
    (hI : A.decOK.Inv is) (h : Chars A.atom is a cs is') (h' : Chars A.atom is' b cs' is'') :
    Chars A.atom is (a ++ b) (cs ++ cs') is'' := by
  induction h with
  | nil is => exact h'
  | @char is inp wc n is1 cs is2 hne ha _ ih =>
    obtain ⟨h1, h2, _⟩ := A.decOK.char_ok _ _ _ _ _ hI hne ha
    refine .char (by simp [hne]) ?_ (by rw [drop_append_le _ _ _ h2]; exact ih h1 h')
    exact (A.decOK.ext _ _ _ hI hne (by simp [show A.decOK.atom is inp = _ from ha])).trans ha
  | @shift is inp n is1 cs is2 hne ha _ ih =>
    obtain ⟨h1, h2, _⟩ := A.decOK.shift_ok _ _ _ _ hI hne ha
    refine .shift (by simp [hne]) ?_ (by rw [drop_append_le _ _ _ h2]; exact ih h1 h')
    exact (A.decOK.ext _ _ _ hI hne (by simp [show A.decOK.atom is inp = _ from ha])).trans ha

theorem Chars.det {atom} {is is1 is2 : IState} {inp : List Byte} {cs cs' : List Nat}
    (h : Chars atom is inp cs is1) : Chars atom is inp cs' is2 → cs = cs' ∧ is1 = is2 := by
  intro h'
  induction h generalizing cs' is2 with
  | nil is => cases h' <;> first | exact ⟨rfl, rfl⟩ | contradiction
  | char hne ha _ ih =>
    cases h' with
    | nil => exact absurd rfl hne
    | char _ ha' h' =>
      rw [ha] at ha'; cases ha'
      obtain ⟨rfl, rfl⟩ := ih h'; exact ⟨rfl, rfl⟩
    | shift _ ha' h' => rw [ha] at ha'; cases ha'
  | shift hne ha _ ih =>
    cases h' with
    | nil => exact absurd rfl hne
    | char _ ha' h' => rw [ha] at ha'; cases ha'
    | shift _ ha' h' =>
      rw [ha] at ha'; cases ha'
      exact ih h'

theorem Chars.inv {A : Entry} {is is' : IState} {inp : List Byte} {cs : List Nat}
    (hI : A.decOK.Inv is) (h : Chars A.atom is inp cs is') : A.decOK.Inv is' := by
  induction h with
  | nil is => exact hI
  | char hne ha _ ih => exact ih (A.decOK.char_ok _ _ _ _ _ hI hne ha).1
  | shift hne ha _ ih => exact ih (A.decOK.shift_ok _ _ _ _ hI hne ha).1

theorem valid_iff_chars {atom} {is : IState} {inp : List Byte} :
    Valid atom is inp ↔ ∃ cs is', Chars atom is inp cs is' := by
  constructor
  · intro h
    induction h with
    | nil is => exact ⟨_, _, .nil is⟩
    | char hne ha _ ih => obtain ⟨cs, is', h⟩ := ih; exact ⟨_, _, .char hne ha h⟩
    | shift hne ha _ ih => obtain ⟨cs, is', h⟩ := ih; exact ⟨_, _, .shift hne ha h⟩
  · rintro ⟨cs, is', h⟩
    induction h with
    | nil is => exact .nil _
    | char hne ha _ ih => exact .char hne ha ih
    | shift hne ha _ ih => exact .shift hne ha ih

/-! ## Everything that is written -/

/-- `Emits c os e os'`: the bytes `e` are encodings of characters and returns to the initial state, one
after the other. -/
inductive Emits (c : Conv) : Nat → List Byte → Nat → Prop
  | nil (os) : Emits c os [] os
  | char {os wc bs os1 i e os'} : encChar c.enc c.discard os wc = some (bs, os1, i) →
      Emits c os1 e os' → Emits c os (bs ++ e) os'
  | reset {os e os'} : Emits c 0 e os' → Emits c os (c.enc.tail os ++ e) os'

variable {c : Conv}

theorem Emits.append {os e os1 e' os'} (h1 : Emits c os e os1) (h2 : Emits c os1 e' os') :
    Emits c os (e ++ e') os' := by
  induction h1 with
  | nil => exact h2
  | char h _ ih => rw [List.append_assoc]; exact .char h (ih h2)
  | reset _ ih => rw [List.append_assoc]; exact .reset (ih h2)

theorem Wrote.emits {os e os'} (h : Wrote c os e os') : Emits c os e os' := by
  induction h with
  | nil => exact .nil _
  | cons h _ ih => exact .char h ih

theorem resetOut_emits (he : EncOK c.enc) {s : St} {b : Buf} {n : Nat} {r : CallRes}
    (hO : he.Inv s.os) (hn : b.null = false) (h : resetOut c s b n = .ok r) :
    ∃ e, r.buf.out = b.out ++ e ∧ Emits c s.os e r.st.os := by
  unfold resetOut at h
  cases hf : c.enc.reset with
  | none =>
    rw [hf] at h
    cases h
    refine ⟨[], by simp, ?_⟩
    have : Emits c s.os (c.enc.tail s.os ++ []) 0 := .reset (.nil _)
    simpa [Encoder.tail, hf, St.clear] using this
  | some f =>
    rw [hf] at h
    obtain ⟨r1, h1, h⟩ := bind_ok_inv h
    obtain ⟨b1, h2, h⟩ := bind_ok_inv h
    obtain ⟨r2, g1, g2, g3⟩ := he.reset_safe f hf s.os b.room.length hO
    rw [h1] at g1; cases g1
    have hst : b1 = { b with room := r1.ws ++ b.room.drop r1.ws.length } := (store_inv hn h2).2
    subst hst
    rcases g3 with g3 | ⟨g3, g4⟩
    · rw [g3, if_neg (by simp [WcRet.code])] at h
      obtain ⟨b2, h3, h⟩ := bind_ok_inv h
      simp only [WcRet.code, Int.toNat_natCast] at h3
      rw [advance_ws] at h3
      cases h3; cases h
      refine ⟨r1.ws, rfl, ?_⟩
      have : Emits c s.os (c.enc.tail s.os ++ []) 0 := .reset (.nil _)
      rw [reset_full he hf hO h1 (by rw [g3]; simp)] at this
      simpa [St.clear] using this
    · rw [g3, if_pos (by decide)] at h
      cases h
      refine ⟨[], by simp, ?_⟩
      simp only [g4]
      exact .nil _

theorem loopReset_emits (hd : DecOK c.dec c.unit) (he : EncOK c.enc) {s : St} {b : Buf} {r : CallRes}
    (_hI : hd.Inv s.is) (hO : he.Inv s.os) (hn : b.null = false) (h : loopReset c s b = .ok r) :
    ∃ e, r.buf.out = b.out ++ e ∧ Emits c s.os e r.st.os := by
  unfold loopReset at h
  rw [hn] at h
  simp only [Bool.false_eq_true, if_false] at h
  split at h
  · exact resetOut_emits he hO hn h
  · next f hf =>
    split at h
    · exact resetOut_emits (s := ⟨(f s.is).2, s.os⟩) he hO hn h
    · next wc hw =>
      obtain ⟨x, hx, h⟩ := bind_ok_inv h
      obtain ⟨p, os', b', bs, h1, h2⟩ := putChar_spec he hO hn ⟨x, hx⟩
      rw [hx] at h1; cases h1
      have hres := h2.res
      cases p with
      | done irr =>
        obtain ⟨e, h3, h4⟩ := resetOut_emits (s := ⟨(f s.is).2, os'⟩) he h2.inv (h2.null_eq.trans hn) h
        exact ⟨bs ++ e, by rw [h3, h2.out_eq, List.append_assoc], .char hres h4⟩
      | err x =>
        cases h
        cases x with
        | E2BIG =>
          obtain ⟨_, rfl, rfl⟩ := hres
          exact ⟨[], by simpa using h2.out_eq, .nil _⟩
        | EILSEQ =>
          obtain ⟨_, rfl, rfl⟩ := hres
          exact ⟨[], by simpa using h2.out_eq, .nil _⟩
        | EINVAL => exact absurd hres id
        | ENOMEM => exact absurd hres id

theorem iconv_emits (hd : DecOK c.dec c.unit) (he : EncOK c.enc) {s : St} {inp : Option (List Byte)}
    {b : Buf} {r : CallRes} (hI : hd.Inv s.is) (hO : he.Inv s.os) (hn : b.null = false)
    (h : iconv c s inp (some b) = .ok r) :
    ∃ e, r.buf.out = b.out ++ e ∧ Emits c s.os e r.st.os := by
  cases inp with
  | none => exact loopReset_emits hd he hI hO hn h
  | some inp =>
    obtain ⟨e, h1, h2⟩ := iconv_wrote hd he hI hO (fun _ => hn) h
    exact ⟨e, h1, h2.emits⟩

theorem staticFlush_emits (hd : DecOK c.dec c.unit) (he : EncOK c.enc) {s : St} {b : Buf}
    {x : Except Errno Unit × St × Buf} (hI : hd.Inv s.is) (hO : he.Inv s.os) (hn : b.null = false)
    (h : staticFlush c s b = .ok x) : ∃ e os', x.2.2.out = b.out ++ e ∧ Emits c s.os e os' := by
  unfold staticFlush at h
  obtain ⟨r, hr, h⟩ := bind_ok_inv h
  obtain ⟨e, h1, h2⟩ := iconv_emits hd he hI hO hn hr
  split at h <;> cases h <;> exact ⟨e, _, h1, h2⟩

theorem staticLoop_emits (hd : DecOK c.dec c.unit) (he : EncOK c.enc) : ∀ (fuel : Nat) (s : St)
    (inp : List Byte) (b : Buf) (x : Except Errno Unit × St × Buf), hd.Inv s.is → he.Inv s.os →
    b.null = false → staticLoop c fuel s inp b = .ok x →
    ∃ e os', x.2.2.out = b.out ++ e ∧ Emits c s.os e os' := by
  intro fuel
  induction fuel with
  | zero => intro s inp b x _ _ _ h; cases h
  | succ fuel ih =>
    intro s inp b x hI hO hn h
    unfold staticLoop at h
    split at h
    · exact staticFlush_emits hd he hI hO hn h
    · obtain ⟨r, hr, h⟩ := bind_ok_inv h
      obtain ⟨e, h1, h2⟩ := iconv_emits hd he hI hO hn hr
      obtain ⟨hI', hO'⟩ := iconv_inv hd he hI hO hr
      have hn' : r.buf.null = false := by
        obtain ⟨r', e', irr, g1, g2⟩ := iconv_spec hd he s inp b hI hO (fun _ => hn)
        rw [hr] at g1; cases g1
        exact g2.null_eq.trans hn
      split at h
      · obtain ⟨e', os', h3, h4⟩ := ih _ _ _ _ hI' hO' hn' h
        exact ⟨e ++ e', os', by rw [h3, h1, List.append_assoc], h2.append h4⟩
      · obtain ⟨e', os', h3, h4⟩ := staticFlush_emits hd he hI' hO' hn' h
        exact ⟨e ++ e', os', by rw [h3, h1, List.append_assoc], h2.append h4⟩
      · cases h; exact ⟨e, _, h1, h2⟩

end Reiconv
