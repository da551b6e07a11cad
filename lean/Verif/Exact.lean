import Verif.Text

/-!
# Encodings whose decoder and encoder are inverse to each other
-/

namespace Reiconv

/-- `A` is reversible: the texts with the characters `cs` are exactly the output of its encoder for
`cs` (characters are 32 bit values). -/
def Entry.Exact (A : Entry) : Prop :=
  ∀ inp cs, A.Text inp cs ↔ (A.Encodes cs inp ∧ ∀ c ∈ cs, c < 4294967296)

section simple

variable {idx unit : Nat} {hu : unitOf idx = unit} {D : Decoder} {E : Encoder} {d : SimpleDec D unit}
  {e : SimpleEnc E}

theorem simple_kept (is : IState) : (simpleEntry idx unit hu d e).dec.kept is = [] := by
  unfold Decoder.kept
  show (match D.flushwc with | none => [] | some f => (f is).1.toList) = []
  rw [d.flush]

theorem simple_text {inp : List Byte} {cs : List Nat} :
    (simpleEntry idx unit hu d e).Text inp cs ↔
      Chars (atomOf d.g) IState.init inp cs IState.init := by
  unfold Entry.Text
  simp only [simple_kept, List.append_nil]
  constructor
  · rintro ⟨_, is, h, rfl⟩
    have := Chars.inv (A := simpleEntry idx unit hu d e) (Entry.decOK _).inv_init h
    rw [show is = IState.init from this] at h
    exact h
  · intro h; exact ⟨_, _, h, rfl⟩

theorem SimpleEnc.text_nil (os : Nat) : E.text os [] = some ([], os) := rfl

theorem SimpleEnc.text_cons (e : SimpleEnc E) {os c : Nat} {cs o} {os' : Nat} :
    E.text os (c :: cs) = some (o, os') ↔
      ∃ bs r, e.enc c = some bs ∧ E.text os cs = some (r, os') ∧ o = bs ++ r := by
  simp only [Encoder.text, e.rep_eq]
  cases e.enc c with
  | none => simp
  | some bs =>
    simp only [Option.map_some]
    cases E.text os cs with
    | none => simp
    | some x =>
      obtain ⟨r, os2⟩ := x
      simp only [Option.some.injEq, Prod.mk.injEq]
      constructor
      · rintro ⟨rfl, rfl⟩; exact ⟨_, _, rfl, ⟨rfl, rfl⟩, rfl⟩
      · rintro ⟨_, _, rfl, ⟨rfl, rfl⟩, rfl⟩; exact ⟨rfl, rfl⟩

theorem SimpleEnc.text_state (e : SimpleEnc E) {os os' : Nat} {cs o}
    (h : E.text os cs = some (o, os')) : os' = os := by
  induction cs generalizing o with
  | nil => cases h; rfl
  | cons c cs ih =>
    obtain ⟨_, _, _, h, _⟩ := e.text_cons.1 h
    exact ih h

theorem simple_encodes {cs : List Nat} {out : List Byte} :
    (simpleEntry idx unit hu d e).Encodes cs out ↔ E.text 0 cs = some (out, 0) := by
  unfold Entry.Encodes
  show (∃ bs os, E.text 0 cs = some (bs, os) ∧ out = bs ++ E.tail os) ↔ _
  simp only [e.tail_eq, List.append_nil]
  constructor
  · rintro ⟨bs, os, h, rfl⟩
    cases e.text_state h; exact h
  · intro h; exact ⟨_, _, h, rfl⟩

/-- Encodings given by a set of characters `P` and the bytes `f` of each of them. -/
theorem SimpleEnc.text_flatMap (e : SimpleEnc E) {P : Nat → Prop} [DecidablePred P]
    {f : Nat → List Byte} (he : ∀ wc, e.enc wc = if P wc then some (f wc) else none) {cs o} :
    E.text 0 cs = some (o, 0) ↔ (∀ c ∈ cs, P c) ∧ o = cs.flatMap f := by
  induction cs generalizing o with
  | nil => simp [Encoder.text, eq_comm]
  | cons c cs ih =>
    rw [e.text_cons, he]
    simp only [List.mem_cons, forall_eq_or_imp, List.flatMap_cons]
    constructor
    · rintro ⟨bs, r, h1, h2, rfl⟩
      split at h1
      · next hp =>
        cases h1
        obtain ⟨h3, rfl⟩ := ih.1 h2
        exact ⟨⟨hp, h3⟩, rfl⟩
      · cases h1
    · rintro ⟨⟨h1, h2⟩, rfl⟩
      exact ⟨f c, _, by rw [if_pos h1], ih.2 ⟨h2, rfl⟩, rfl⟩

theorem atomOf_shift {g is s n is'} : atomOf g is s ≠ .shift n is' := by
  unfold atomOf; split <;> simp

theorem simple_exact
    (h1 : ∀ wc bs t, wc < 4294967296 → e.enc wc = some bs → d.g (bs ++ t) = .char wc bs.length)
    (h2 : ∀ s wc n, s ≠ [] → d.g s = .char wc n → e.enc wc = some (s.take n) ∧ wc < 4294967296) :
    (simpleEntry idx unit hu d e).Exact := by
  intro inp cs
  rw [simple_text, simple_encodes]
  constructor
  · intro h
    have key : ∀ {is is' inp cs}, Chars (atomOf d.g) is inp cs is' →
        E.text 0 cs = some (inp, 0) ∧ ∀ c ∈ cs, c < 4294967296 := by
      intro is is' inp cs h
      induction h with
      | nil => exact ⟨rfl, by simp⟩
      | shift _ ha _ _ => exact absurd ha atomOf_shift
      | @char is inp wc n is' cs is'' hne ha _ ih =>
        have hg : d.g inp = .char wc n := by
          unfold atomOf at ha
          split at ha
          · next heq => cases ha; exact heq
          · cases ha
          · cases ha
        obtain ⟨h3, h4⟩ := h2 _ _ _ hne hg
        refine ⟨e.text_cons.2 ⟨_, _, h3, ih.1, (List.take_append_drop n inp).symm⟩, ?_⟩
        simp only [List.mem_cons, forall_eq_or_imp]
        exact ⟨h4, ih.2⟩
    exact key h
  · rintro ⟨h, hlt⟩
    induction cs generalizing inp with
    | nil => cases h; exact .nil _
    | cons c cs ih =>
      obtain ⟨bs, r, h3, h4, rfl⟩ := e.text_cons.1 h
      simp only [List.mem_cons, forall_eq_or_imp] at hlt
      have hbs := (e.len c bs h3).1
      have hg := h1 c bs r hlt.1 h3
      refine .char (by simp [hbs]) (by unfold atomOf; rw [hg]) ?_
      rw [List.drop_left]
      exact ih r h4 hlt.2

end simple

end Reiconv
