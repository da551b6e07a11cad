import Verif.Entry

/-!
# Lemmas about the one-shot functions
-/

namespace Reiconv

variable {c : Conv}

/-- What finishing writes is not empty unless nothing is written for the pending character. -/
theorem dry_or_live {hd : DecOK c.dec c.unit} {he : EncOK c.enc} (ht : EncTight c.enc he) {s : St}
    (hO : he.Inv s.os) :
    (∀ wc, (pending c s).1 = some wc → Dry c s.os wc) ∨
    ∃ fo fi, finish c s = some (fo, fi) ∧ 1 ≤ fo.length := by
  cases hp : (pending c s).1 with
  | none => exact Or.inl (by rintro wc ⟨⟩)
  | some wc =>
    have live : ∀ wc bs os, c.enc.full s.os wc = some (bs, os) → 1 ≤ (bs ++ c.enc.tail os).length ∨
        isTag wc = true ∧ c.enc.Silent s.os wc os := by
      intro wc bs os h
      rcases ht.live _ _ _ _ hO h with h1 | h1 | ⟨h1, _, h2⟩
      · have := List.length_pos_iff.mpr h1; rw [List.length_append]; exact .inl (by omega)
      · have := List.length_pos_iff.mpr h1; rw [List.length_append]; exact .inl (by omega)
      · exact .inr ⟨h1, h2⟩
    cases hf : c.enc.full s.os wc with
    | some x =>
      obtain ⟨bs, os⟩ := x
      rcases live _ _ _ hf with h | ⟨_, h⟩
      · exact Or.inr ⟨bs ++ c.enc.tail os, 0, by simp [finish, hp, encChar, hf], h⟩
      · exact Or.inl (by rintro _ ⟨⟩; exact .inr ⟨_, h⟩)
    | none =>
      cases htag : isTag wc with
      | true => exact Or.inl (by rintro _ ⟨⟩; exact .inl ⟨hf, Or.inl htag⟩)
      | false =>
        cases hdis : c.discard with
        | true => exact Or.inl (by rintro _ ⟨⟩; exact .inl ⟨hf, Or.inr (Or.inl hdis)⟩)
        | false =>
          cases hf2 : c.enc.full s.os 0xFFFD with
          | none => exact Or.inl (by rintro _ ⟨⟩; exact .inl ⟨hf, Or.inr (Or.inr hf2)⟩)
          | some x =>
            obtain ⟨bs, os⟩ := x
            exact Or.inr ⟨bs ++ c.enc.tail os, 1, by simp [finish, hp, encChar, hf, htag, hdis, hf2],
              (live _ _ _ hf2).resolve_right fun h => by cases h.1⟩

theorem ends_det {atom} {s : St} {inp o i s' o' i' s''} (h1 : Ends atom c s inp o i s')
    (h2 : Ends atom c s inp o' i' s'') : o = o' ∧ i = i' ∧ s' = s'' := by
  rcases h1 with h1 | ⟨_, h1⟩ <;> rcases h2 with h2 | ⟨_, h2⟩ <;>
    obtain ⟨rfl, rfl, h⟩ := runs_det h1 h2 <;> cases h <;> exact ⟨rfl, rfl, rfl⟩

theorem ends_inv (hd : DecOK c.dec c.unit) (he : EncOK c.enc) {s : St} {inp o i s'}
    (hI : hd.Inv s.is) (hO : he.Inv s.os) (h : Ends hd.atom c s inp o i s') :
    hd.Inv s'.is ∧ he.Inv s'.os := by
  rcases h with h | ⟨rest, h⟩
  · exact (runs_inv hd he h hI hO).1 _ rfl
  · have := (runs_inv hd he h hI hO).2 _ _ rfl
    exact ⟨this.1, this.2.1⟩

/-- `reiconv_convert_static_size` with a buffer that holds the whole conversion. -/
theorem convertStatic_spec' (hd : DecOK c.dec c.unit) (he : EncOK c.enc) (ht : EncTight c.enc he)
    (s : St) (inp : List Byte) (b : Buf) (hI : hd.Inv s.is) (hO : he.Inv s.os) (hn : b.null = false)
    (hz : ∀ o i s' fo fi, Ends hd.atom c s inp o i s' → finish c s' = some (fo, fi) →
      o.length + fo.length ≤ b.room.length ∨ c.dec.flushwc = none) :
    ∃ x e, convertStatic c s inp b = .ok x ∧ StaticPost c hd he s inp b x e := by
  refine convertStatic_spec hd he s inp b hI hO hn (convertStatic_safe hd he s inp b hI hO hn ?_)
  intro o i s' hends
  obtain ⟨_, hO'⟩ := ends_inv hd he hI hO hends
  rcases dry_or_live (hd := hd) ht hO' with h | ⟨fo, fi, h1, h2⟩
  · exact Or.inr h
  · rcases hz o i s' fo fi hends h1 with h | h
    · left; have := he.minRoom_le; omega
    · right; simp [pending, h]

/-- In discard mode everything can be written. -/
theorem encChar_discard {E : Encoder} {os wc : Nat} : encChar E true os wc ≠ none := by
  unfold encChar
  cases E.full os wc with
  | some x => simp
  | none => cases isTag wc <;> simp

theorem runs_discard {atom unit E} {s : St} {inp o i f}
    (h : RunsG atom unit true (encChar E true) s inp o i f) : f ≠ .eilseq := by
  induction h with
  | done s => simp
  | more _ _ => simp
  | stop _ _ h => cases h
  | unenc _ _ h => exact absurd h encChar_discard
  | skip _ _ _ _ ih => exact ih
  | shift _ _ _ ih => exact ih
  | char _ _ _ _ ih => exact ih

theorem finish_discard (h : c.discard = true) (s : St) : finish c s ≠ none := by
  unfold finish
  split
  · simp
  · next wc _ =>
    have := encChar_discard (E := c.enc) (os := s.os) (wc := wc)
    rw [← h] at this
    cases hx : encChar c.enc c.discard s.os wc with
    | none => exact absurd hx this
    | some x => simp

/-- A run in strict mode that reads everything reads valid items only. -/
theorem runs_valid {atom unit ec} {s : St} {inp o i f}
    (h : RunsG atom unit false ec s inp o i f) :
    (∀ s', f = .done s' → Valid atom s.is inp) ∧
    (∀ s' r, f = .einval s' r → Truncated atom s.is inp) := by
  induction h with
  | done s => exact ⟨fun _ _ => .nil _, by rintro _ _ ⟨⟩⟩
  | more hne ha => exact ⟨by rintro _ ⟨⟩, fun _ _ _ => .more hne ha⟩
  | stop _ _ _ => exact ⟨by rintro _ ⟨⟩, by rintro _ _ ⟨⟩⟩
  | unenc _ _ _ => exact ⟨by rintro _ ⟨⟩, by rintro _ _ ⟨⟩⟩
  | skip _ _ h _ _ => cases h
  | shift hne ha _ ih =>
    exact ⟨fun s' h => .shift hne ha (ih.1 s' h), fun s' r h => .shift hne ha (ih.2 s' r h)⟩
  | char hne ha _ _ ih =>
    exact ⟨fun s' h => .char hne ha (ih.1 s' h), fun s' r h => .char hne ha (ih.2 s' r h)⟩

/-- A truncated text is not converted completely. -/
theorem runs_truncated {atom unit ec discard} {is : IState} {inp} (ht : Truncated atom is inp) :
    ∀ {os o i f}, RunsG atom unit discard ec ⟨is, os⟩ inp o i f → ∀ s', f ≠ .done s' := by
  induction ht with
  | more hne ha =>
    intro os o i f h s'
    rw [runs_more hne ha] at h
    obtain ⟨_, _, rfl⟩ := h
    simp
  | shift hne ha _ ih =>
    intro os o i f h s'
    rw [runs_shift hne ha] at h
    exact ih h s'
  | char hne ha _ ih =>
    intro os o i f h s'
    rcases (runs_char hne ha).1 h with ⟨_, _, _, _, _, _, hr, _⟩ | ⟨_, _, _, rfl⟩
    · exact ih hr s'
    · simp

end Reiconv
