import Verif.Cpp
import Verif.Props.Single

/-!
# C38: the C++ interface
-/

namespace Reiconv

/-- C38, partial. For every pair of encodings (the source one without byte order marks), every flag and
every input, the call ends in one of three ways. If the input can be converted and the string can be
allocated, it returns the whole converted text, or throws `std::system_error`, and the descriptor is
closed; it returns the text whenever no character has to be dropped or replaced. If the string cannot be
allocated, or if the input cannot be converted, the descriptor stays open and it is not
`std::system_error` that is thrown.
Missing: the last case, which contradicts the claim; see `C38_wrong_exception`. -/
theorem C38_cpp_convert_partial (A B : Entry) (discard : Bool) (hA : A.FixedOrder) (inp : List Byte)
    (maxSize : Nat) (hmax : maxSize < SIZE_MAX) (alloc : Nat → Bool) :
    ∃ r, cppConvert true maxSize alloc (A.conv B discard) inp = .ok r ∧
      (∀ out irr, Whole A.atom (A.conv B discard) St.init inp out irr →
        (out.length ≤ maxSize → alloc out.length = true →
          r.closed = true ∧ (r.out = .ret out ∨ ∃ e, r.out = .systemError e) ∧
          ((∃ o, Faithful A.atom (A.conv B discard) St.init inp o) → r.out = .ret out)) ∧
        (out.length ≤ maxSize → alloc out.length = false → r = ⟨.badAlloc, false⟩) ∧
        (maxSize < out.length → r = ⟨.lengthError, false⟩)) ∧
      ((∀ out irr, ¬ Whole A.atom (A.conv B discard) St.init inp out irr) →
        r = ⟨.lengthError, false⟩) := by
  obtain ⟨sz, s1, h1, hI1, hO1, ⟨n, out, irr, rfl, hw, rfl, h4⟩ | ⟨rfl, hno⟩⟩ :=
    size_whole A B discard inp
  · obtain rfl := h4 hA
    have hdet : ∀ out' irr', Whole A.atom (A.conv B discard) St.init inp out' irr' → out' = out :=
      fun out' irr' h => (whole_det h hw).1
    by_cases hm : maxSize < out.length
    · refine ⟨⟨.lengthError, false⟩, ?_, fun out' irr' h' => ?_, fun h => absurd hw (h _ _)⟩
      · unfold cppConvert
        rw [if_pos rfl, h1]
        simp only [Outcome.bind_ok]
        rw [if_pos hm]
      · obtain rfl := hdet _ _ h'
        exact ⟨fun h => absurd hm (by omega), fun h => absurd hm (by omega), fun _ => rfl⟩
    · by_cases ha : alloc out.length = true
      · obtain ⟨ret, s2, b, hx, hl, h5⟩ := static_whole A B discard St.init hI1 hO1 inp
          (List.replicate out.length 0) hw (Or.inl (by simp))
        rcases h5 with ⟨rfl, hb, _, _⟩ | ⟨rfl, _, _, h6⟩
        · have hroom : b.room = [] := by
            rw [hb, List.length_replicate] at hl
            exact List.length_eq_zero_iff.1 (by omega)
          refine ⟨⟨.ret out, true⟩, ?_, fun out' irr' h' => ?_, fun h => absurd hw (h _ _)⟩
          · unfold cppConvert
            rw [if_pos rfl, h1]
            simp only [Outcome.bind_ok]
            rw [if_neg hm, if_pos ha, hx]
            simp only [Outcome.bind_ok, hb, hroom, List.append_nil]
          · obtain rfl := hdet _ _ h'
            exact ⟨fun _ _ => ⟨rfl, .inl rfl, fun _ => rfl⟩, fun _ h => absurd (ha.symm.trans h) (by decide),
              fun h => absurd h hm⟩
        · refine ⟨⟨.systemError .E2BIG, true⟩, ?_, fun out' irr' h' => ?_,
            fun h => absurd hw (h _ _)⟩
          · unfold cppConvert
            rw [if_pos rfl, h1]
            simp only [Outcome.bind_ok]
            rw [if_neg hm, if_pos ha, hx]
            simp only [Outcome.bind_ok]
          · obtain rfl := hdet _ _ h'
            refine ⟨fun _ _ => ⟨rfl, .inr ⟨_, rfl⟩, ?_⟩, fun _ h => absurd (ha.symm.trans h) (by decide),
              fun h => absurd h hm⟩
            rintro ⟨o, ho⟩
            have := h6 o ho
            rw [List.length_replicate] at this
            omega
      · refine ⟨⟨.badAlloc, false⟩, ?_, fun out' irr' h' => ?_, fun h => absurd hw (h _ _)⟩
        · unfold cppConvert
          rw [if_pos rfl, h1]
          simp only [Outcome.bind_ok]
          rw [if_neg hm, if_neg ha]
        · obtain rfl := hdet _ _ h'
          exact ⟨fun _ h => absurd h ha, fun _ _ => rfl, fun h => absurd h hm⟩
  · refine ⟨⟨.lengthError, false⟩, ?_, fun out irr h => absurd h (hno _ _), fun _ => rfl⟩
    unfold cppConvert
    rw [if_pos rfl, h1]
    simp only [Outcome.bind_ok]
    rw [if_pos hmax]

/-- C38 is violated by every input that is not valid in the source encoding: the exception is
`std::length_error`, and the descriptor is never closed. For every pair of encodings, including those
with byte order marks. -/
theorem C38_wrong_exception (A B : Entry) (inp : List Byte) (hinv : ¬ Valid A.atom IState.init inp)
    (maxSize : Nat) (hmax : maxSize < SIZE_MAX) (alloc : Nat → Bool) :
    cppConvert true maxSize alloc (A.conv B false) inp = .ok ⟨.lengthError, false⟩ := by
  obtain ⟨s1, h1, _⟩ := (C12_strict_rejects_invalid A B St.init (.init _) inp).2.2 hinv
  unfold cppConvert
  rw [if_pos rfl, h1]
  simp only [Outcome.bind_ok]
  rw [if_pos hmax]

/-- "é" from Latin-1 to UTF-8; and an invalid byte. -/
example : cppConvert true 1000 (fun _ => true) (iso8859_1_entry.conv utf8_entry false) [0xE9] =
    .ok ⟨.ret [0xC3, 0xA9], true⟩ := by decide +kernel
example : cppConvert true 1000 (fun _ => true) (utf8_entry.conv iso8859_1_entry false) [0xE9] =
    .ok ⟨.lengthError, false⟩ := by decide +kernel

/-- Encodings are constructed exactly from known names: unknown ones throw `std::invalid_argument`. -/
theorem C38_encoding (index : Int) : encodingOf index = none ↔ index = -1 := by
  unfold encodingOf; split <;> simp [*]

end Reiconv
