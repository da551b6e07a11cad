import Verif.LookupProofs
import Verif.NameSpec
import Verif.Gen.NamePos

/-!
# The declared names and the hash table, checked against each other
-/

namespace Reiconv

/-- Kernel check: every declared name is in the hash table at the given position, or is one of
`lostNames`. -/
def declaredCheck : Nat → List (List String) → List (List Nat) → Bool
  | i, ns :: nss, ps :: pss =>
    (ns.zip ps).all (fun x => decide (aliasAt x.2 = some (x.1, i)) || decide ((x.1, i) ∈ lostNames)) &&
      Nat.beq ns.length ps.length && declaredCheck (i + 1) nss pss
  | _, [], [] => true
  | _, _, _ => false

theorem declaredCheck_ok : declaredCheck 0 declaredNames declaredPos = true := by decide +kernel

theorem declaredCheck_sound {i : Nat} {nss pss} (h : declaredCheck i nss pss = true) :
    ∀ j ns, nss[j]? = some ns → ∀ n ∈ ns, Registered n (i + j) ∨ (n, i + j) ∈ lostNames := by
  induction nss generalizing i pss with
  | nil => simp
  | cons ns nss ih =>
    cases pss with
    | nil => simp [declaredCheck] at h
    | cons ps pss =>
      simp only [declaredCheck, Bool.and_eq_true, List.all_eq_true, Bool.or_eq_true,
        decide_eq_true_eq] at h
      obtain ⟨⟨h1, h2⟩, h3⟩ := h
      have h2 := Nat.eq_of_beq_eq_true h2
      intro j ns' hj n hn
      cases j with
      | zero =>
        simp only [List.getElem?_cons_zero, Option.some.injEq] at hj
        subst hj
        obtain ⟨k, hk, rfl⟩ := List.getElem_of_mem hn
        have hz : (ns[k], ps[k]) ∈ ns.zip ps := by
          rw [List.mem_iff_getElem]
          exact ⟨k, by simp [List.length_zip]; omega, by simp⟩
        rcases h1 _ hz with h | h
        · exact .inl ⟨_, aliasAt_mem h⟩
        · exact .inr h
      | succ j =>
        rw [List.getElem?_cons_succ] at hj
        have := ih h3 j ns' hj n hn
        rwa [show i + 1 + j = i + (j + 1) by omega] at this

theorem declared_registered {n : String} {i : Nat} (h : Declared n i) (hl : (n, i) ∉ lostNames) :
    Registered n i := by
  obtain ⟨l, hl', hn⟩ := h
  have := declaredCheck_sound declaredCheck_ok i l hl' n hn
  rw [Nat.zero_add] at this
  exact this.resolve_right hl

theorem registered_declared_check : ∀ r ∈ aliasRows,
    (match declaredNames[r.2.2]? with | some l => decide (r.2.1 ∈ l) | none => false) = true ∨
    r.2 ∈ extraNames := by
  decide +kernel

theorem registered_declared {n : String} {i : Nat} (h : Registered n i) :
    Declared n i ∨ (n, i) ∈ extraNames := by
  obtain ⟨p, hp⟩ := h
  rcases registered_declared_check _ hp with h | h
  · left
    simp only at h
    cases hl : declaredNames[i]? with
    | none => rw [hl] at h; cases h
    | some l => rw [hl] at h; exact ⟨l, hl, by simpa using h⟩
  · exact .inr h

end Reiconv
