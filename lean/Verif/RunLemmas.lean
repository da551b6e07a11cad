import Verif.Contract

/-!
# Runs: determinism, totality, composition
-/

namespace Reiconv

variable {atom : IState → List Byte → Atom} {unit : Nat} {discard : Bool}
  {ec : Nat → Nat → Option (List Byte × Nat × Nat)}

/-- What a run does once the next item is known to be a character. -/
def CharCont (atom : IState → List Byte → Atom) (unit : Nat) (discard : Bool)
    (ec : Nat → Nat → Option (List Byte × Nat × Nat)) (os wc : Nat) (is : IState)
    (inp : List Byte) (out : List Byte) (irr : Nat) (fin : Final) : Prop :=
  (∃ bs os' i out' irr', ec os wc = some (bs, os', i) ∧
    RunsG atom unit discard ec ⟨is, os'⟩ inp out' irr' fin ∧ out = bs ++ out' ∧ irr = i + irr') ∨
  (ec os wc = none ∧ out = [] ∧ irr = 0 ∧ fin = .eilseq)

theorem runs_nil {s out irr fin} :
    RunsG atom unit discard ec s [] out irr fin ↔ out = [] ∧ irr = 0 ∧ fin = .done s := by
  constructor
  · intro h; cases h <;> first | exact ⟨rfl, rfl, rfl⟩ | contradiction
  · rintro ⟨rfl, rfl, rfl⟩; exact .done s

theorem runs_more {s inp out irr fin} (hne : inp ≠ []) (ha : atom s.is inp = .more) :
    RunsG atom unit discard ec s inp out irr fin ↔ out = [] ∧ irr = 0 ∧ fin = .einval s inp := by
  constructor
  · intro h; cases h <;> simp_all
  · rintro ⟨rfl, rfl, rfl⟩; exact .more hne ha

theorem runs_shift {s inp n is out irr fin} (hne : inp ≠ []) (ha : atom s.is inp = .shift n is) :
    RunsG atom unit discard ec s inp out irr fin ↔ RunsG atom unit discard ec ⟨is, s.os⟩ (inp.drop n) out irr fin := by
  constructor
  · intro h; cases h <;> simp_all
  · intro h; exact .shift hne ha h

theorem runs_ilseq {s inp out irr fin} (hne : inp ≠ []) (ha : atom s.is inp = .ilseq) :
    RunsG atom unit discard ec s inp out irr fin ↔
      (discard = false ∧ out = [] ∧ irr = 0 ∧ fin = .eilseq) ∨
      (discard = true ∧ RunsG atom unit discard ec s (inp.drop unit) out irr fin) := by
  constructor
  · intro h; cases h <;> simp_all
  · rintro (⟨hd, rfl, rfl, rfl⟩ | ⟨hd, h⟩)
    · exact .stop hne ha hd
    · exact .skip hne ha hd h

theorem runs_char {s inp wc n is out irr fin} (hne : inp ≠ [])
    (ha : atom s.is inp = .char wc n is) :
    RunsG atom unit discard ec s inp out irr fin ↔ CharCont atom unit discard ec s.os wc is (inp.drop n) out irr fin := by
  constructor
  · intro h
    cases h with
    | char hne' ha' he hr =>
      rw [ha] at ha'; cases ha'
      exact Or.inl ⟨_, _, _, _, _, he, hr, rfl, rfl⟩
    | unenc hne' ha' he =>
      rw [ha] at ha'; cases ha'
      exact Or.inr ⟨he, rfl, rfl, rfl⟩
    | done => contradiction
    | more _ ha' => rw [ha] at ha'; cases ha'
    | stop _ ha' _ => rw [ha] at ha'; cases ha'
    | skip _ ha' _ _ => rw [ha] at ha'; cases ha'
    | shift _ ha' _ => rw [ha] at ha'; cases ha'
  · rintro (⟨bs, os', i, out', irr', he, hr, rfl, rfl⟩ | ⟨he, rfl, rfl, rfl⟩)
    · exact .char hne ha he hr
    · exact .unenc hne ha he

/-- A run is determined by its start. -/
theorem runs_det {s inp o i f} (h : RunsG atom unit discard ec s inp o i f) :
    ∀ {o' i' f'}, RunsG atom unit discard ec s inp o' i' f' → o = o' ∧ i = i' ∧ f = f' := by
  induction h with
  | done s =>
    intro o' i' f' h'; rw [runs_nil] at h'; obtain ⟨rfl, rfl, rfl⟩ := h'; exact ⟨rfl, rfl, rfl⟩
  | more hne ha =>
    intro o' i' f' h'; rw [runs_more hne ha] at h'; obtain ⟨rfl, rfl, rfl⟩ := h'
    exact ⟨rfl, rfl, rfl⟩
  | stop hne ha hd =>
    intro o' i' f' h'; rw [runs_ilseq hne ha] at h'; simp [hd] at h'
    obtain ⟨rfl, rfl, rfl⟩ := h'; exact ⟨rfl, rfl, rfl⟩
  | skip hne ha hd _ ih =>
    intro o' i' f' h'; rw [runs_ilseq hne ha] at h'
    rcases h' with ⟨h0, _⟩ | ⟨_, h'⟩
    · rw [hd] at h0; cases h0
    · exact ih h'
  | shift hne ha _ ih =>
    intro o' i' f' h'; rw [runs_shift hne ha] at h'; exact ih h'
  | char hne ha he _ ih =>
    intro o' i' f' h'; rw [runs_char hne ha] at h'
    rcases h' with ⟨bs, os', j, out', irr', he', hr, rfl, rfl⟩ | ⟨he', _⟩
    · rw [he] at he'; cases he'
      obtain ⟨rfl, rfl, rfl⟩ := ih hr; exact ⟨rfl, rfl, rfl⟩
    · rw [he] at he'; cases he'
  | unenc hne ha he =>
    intro o' i' f' h'; rw [runs_char hne ha] at h'
    rcases h' with ⟨bs, os', j, out', irr', he', hr, rfl, rfl⟩ | ⟨he', rfl, rfl, rfl⟩
    · rw [he] at he'; cases he'
    · exact ⟨rfl, rfl, rfl⟩

/-- Progress measure of a run. -/
def mu (pend : Nat → Bool) (is : IState) (inp : List Byte) : Nat :=
  2 * inp.length + (if pend is.st then 1 else 0)

theorem mu_lt {pend : Nat → Bool} {is is' : IState} {inp : List Byte} {n : Nat}
    (hn : n ≤ inp.length) (h0 : n = 0 → pend is.st = true ∧ pend is'.st = false) :
    mu pend is' (inp.drop n) < mu pend is inp := by
  unfold mu
  by_cases hz : n = 0
  · obtain ⟨h1, h2⟩ := h0 hz
    subst hz; simp [h1, h2]
  · simp only [List.length_drop]
    split <;> split <;> omega

/-- From every state satisfying the contract invariant a run exists. -/
theorem runs_total {D : Decoder} (hd : DecOK D unit) :
    ∀ (m : Nat) (s : St) (inp : List Byte), hd.Inv s.is → mu hd.pend s.is inp ≤ m →
      ∃ o i f, RunsG hd.atom unit discard ec s inp o i f := by
  intro m
  induction m with
  | zero =>
    intro s inp hI hm
    have : inp = [] := by
      unfold mu at hm; cases inp with
      | nil => rfl
      | cons a l => simp at hm
    subst this; exact ⟨_, _, _, .done s⟩
  | succ m ih =>
    intro s inp hI hm
    by_cases hne : inp = []
    · subst hne; exact ⟨_, _, _, .done s⟩
    cases ha : hd.atom s.is inp with
    | more => exact ⟨_, _, _, .more hne ha⟩
    | ilseq =>
      by_cases hdis : discard = false
      · exact ⟨_, _, _, .stop hne ha hdis⟩
      · have hdis : discard = true := by simpa using hdis
        have hu := hd.ilseq_ok _ _ hI hne ha
        have hp := hd.unit_pos
        have : mu hd.pend s.is (inp.drop unit) ≤ m := by
          have hlt : mu hd.pend s.is (inp.drop unit) < mu hd.pend s.is inp := by
            unfold mu; simp only [List.length_drop]; omega
          omega
        obtain ⟨o, i, f, h⟩ := ih s (inp.drop unit) hI this
        exact ⟨o, i, f, .skip hne ha hdis h⟩
    | shift n is' =>
      obtain ⟨hI', hn, h0⟩ := hd.shift_ok _ _ _ _ hI hne ha
      have := mu_lt hn h0
      obtain ⟨o, i, f, h⟩ := ih ⟨is', s.os⟩ (inp.drop n) hI' (by simp only; omega)
      exact ⟨o, i, f, .shift hne ha h⟩
    | char wc n is' =>
      obtain ⟨hI', hn, h0⟩ := hd.char_ok _ _ _ _ _ hI hne ha
      have := mu_lt hn h0
      cases he : ec s.os wc with
      | none => exact ⟨_, _, _, .unenc hne ha he⟩
      | some x =>
        obtain ⟨bs, os, i⟩ := x
        obtain ⟨o, i', f, h⟩ := ih ⟨is', os⟩ (inp.drop n) hI' (by simp only; omega)
        exact ⟨_, _, _, .char hne ha he h⟩

theorem drop_append_le {α : Type} (n : Nat) (a b : List α) (h : n ≤ a.length) :
    (a ++ b).drop n = a.drop n ++ b := by
  rw [List.drop_append, Nat.sub_eq_zero_of_le h, List.drop_zero]

/-- Converting `a` completely and then `b` is converting `a ++ b`. -/
theorem runs_append {D : Decoder} (hd : DecOK D unit) {s a o i fin}
    (h : RunsG hd.atom unit discard ec s a o i fin) (hI : hd.Inv s.is) :
    ∀ s', fin = .done s' → ∀ {b o' i' f'}, RunsG hd.atom unit discard ec s' b o' i' f' →
      RunsG hd.atom unit discard ec s (a ++ b) (o ++ o') (i + i') f' := by
  induction h with
  | done s => rintro s' ⟨⟩ b o' i' f' h'; simpa using h'
  | more _ _ => rintro s' ⟨⟩
  | stop _ _ _ => rintro s' ⟨⟩
  | unenc _ _ _ => rintro s' ⟨⟩
  | @skip s inp _ _ _ hne ha hdis _ ih =>
    intro s' hs' b o' i' f' h'
    have hx := hd.ext _ _ b hI hne (by rw [ha]; simp)
    have hu := hd.ilseq_ok _ _ hI hne ha
    refine .skip (by simp [hne]) (hx.trans ha) hdis ?_
    rw [drop_append_le _ _ _ hu]; exact ih hI s' hs' h'
  | @shift s inp n is _ _ _ hne ha _ ih =>
    intro s' hs' b o' i' f' h'
    have hx := hd.ext _ _ b hI hne (by rw [ha]; simp)
    obtain ⟨hI', hn, _⟩ := hd.shift_ok _ _ _ _ hI hne ha
    refine .shift (by simp [hne]) (hx.trans ha) ?_
    rw [drop_append_le _ _ _ hn]; exact ih hI' s' hs' h'
  | @char s inp wc n is bs os j _ _ _ hne ha he _ ih =>
    intro s' hs' b o' i' f' h'
    have hx := hd.ext _ _ b hI hne (by rw [ha]; simp)
    obtain ⟨hI', hn, _⟩ := hd.char_ok _ _ _ _ _ hI hne ha
    rw [List.append_assoc, Nat.add_assoc]
    refine .char (by simp [hne]) (hx.trans ha) he ?_
    rw [drop_append_le _ _ _ hn]; exact ih hI' s' hs' h'

/-- Converting `a` up to an incomplete rest and then the rest followed by `b` is converting
`a ++ b`. -/
theorem runs_append_einval {D : Decoder} (hd : DecOK D unit) {s a o i fin}
    (h : RunsG hd.atom unit discard ec s a o i fin) (hI : hd.Inv s.is) :
    ∀ s' rest, fin = .einval s' rest → ∀ {b o' i' f'}, RunsG hd.atom unit discard ec s' (rest ++ b) o' i' f' →
      RunsG hd.atom unit discard ec s (a ++ b) (o ++ o') (i + i') f' := by
  induction h with
  | done s => rintro s' rest ⟨⟩
  | more _ _ => rintro s' rest ⟨⟩ b o' i' f' h'; simpa using h'
  | stop _ _ _ => rintro s' rest ⟨⟩
  | unenc _ _ _ => rintro s' rest ⟨⟩
  | @skip s inp _ _ _ hne ha hdis _ ih =>
    intro s' rest hs' b o' i' f' h'
    have hx := hd.ext _ _ b hI hne (by rw [ha]; simp)
    have hu := hd.ilseq_ok _ _ hI hne ha
    refine .skip (by simp [hne]) (hx.trans ha) hdis ?_
    rw [drop_append_le _ _ _ hu]; exact ih hI s' rest hs' h'
  | @shift s inp n is _ _ _ hne ha _ ih =>
    intro s' rest hs' b o' i' f' h'
    have hx := hd.ext _ _ b hI hne (by rw [ha]; simp)
    obtain ⟨hI', hn, _⟩ := hd.shift_ok _ _ _ _ hI hne ha
    refine .shift (by simp [hne]) (hx.trans ha) ?_
    rw [drop_append_le _ _ _ hn]; exact ih hI' s' rest hs' h'
  | @char s inp wc n is bs os j _ _ _ hne ha he _ ih =>
    intro s' rest hs' b o' i' f' h'
    have hx := hd.ext _ _ b hI hne (by rw [ha]; simp)
    obtain ⟨hI', hn, _⟩ := hd.char_ok _ _ _ _ _ hI hne ha
    rw [List.append_assoc, Nat.add_assoc]
    refine .char (by simp [hne]) (hx.trans ha) he ?_
    rw [drop_append_le _ _ _ hn]; exact ih hI' s' rest hs' h'

/-- An error found in `a` is found in `a ++ b`. -/
theorem runs_append_eilseq {D : Decoder} (hd : DecOK D unit) {s a o i fin}
    (h : RunsG hd.atom unit discard ec s a o i fin) (hI : hd.Inv s.is) (hf : fin = .eilseq) (b : List Byte) :
    RunsG hd.atom unit discard ec s (a ++ b) o i .eilseq := by
  induction h with
  | done s => cases hf
  | more _ _ => cases hf
  | @stop s inp hne ha hdis =>
    exact .stop (by simp [hne]) ((hd.ext _ _ b hI hne (by rw [ha]; simp)).trans ha) hdis
  | @unenc s inp _ _ _ hne ha he =>
    exact .unenc (by simp [hne]) ((hd.ext _ _ b hI hne (by rw [ha]; simp)).trans ha) he
  | @skip s inp _ _ _ hne ha hdis _ ih =>
    have hu := hd.ilseq_ok _ _ hI hne ha
    refine .skip (by simp [hne]) ((hd.ext _ _ b hI hne (by rw [ha]; simp)).trans ha) hdis ?_
    rw [drop_append_le _ _ _ hu]; exact ih hI hf
  | @shift s inp n is _ _ _ hne ha _ ih =>
    obtain ⟨hI', hn, _⟩ := hd.shift_ok _ _ _ _ hI hne ha
    refine .shift (by simp [hne]) ((hd.ext _ _ b hI hne (by rw [ha]; simp)).trans ha) ?_
    rw [drop_append_le _ _ _ hn]; exact ih hI' hf
  | @char s inp wc n is bs os j _ _ _ hne ha he _ ih =>
    obtain ⟨hI', hn, _⟩ := hd.char_ok _ _ _ _ _ hI hne ha
    refine .char (by simp [hne]) ((hd.ext _ _ b hI hne (by rw [ha]; simp)).trans ha) he ?_
    rw [drop_append_le _ _ _ hn]; exact ih hI' hf

/-! ### Batches -/

/-- Bounds and progress for the return value of a decoder call. -/
theorem batch_ok {D : Decoder} (hd : DecOK D unit) {is s r is'}
    (h : Batch hd.atom is s r is') (hI : hd.Inv is) (hne : s ≠ []) :
    hd.Inv is' ∧
    (∀ wc n, r = .char wc n → n ≤ s.length ∧ mu hd.pend is' (s.drop n) < mu hd.pend is s) ∧
    (∀ k, r = .ilseq k → k + unit ≤ s.length ∧ mu hd.pend is' (s.drop k) ≤ mu hd.pend is s) ∧
    (∀ k, r = .toofew k → k ≤ s.length ∧ mu hd.pend is' (s.drop k) ≤ mu hd.pend is s ∧
      (0 < k → mu hd.pend is' (s.drop k) < mu hd.pend is s)) := by
  induction h with
  | more ha => refine ⟨hI, ?_, ?_, ?_⟩ <;> simp
  | @ilseq is s ha =>
    have := hd.ilseq_ok _ _ hI hne ha
    refine ⟨hI, ?_, ?_, ?_⟩ <;> simp [this]
  | @char is s wc n is' ha =>
    obtain ⟨hI', hn, h0⟩ := hd.char_ok _ _ _ _ _ hI hne ha
    refine ⟨hI', ?_, ?_, ?_⟩
    · rintro _ _ ⟨⟩; exact ⟨hn, mu_lt hn h0⟩
    · simp
    · simp
  | @pause is s n is' hpos ha =>
    obtain ⟨hI', hn, h0⟩ := hd.shift_ok _ _ _ _ hI hne ha
    have := mu_lt hn h0
    refine ⟨hI', ?_, ?_, ?_⟩
    · simp
    · simp
    · rintro _ ⟨⟩; exact ⟨hn, by omega, fun _ => this⟩
  | @shift is s n is' r is'' ha hne' _ ih =>
    obtain ⟨hI', hn, h0⟩ := hd.shift_ok _ _ _ _ hI hne ha
    have hlt := mu_lt hn h0
    obtain ⟨hI'', h1, h2, h3⟩ := ih hI' hne'
    refine ⟨hI'', ?_, ?_, ?_⟩
    · intro wc m hm
      cases r with
      | char wc' m' =>
        simp only [MbRet.addCount, MbRet.char.injEq] at hm
        obtain ⟨rfl, rfl⟩ := hm
        obtain ⟨ha, hb⟩ := h1 _ _ rfl
        simp only [List.length_drop, List.drop_drop] at ha hb
        exact ⟨by omega, by omega⟩
      | ilseq => simp [MbRet.addCount] at hm
      | toofew => simp [MbRet.addCount] at hm
    · intro k hk
      cases r with
      | char wc' m' => simp [MbRet.addCount] at hk
      | ilseq k' =>
        simp only [MbRet.addCount, MbRet.ilseq.injEq] at hk
        subst hk
        obtain ⟨ha, hb⟩ := h2 _ rfl
        simp only [List.length_drop, List.drop_drop] at ha hb
        exact ⟨by omega, by omega⟩
      | toofew => simp [MbRet.addCount] at hk
    · intro k hk
      cases r with
      | char wc' m' => simp [MbRet.addCount] at hk
      | ilseq k' => simp [MbRet.addCount] at hk
      | toofew k' =>
        simp only [MbRet.addCount, MbRet.toofew.injEq] at hk
        subst hk
        obtain ⟨ha, hb, _⟩ := h3 _ rfl
        simp only [List.length_drop, List.drop_drop] at ha hb
        exact ⟨by omega, by omega, fun _ => by omega⟩

theorem addCount_char {r : MbRet} {j wc n : Nat} (h : r.addCount j = .char wc n) :
    ∃ m, r = .char wc m ∧ n = j + m := by
  cases r <;> simp [MbRet.addCount] at h ⊢; exact ⟨_, ⟨h.1, rfl⟩, h.2.symm⟩

theorem addCount_ilseq {r : MbRet} {j n : Nat} (h : r.addCount j = .ilseq n) :
    ∃ m, r = .ilseq m ∧ n = j + m := by
  cases r <;> simp [MbRet.addCount] at h ⊢; exact h.symm

theorem addCount_toofew {r : MbRet} {j n : Nat} (h : r.addCount j = .toofew n) :
    ∃ m, r = .toofew m ∧ n = j + m := by
  cases r <;> simp [MbRet.addCount] at h ⊢; exact h.symm

theorem runs_batch_char {is s r is'} (h : Batch atom is s r is') (hne : s ≠ []) :
    ∀ {wc n}, r = .char wc n → ∀ {os out irr fin},
      (RunsG atom unit discard ec ⟨is, os⟩ s out irr fin ↔ CharCont atom unit discard ec os wc is' (s.drop n) out irr fin) := by
  induction h with
  | more _ => rintro _ _ ⟨⟩
  | ilseq _ => rintro _ _ ⟨⟩
  | pause _ _ => rintro _ _ ⟨⟩
  | @char is s wc n is' ha =>
    rintro _ _ ⟨⟩ os out irr fin
    exact runs_char (s := ⟨is, os⟩) hne ha
  | @shift is s n is' r is'' ha hne' _ ih =>
    intro wc m hm os out irr fin
    obtain ⟨m', rfl, rfl⟩ := addCount_char hm
    rw [runs_shift (s := ⟨is, os⟩) hne ha, ih hne' rfl, List.drop_drop]

theorem runs_batch_ilseq {is s r is'} (h : Batch atom is s r is') (hne : s ≠ []) :
    ∀ {k}, r = .ilseq k → ∀ {os out irr fin},
      (RunsG atom unit discard ec ⟨is, os⟩ s out irr fin ↔
        (discard = false ∧ out = [] ∧ irr = 0 ∧ fin = .eilseq) ∨
        (discard = true ∧ RunsG atom unit discard ec ⟨is', os⟩ (s.drop (k + unit)) out irr fin)) := by
  induction h with
  | more _ => rintro _ ⟨⟩
  | char _ => rintro _ ⟨⟩
  | pause _ _ => rintro _ ⟨⟩
  | @ilseq is s ha =>
    rintro _ ⟨⟩ os out irr fin
    rw [runs_ilseq (s := ⟨is, os⟩) hne ha, Nat.zero_add]
  | @shift is s n is' r is'' ha hne' _ ih =>
    intro m hm os out irr fin
    obtain ⟨m', rfl, rfl⟩ := addCount_ilseq hm
    rw [runs_shift (s := ⟨is, os⟩) hne ha, ih hne' rfl, List.drop_drop, Nat.add_assoc]

theorem runs_batch_toofew {is s r is'} (h : Batch atom is s r is') (hne : s ≠ []) :
    ∀ {k}, r = .toofew k →
      (k = 0 → atom is' s = .more) ∧ ∀ {os out irr fin},
      (RunsG atom unit discard ec ⟨is, os⟩ s out irr fin ↔ RunsG atom unit discard ec ⟨is', os⟩ (s.drop k) out irr fin) := by
  induction h with
  | ilseq _ => rintro _ ⟨⟩
  | char _ => rintro _ ⟨⟩
  | more ha => rintro _ ⟨⟩; exact ⟨fun _ => ha, by simp⟩
  | @pause is s n is' hpos ha =>
    rintro _ ⟨⟩
    exact ⟨by omega, fun {os out irr fin} => runs_shift (s := ⟨is, os⟩) hne ha⟩
  | @shift is s n is' r is'' ha hne' _ ih =>
    intro m hm
    obtain ⟨m', rfl, rfl⟩ := addCount_toofew hm
    obtain ⟨h1, h2⟩ := ih hne' rfl
    refine ⟨?_, ?_⟩
    · intro h0
      have hn : n = 0 := by omega
      have := h1 (by omega)
      subst hn; simpa using this
    · intro os out irr fin
      rw [runs_shift (s := ⟨is, os⟩) hne ha, h2, List.drop_drop]

end Reiconv
