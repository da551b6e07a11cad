import Verif.Props.Pivot

/-!
# Reading with invalid input skipped

Helpers for C67 (`Props/Skip.lean`).
-/

namespace Reiconv

namespace Skip

/-- The bytes are a text of the encoding. -/
def Readable (A : Entry) (inp : List Byte) : Prop := ∃ cs, A.Text inp cs

/-- `Clean A x k r k'`: after the bytes `k` have been kept, the rest `r` of the input makes them `k'`, and its end `x` is left
over. The shortest beginning of the rest with which the bytes are a text is kept. If there is none, whatever follows the rest,
one unit of the encoding is dropped. What is left over is empty or has no beginning that could be kept. -/
inductive Clean (A : Entry) (x : List Byte) : List Byte → List Byte → List Byte → Prop
  | done {k} : (∀ p y, p ++ y = x → p ≠ [] → ¬ Readable A (k ++ p)) → Clean A x k x k
  | keep {k p r k'} : p ≠ [] → Readable A (k ++ p) → (∀ q y, p = q ++ y → q ≠ [] → y ≠ [] → ¬ Readable A (k ++ q)) →
      Clean A x (k ++ p) r k' → Clean A x k (p ++ r) k'
  | drop {k u r k'} : u.length = unitOf A.idx → u ≠ [] →
      (∀ p t y, p ++ y = u ++ r ++ t → p ≠ [] → ¬ Readable A (k ++ p)) → Clean A x k r k' → Clean A x k (u ++ r) k'

/-- An item is complete when the bytes it consists of have been read: what the decoder makes of them does not depend on
what comes behind them. A character that is delivered before its end was read is either one that is held (`kept`) and comes
out whatever follows, or one that comes out when the item after it has been seen to be a different one. -/
def Local (A : Entry) : Prop :=
  ∀ is s, A.decOK.Inv is → s ≠ [] →
    (∀ wc n is', A.atom is s = .char wc n is' →
      (1 ≤ n ∧ A.atom is (s.take n) ≠ .more) ∨
      (n = 0 ∧ (∀ u, u ≠ [] → A.atom is u = .char wc 0 is') ∧ A.dec.kept is = [wc] ∧ A.dec.kept is' = []) ∨
      (n = 0 ∧ ∃ m, 1 ≤ m ∧ m ≤ s.length ∧ A.atom is (s.take m) ≠ .more ∧
        ((∃ w is'', A.atom is' (s.take m) = .char w m is'') ∨ ∃ is'', A.atom is' (s.take m) = .shift m is''))) ∧
    (∀ n is', A.atom is s = .shift n is' → 1 ≤ n ∧ A.atom is (s.take n) ≠ .more)

/-- `Chars` with invalid units skipped, up to the end `x` of the input, which is empty or a sequence that is not complete. -/
inductive Reads (A : Entry) (x : List Byte) : IState → List Byte → List Nat → IState → Prop
  | nil {is} : x = [] ∨ A.atom is x = .more → Reads A x is x [] is
  | skip {is inp cs is'} : inp ≠ [] → A.atom is inp = .ilseq → Reads A x is (inp.drop A.unit) cs is' → Reads A x is inp cs is'
  | char {is inp wc n is' cs is''} : inp ≠ [] → A.atom is inp = .char wc n is' →
      Reads A x is' (inp.drop n) cs is'' → Reads A x is inp (wc :: cs) is''
  | shift {is inp n is' cs is''} : inp ≠ [] → A.atom is inp = .shift n is' →
      Reads A x is' (inp.drop n) cs is'' → Reads A x is inp cs is''

/-- The trivial writer. -/
def ec0 : Nat → Nat → Option (List Byte × Nat × Nat) := fun _ _ => some ([], 0, 0)

theorem reads_of_runs {A : Entry} {s : St} {inp o i f} (h : RunsG A.atom A.unit true ec0 s inp o i f) :
    ∃ x cs is', Reads A x s.is inp cs is' := by
  induction h with
  | done s => exact ⟨_, _, _, .nil (.inl rfl)⟩
  | more hne ha => exact ⟨_, _, _, .nil (.inr ha)⟩
  | stop _ _ h => cases h
  | unenc _ _ h => cases h
  | skip hne ha _ _ ih => obtain ⟨x, cs, is', h⟩ := ih; exact ⟨_, _, _, .skip hne ha h⟩
  | shift hne ha _ ih => obtain ⟨x, cs, is', h⟩ := ih; exact ⟨_, _, _, .shift hne ha h⟩
  | char hne ha _ _ ih => obtain ⟨x, cs, is', h⟩ := ih; exact ⟨_, _, _, .char hne ha h⟩

theorem reads_total (A : Entry) (inp : List Byte) : ∃ x cs is', Reads A x IState.init inp cs is' := by
  obtain ⟨o, i, f, h⟩ := runs_total (ec := ec0) (discard := true) A.decOK _ St.init inp A.decOK.inv_init (Nat.le_refl _)
  exact reads_of_runs h

/-- The run of a text with invalid units. -/
theorem runs_of_reads {A : Entry} {ec} {is is' : IState} {inp cs} (h : Reads A [] is inp cs is') : ∀ os,
    match writeAll ec os cs with
    | some (o, os', i) => RunsG A.atom A.unit true ec ⟨is, os⟩ inp o i (.done ⟨is', os'⟩)
    | none => ∃ o i, RunsG A.atom A.unit true ec ⟨is, os⟩ inp o i .eilseq := by
  induction h with
  | nil => intro os; exact .done _
  | skip hne ha _ ih =>
    intro os
    have := ih os
    split at this
    · exact .skip (s := ⟨_, os⟩) hne ha rfl this
    · obtain ⟨o, i, h⟩ := this
      exact ⟨o, i, .skip (s := ⟨_, os⟩) hne ha rfl h⟩
  | @char is inp wc n is' cs is'' hne ha _ ih =>
    intro os
    simp only [writeAll]
    cases hf : ec os wc with
    | none => exact ⟨_, _, .unenc (s := ⟨is, os⟩) hne ha hf⟩
    | some x =>
      obtain ⟨bs, os1, i⟩ := x
      have := ih os1
      simp only
      cases hr : writeAll ec os1 cs with
      | none =>
        rw [hr] at this
        obtain ⟨o, j, h⟩ := this
        exact ⟨_, _, .char (s := ⟨is, os⟩) hne ha hf h⟩
      | some y =>
        rw [hr] at this
        exact .char (s := ⟨is, os⟩) hne ha hf this
  | shift hne ha _ ih =>
    intro os
    have := ih os
    split at this
    · exact .shift (s := ⟨_, os⟩) hne ha this
    · obtain ⟨o, i, h⟩ := this
      exact ⟨o, i, .shift (s := ⟨_, os⟩) hne ha h⟩

/-- The conversion of a text with invalid units is what is written for its characters. -/
theorem whole_of_reads {A B : Entry} {inp : List Byte} {cs0 : List Nat} {is : IState} (h1 : Reads A [] IState.init inp cs0 is)
    (out : List Byte) (irr : Nat) : Whole A.atom (A.conv B true) St.init inp out irr ↔
      ∃ bs os, writeAll (encChar B.enc true) 0 (cs0 ++ A.dec.kept is) = some (bs, os, irr) ∧ out = bs ++ B.enc.tail os := by
  rw [writeAll_append]
  have hrun := runs_of_reads (ec := encChar B.enc true) h1 0
  unfold Whole
  cases hx : writeAll (encChar B.enc true) 0 cs0 with
  | none =>
    rw [hx] at hrun
    obtain ⟨o, i, hrun⟩ := hrun
    constructor
    · rintro ⟨o', i', s', fo, fi, h2, _⟩
      obtain ⟨_, _, h⟩ := runs_det hrun h2
      cases h
    · rintro ⟨bs, os, h, _⟩; cases h
  | some x =>
    obtain ⟨x, os1, i⟩ := x
    rw [hx] at hrun
    have hrun : Runs A.atom (A.conv B true) St.init inp x i (.done ⟨is, os1⟩) := hrun
    have hfin : ∀ fo fi, finish (A.conv B true) ⟨is, os1⟩ = some (fo, fi) ↔
        ∃ y os2, writeAll (encChar B.enc true) os1 (A.dec.kept is) = some (y, os2, fi) ∧ fo = y ++ B.enc.tail os2 := by
      intro fo fi
      rw [← pending_kept (A := A) (B := B) (discard := true) (os := os1)]
      unfold finish
      cases hp : (pending (A.conv B true) ⟨is, os1⟩).1 with
      | none =>
        simp only [Option.toList, writeAll, Option.some.injEq, Prod.mk.injEq]
        constructor
        · rintro ⟨rfl, rfl⟩; exact ⟨[], os1, ⟨rfl, rfl, rfl⟩, by simp [Entry.conv]⟩
        · rintro ⟨y, os2, ⟨rfl, rfl, rfl⟩, rfl⟩; exact ⟨by simp [Entry.conv], rfl⟩
      | some wc =>
        simp only [Option.toList, writeAll]
        show (match encChar B.enc true os1 wc with
          | some (bs, os, i) => some (bs ++ B.enc.tail os, i)
          | none => none) = some (fo, fi) ↔ _
        cases encChar B.enc true os1 wc with
        | none => simp
        | some z =>
          obtain ⟨bs, os, j⟩ := z
          simp only [Option.some.injEq, Prod.mk.injEq, List.append_nil, Nat.add_zero]
          constructor
          · rintro ⟨rfl, rfl⟩; exact ⟨bs, os, ⟨rfl, rfl, rfl⟩, rfl⟩
          · rintro ⟨y, os2, ⟨rfl, rfl, rfl⟩, rfl⟩; exact ⟨rfl, rfl⟩
    constructor
    · rintro ⟨o', i', s', fo, fi, h2, h3, rfl, rfl⟩
      obtain ⟨rfl, rfl, h⟩ := runs_det hrun h2
      cases h
      obtain ⟨y, os2, h4, rfl⟩ := (hfin fo fi).1 h3
      simp only [h4]
      exact ⟨_, _, rfl, by simp⟩
    · rintro ⟨bs, os, h2, rfl⟩
      simp only at h2
      cases hk : writeAll (encChar B.enc true) os1 (A.dec.kept is) with
      | none => rw [hk] at h2; cases h2
      | some z =>
        obtain ⟨y, os2, j⟩ := z
        rw [hk] at h2
        cases h2
        exact ⟨x, i, _, _, _, hrun, (hfin _ _).2 ⟨y, _, hk, rfl⟩, by simp, rfl⟩

/-- An input that ends in an incomplete sequence is not converted. -/
theorem cut_whole {A B : Entry} {x : List Byte} (hx : x ≠ []) {is is1 : IState} {inp : List Byte} {cs : List Nat}
    (h : Reads A x is inp cs is1) : ∀ (os : Nat) o i s', ¬ Runs A.atom (A.conv B true) ⟨is, os⟩ inp o i (.done s') := by
  induction h with
  | nil ha =>
    intro os o i s' h
    have h2 := runs_det (RunsG.more (unit := A.unit) (discard := true) (ec := encChar B.enc true) (s := ⟨_, os⟩) hx (ha.resolve_left hx)) h
    cases h2.2.2
  | @skip is inp cs is1 hne ha _ ih =>
    intro os o i s' h
    generalize hs : (⟨is, os⟩ : St) = s at h
    generalize hf : Final.done s' = f at h
    cases h with
    | done => exact hne rfl
    | more _ _ => cases hf
    | stop _ _ _ => cases hf
    | unenc _ _ _ => cases hf
    | skip _ _ _ h => subst hs; subst hf; exact ih os _ _ _ h
    | shift _ ha' _ => subst hs; rw [ha] at ha'; cases ha'
    | char _ ha' _ _ => subst hs; rw [ha] at ha'; cases ha'
  | @char is inp wc n is' cs is1 hne ha _ ih =>
    intro os o i s' h
    generalize hs : (⟨is, os⟩ : St) = s at h
    generalize hf : Final.done s' = f at h
    cases h with
    | done => exact hne rfl
    | more _ _ => cases hf
    | stop _ _ _ => cases hf
    | unenc _ _ _ => cases hf
    | skip _ ha' _ _ => subst hs; rw [ha] at ha'; cases ha'
    | shift _ ha' _ => subst hs; rw [ha] at ha'; cases ha'
    | char _ ha' _ h => subst hs; subst hf; rw [ha] at ha'; cases ha'; exact ih _ _ _ _ h
  | @shift is inp n is' cs is1 hne ha _ ih =>
    intro os o i s' h
    generalize hs : (⟨is, os⟩ : St) = s at h
    generalize hf : Final.done s' = f at h
    cases h with
    | done => exact hne rfl
    | more _ _ => cases hf
    | stop _ _ _ => cases hf
    | unenc _ _ _ => cases hf
    | skip _ ha' _ _ => subst hs; rw [ha] at ha'; cases ha'
    | shift _ ha' h => subst hs; subst hf; rw [ha] at ha'; cases ha'; exact ih _ _ _ _ h
    | char _ ha' _ _ => subst hs; rw [ha] at ha'; cases ha'

/-! ## What is kept is a text -/

theorem chars_split {A : Entry} {is is1 : IState} {k : List Byte} {cs : List Nat} (h : Chars A.atom is k cs is1)
    (hI : A.decOK.Inv is) : ∀ {p X is2}, Chars A.atom is (k ++ p) X is2 → ∃ ds, Chars A.atom is1 p ds is2 := by
  induction h with
  | nil is => intro p X is2 h; exact ⟨_, h⟩
  | @char is inp wc n is' cs is'' hne ha _ ih =>
    intro p X is2 h
    obtain ⟨h1, h2, _⟩ := A.decOK.char_ok _ _ _ _ _ hI hne ha
    have he : A.atom is (inp ++ p) = .char wc n is' :=
      (A.decOK.ext _ _ _ hI hne (by simp [show A.decOK.atom is inp = _ from ha])).trans ha
    generalize hz : inp ++ p = z at h he
    cases h with
    | nil => simp [hne] at hz
    | char _ ha' h =>
      rw [he] at ha'; cases ha'
      rw [← hz, drop_append_le _ _ _ h2] at h
      exact ih h1 h
    | shift _ ha' _ => rw [he] at ha'; cases ha'
  | @shift is inp n is' cs is'' hne ha _ ih =>
    intro p X is2 h
    obtain ⟨h1, h2, _⟩ := A.decOK.shift_ok _ _ _ _ hI hne ha
    have he : A.atom is (inp ++ p) = .shift n is' :=
      (A.decOK.ext _ _ _ hI hne (by simp [show A.decOK.atom is inp = _ from ha])).trans ha
    generalize hz : inp ++ p = z at h he
    cases h with
    | nil => simp [hne] at hz
    | char _ ha' h => rw [he] at ha'; cases ha'
    | shift _ ha' h =>
      rw [he] at ha'; cases ha'
      rw [← hz, drop_append_le _ _ _ h2] at h
      exact ih h1 h

/-- If `q` and `s` continue each other and both are decided then they are decided alike. -/
theorem atom_same {A : Entry} {is : IState} (hI : A.decOK.Inv is) {s q x t : List Byte} (hs : s ≠ []) (hq : q ≠ [])
    (he : q ++ x = s ++ t) (h1 : A.atom is s ≠ .more) (h2 : A.atom is q ≠ .more) : A.atom is q = A.atom is s := by
  have e1 := A.decOK.ext is s t hI hs h1
  have e2 := A.decOK.ext is q x hI hq h2
  rw [he] at e2
  exact e2.symm.trans e1

theorem chars_first {A : Entry} {is is' : IState} {p : List Byte} {ds : List Nat} (h : Chars A.atom is p ds is') (hp : p ≠ []) :
    A.atom is p ≠ .more ∧ A.atom is p ≠ .ilseq := by
  cases h with
  | nil => exact absurd rfl hp
  | char _ ha _ => exact ⟨by simp [ha], by simp [ha]⟩
  | shift _ ha _ => exact ⟨by simp [ha], by simp [ha]⟩

/-- The state `is`, in which the characters `cs` have been delivered and `s` is to be read, is that after the bytes `k`, or that
after one more character has come out. -/
def At (A : Entry) (k : List Byte) (is : IState) (cs : List Nat) (s : List Byte) : Prop :=
  Chars A.atom IState.init k cs is ∨
  ∃ is0 cs0 wc, Chars A.atom IState.init k cs0 is0 ∧ cs = cs0 ++ [wc] ∧
    (((∀ u, u ≠ [] → A.atom is0 u = .char wc 0 is) ∧ A.dec.kept is0 = [wc] ∧ A.dec.kept is = []) ∨
      ∃ m, 1 ≤ m ∧ m ≤ s.length ∧ A.atom is0 (s.take m) = .char wc 0 is ∧
        ((∃ w is'', A.atom is (s.take m) = .char w m is'') ∨ ∃ is'', A.atom is (s.take m) = .shift m is''))

theorem take_ne {s : List Byte} {m : Nat} (h : 1 ≤ m) (hs : s ≠ []) : s.take m ≠ [] := by
  cases s with
  | nil => exact absurd rfl hs
  | cons a s =>
    cases m with
    | zero => omega
    | succ m => simp

/-- What is decided after the item `s.take m` is the same with `s`. -/
theorem take_same {A : Entry} {is : IState} (hI : A.decOK.Inv is) {s : List Byte} {m : Nat} (hm : 1 ≤ m) (hs : s ≠ [])
    (h : A.atom is (s.take m) ≠ .more) : A.atom is s = A.atom is (s.take m) := by
  have := A.decOK.ext is (s.take m) (s.drop m) hI (take_ne hm hs) h
  rw [List.take_append_drop] at this
  exact this

/-- A text that continues `k` continues it from the state `is`. -/
theorem At.cont {A : Entry} {k : List Byte} {is : IState} {cs : List Nat} {s : List Byte} (h : At A k is cs s)
    {p x t : List Byte} (hp : p ≠ []) (he : p ++ x = s ++ t) (hr : Readable A (k ++ p)) :
    ∃ ds is', Chars A.atom is p ds is' := by
  obtain ⟨X, cs1, is1, h1, _⟩ := hr
  rcases h with h | ⟨is0, cs0, wc, h, _, h2⟩
  · obtain ⟨ds, h3⟩ := chars_split h A.decOK.inv_init h1
    exact ⟨_, _, h3⟩
  · obtain ⟨ds, h3⟩ := chars_split h A.decOK.inv_init h1
    have hI := Chars.inv A.decOK.inv_init h
    have hf := chars_first h3 hp
    have ha : A.atom is0 p = .char wc 0 is := by
      rcases h2 with ⟨h2, _⟩ | ⟨m, hm, hl, h2, _⟩
      · exact h2 p hp
      · have hs : s ≠ [] := by intro hc; rw [hc] at hl; simp at hl; omega
        have hts := take_same hI hm hs (by rw [h2]; simp)
        rw [← h2, ← hts]
        exact atom_same hI hs hp he (by rw [hts, h2]; simp) hf.1
    cases h3 with
    | nil => exact absurd rfl hp
    | char _ ha' h3 => rw [ha] at ha'; cases ha'; exact ⟨_, _, h3⟩
    | shift _ ha' h3 => rw [ha] at ha'; cases ha'

theorem At.inv {A : Entry} {k : List Byte} {is : IState} {cs : List Nat} {s : List Byte} (h : At A k is cs s) :
    A.decOK.Inv is := by
  rcases h with h | ⟨is0, cs0, wc, h, _, h2⟩
  · exact Chars.inv A.decOK.inv_init h
  · have hI := Chars.inv A.decOK.inv_init h
    rcases h2 with ⟨h2, _⟩ | ⟨m, hm, hl, h2, _⟩
    · exact (A.decOK.char_ok is0 [0] wc 0 is hI (by simp) (h2 _ (by simp))).1
    · exact (A.decOK.char_ok is0 (s.take m) wc 0 is hI (by
        intro hc
        have := congrArg List.length hc
        rw [List.length_take, List.length_nil] at this
        omega) h2).1

/-- An item after `k`. -/
theorem At.item {A : Entry} {k : List Byte} {is : IState} {cs : List Nat} {s : List Byte} (h : At A k is cs s)
    {n : Nat} {ds : List Nat} {is' : IState} (hn : 1 ≤ n) (hne : s ≠ [])
    (ha : A.atom is s ≠ .more ∧ (∀ wc is', A.atom is s = .char wc 0 is' → False) ∧
      ∀ m, (∃ w is'', A.atom is s = .char w m is'') ∨ (∃ is'', A.atom is s = .shift m is'') → m = n)
    (hc : Chars A.atom is (s.take n) ds is') : Chars A.atom IState.init (k ++ s.take n) (cs ++ ds) is' := by
  have hI' := h.inv
  rcases h with h | ⟨is0, cs0, wc, h, rfl, h2⟩
  · exact Chars.append A.decOK.inv_init h hc
  · rw [List.append_assoc]
    refine Chars.append A.decOK.inv_init h ?_
    refine .char (take_ne hn hne) ?_ (show Chars A.atom is ((s.take n).drop 0) ds is' from hc)
    rcases h2 with ⟨h2, _⟩ | ⟨m, hm, hl, h2, h3⟩
    · exact h2 _ (take_ne hn hne)
    · have e : m = n := by
        refine ha.2.2 m ?_
        have hd : A.atom is (s.take m) ≠ .more := by
          rcases h3 with ⟨w, i, h3⟩ | ⟨i, h3⟩ <;> rw [h3] <;> simp
        rw [take_same hI' hm hne hd]
        exact h3
      rw [← e]; exact h2

theorem At.text {A : Entry} {k : List Byte} {is : IState} {cs : List Nat} (h : At A k is cs []) :
    A.Text k (cs ++ A.dec.kept is) := by
  rcases h with h | ⟨is0, cs0, wc, h, rfl, h2⟩
  · exact ⟨_, _, h, rfl⟩
  · rcases h2 with ⟨_, h3, h4⟩ | ⟨m, hm, hl, _⟩
    · exact ⟨_, _, h, by rw [h3, h4, List.append_nil]⟩
    · simp at hl; omega

/-- One unit is skipped. -/
theorem At.drop {A : Entry} {k : List Byte} {is : IState} {cs : List Nat} {s : List Byte} (h : At A k is cs s) (hne : s ≠ [])
    (ha : A.atom is s = .ilseq) : (∀ p t y, p ++ y = s ++ t → p ≠ [] → ¬ Readable A (k ++ p)) ∧
      At A k is cs (s.drop A.unit) := by
  have hI := h.inv
  constructor
  · intro p t y he hp hr
    obtain ⟨ds, is', h3⟩ := h.cont hp he hr
    have hf := chars_first h3 hp
    have := atom_same hI hne hp he (by rw [ha]; simp) hf.1
    exact hf.2 (this.trans ha)
  · rcases h with h | ⟨is0, cs0, wc, h, rfl, h2⟩
    · exact .inl h
    · rcases h2 with h2 | ⟨m, hm, hl, h2, h3⟩
      · exact .inr ⟨_, _, _, h, rfl, .inl h2⟩
      · exfalso
        have hd : A.atom is (s.take m) ≠ .more := by
          rcases h3 with ⟨w, i, h3⟩ | ⟨i, h3⟩ <;> rw [h3] <;> simp
        rw [take_same hI hm hne hd] at ha
        rcases h3 with ⟨w, i, h3⟩ | ⟨i, h3⟩ <;> rw [h3] at ha <;> cases ha

/-- No shorter beginning of an item can be read. -/
theorem At.least {A : Entry} {k : List Byte} {is : IState} {cs : List Nat} {s : List Byte} (h : At A k is cs s) (hne : s ≠ [])
    {n : Nat} (hl : n ≤ s.length) (ha : A.atom is s ≠ .more)
    (hn : (∃ w is'', A.atom is s = .char w n is'') ∨ ∃ is'', A.atom is s = .shift n is'') :
    ∀ q x, s.take n = q ++ x → q ≠ [] → x ≠ [] → ¬ Readable A (k ++ q) := by
  intro q x he hq hx hr
  have he' : q ++ (x ++ s.drop n) = s ++ [] := by
    rw [← List.append_assoc, ← he, List.take_append_drop, List.append_nil]
  obtain ⟨ds, is', h3⟩ := h.cont hq he' hr
  have hf := chars_first h3 hq
  have e := atom_same h.inv hne hq he' ha hf.1
  have hlen : q.length < n := by
    have h5 := congrArg List.length he
    simp only [List.length_take, List.length_append] at h5
    have : x.length ≠ 0 := by simpa using hx
    omega
  rcases hn with ⟨w, i, hn⟩ | ⟨i, hn⟩
  · have := (A.decOK.char_ok _ _ _ _ _ h.inv hq (e.trans hn)).2.1
    omega
  · have := (A.decOK.shift_ok _ _ _ _ h.inv hq (e.trans hn)).2.1
    omega

/-- No beginning of an incomplete sequence can be read. -/
theorem At.more {A : Entry} {k : List Byte} {is : IState} {cs : List Nat} {s : List Byte} (h : At A k is cs s)
    (ha : s = [] ∨ A.atom is s = .more) : ∀ p y, p ++ y = s → p ≠ [] → ¬ Readable A (k ++ p) := by
  intro p y he hp hr
  rcases ha with rfl | ha
  · exact hp (List.append_eq_nil_iff.1 he).1
  · obtain ⟨ds, is', h3⟩ := h.cont (x := y) (t := []) hp (by rw [he, List.append_nil]) hr
    have hf := chars_first h3 hp
    have := A.decOK.ext is p y h.inv hp hf.1
    rw [he] at this
    exact hf.1 (this.symm.trans ha)

/-- Reading with skipping gives a text that was cleaned. -/
theorem reads_clean {A : Entry} (hL : Local A) {is is' : IState} {s : List Byte} {ds : List Nat} {x : List Byte}
    (h : Reads A x is s ds is') : ∀ k cs, At A k is cs s → ∃ k', Clean A x k s k' ∧ (x = [] → A.Text k' (cs ++ ds ++ A.dec.kept is')) := by
  induction h with
  | nil ha => intro k cs h; exact ⟨k, .done (h.more ha), fun hx => by subst hx; rw [List.append_nil]; exact h.text⟩
  | @skip is s ds is' hne ha _ ih =>
    intro k cs h
    obtain ⟨h1, h2⟩ := h.drop hne ha
    obtain ⟨k', h3, h4⟩ := ih k cs h2
    have hu := A.decOK.ilseq_ok _ _ h.inv hne ha
    refine ⟨k', ?_, h4⟩
    have e := List.take_append_drop A.unit s
    rw [← e]
    have hlt : (s.take A.unit).length = A.unit := by rw [List.length_take]; omega
    refine .drop (by rw [hlt, A.unit_eq]) ?_ (by rw [e]; exact h1) h3
    have := A.decOK.unit_pos
    exact take_ne this hne
  | @char is s wc n is1 ds is2 hne ha _ ih =>
    intro k cs h
    obtain ⟨hI1, hl, h0⟩ := A.decOK.char_ok _ _ _ _ _ h.inv hne ha
    rcases (hL is s h.inv hne).1 wc n is1 ha with ⟨hn, hd⟩ | ⟨rfl, h1, h2, h3⟩ | ⟨rfl, m, hm, hlm, h1, h2⟩
    · have hd' := take_same h.inv hn hne hd
      have hch : Chars A.atom is (s.take n) [wc] is1 :=
        .char (take_ne hn hne) (hd'.symm.trans ha) (by simp; exact .nil _)
      have h4 := h.item hn hne ⟨by rw [ha]; simp, by
          intro w i hc; rw [ha] at hc; cases hc; omega, by
          rintro m (⟨w, i, hc⟩ | ⟨i, hc⟩) <;> rw [ha] at hc <;> cases hc; rfl⟩ hch
      obtain ⟨k', h5, h6⟩ := ih (k ++ s.take n) (cs ++ [wc]) (.inl h4)
      refine ⟨k', ?_, by simpa using h6⟩
      rw [← List.take_append_drop n s]
      exact .keep (take_ne hn hne) ⟨_, _, _, h4, rfl⟩ (h.least hne hl (by rw [ha]; simp) (.inl ⟨_, _, ha⟩)) h5
    · have h4 : At A k is1 (cs ++ [wc]) s := by
        rcases h with h | ⟨is0, cs0, w, h, rfl, h5⟩
        · exact .inr ⟨_, _, _, h, rfl, .inl ⟨h1, h2, h3⟩⟩
        · exfalso
          have hp := (h0 rfl).1
          have hI0 := Chars.inv A.decOK.inv_init h
          rcases h5 with ⟨h5, _⟩ | ⟨m, hm, hlm, h5, _⟩
          · have := (A.decOK.char_ok _ _ _ _ _ hI0 hne (h5 s hne)).2.2 rfl
            rw [this.2] at hp; cases hp
          · have := (A.decOK.char_ok _ _ _ _ _ hI0 (take_ne hm hne) h5).2.2 rfl
            rw [this.2] at hp; cases hp
      obtain ⟨k', h5, h6⟩ := ih k (cs ++ [wc]) h4
      exact ⟨k', h5, by simpa using h6⟩
    · have h4 : At A k is1 (cs ++ [wc]) s := by
        have hts := take_same h.inv hm hne h1
        rcases h with h | ⟨is0, cs0, w, h, rfl, h5⟩
        · exact .inr ⟨_, _, _, h, rfl, .inr ⟨m, hm, hlm, hts.symm.trans ha, h2⟩⟩
        · exfalso
          have hp := (h0 rfl).1
          have hI0 := Chars.inv A.decOK.inv_init h
          rcases h5 with ⟨h5, _⟩ | ⟨m, hm, hlm, h5, _⟩
          · have := (A.decOK.char_ok _ _ _ _ _ hI0 hne (h5 s hne)).2.2 rfl
            rw [this.2] at hp; cases hp
          · have := (A.decOK.char_ok _ _ _ _ _ hI0 (take_ne hm hne) h5).2.2 rfl
            rw [this.2] at hp; cases hp
      obtain ⟨k', h5, h6⟩ := ih k (cs ++ [wc]) h4
      exact ⟨k', h5, by simpa using h6⟩
  | @shift is s n is1 ds is2 hne ha _ ih =>
    intro k cs h
    obtain ⟨hI1, hl, _⟩ := A.decOK.shift_ok _ _ _ _ h.inv hne ha
    obtain ⟨hn, hd⟩ := (hL is s h.inv hne).2 n is1 ha
    have hd' := take_same h.inv hn hne hd
    have hch : Chars A.atom is (s.take n) [] is1 :=
      .shift (take_ne hn hne) (hd'.symm.trans ha) (by simp; exact .nil _)
    have h4 := h.item hn hne ⟨by rw [ha]; simp, (by
        intro w i hc; rw [ha] at hc; cases hc), (by
        rintro m (⟨w, i, hc⟩ | ⟨i, hc⟩) <;> rw [ha] at hc <;> cases hc; rfl)⟩ hch
    rw [List.append_nil] at h4
    obtain ⟨k', h5, h6⟩ := ih (k ++ s.take n) cs (.inl h4)
    refine ⟨k', ?_, h6⟩
    rw [← List.take_append_drop n s]
    exact .keep (take_ne hn hne) ⟨_, _, _, h4, rfl⟩ (h.least hne hl (by rw [ha]; simp) (.inr ⟨_, ha⟩)) h5

/-- What is kept is determined, when nothing is left at the end. -/
theorem clean_det {A : Entry} {k r k1 : List Byte} (h : Clean A [] k r k1) : ∀ {k2}, Clean A [] k r k2 → k1 = k2 := by
  generalize hx : ([] : List Byte) = x at h ⊢
  induction h with
  | done =>
    intro k2 h
    generalize hz : x = z at h
    cases h with
    | done => rfl
    | keep hp _ _ _ => subst hx; simp at hz; exact absurd hz.1 hp
    | drop _ hp _ _ => subst hx; simp at hz; exact absurd hz.1 hp
  | @keep k p r k1 hp hr hm _ ih =>
    intro k2 h
    generalize hz : p ++ r = z at h
    cases h with
    | done => subst hx; simp at hz; exact absurd hz.1 hp
    | @keep _ p' r' _ hp' hr' hm' h =>
      have e : p = p' := by
        rcases List.append_eq_append_iff.1 hz with ⟨a, h1, h2⟩ | ⟨a, h1, h2⟩
        · cases a with
          | nil => simpa using h1.symm
          | cons b a => exact absurd hr (hm' p _ h1 hp (by simp))
        · cases a with
          | nil => simpa using h1
          | cons b a => exact absurd hr' (hm p' _ h1 hp' (by simp))
      subst e
      have := List.append_cancel_left hz
      subst this
      exact ih h
    | @drop _ x r' _ _ _ hn _ => exact absurd hr (hn p [] r (by rw [hz, List.append_nil]) hp)
  | @drop k u r k1 hl hu hn _ ih =>
    intro k2 h
    generalize hz : u ++ r = z at h
    cases h with
    | done => subst hx; simp at hz; exact absurd hz.1 hu
    | @keep _ p' r' _ hp' hr' hm' h => exact absurd hr' (hn p' [] r' (by rw [← hz, List.append_nil]) hp')
    | @drop _ x' r' _ hl' hx' hn' h =>
      obtain ⟨rfl, rfl⟩ := List.append_inj hz (hl.trans hl'.symm)
      exact ih h

end Skip

end Reiconv
