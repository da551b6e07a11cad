import Verif.Props.Comp

/-!
# C29: which texts CP1255, CP1258 and TCVN read

A text is read from left to right, each time the longest byte sequence of a list. The lists are the published tables, with the
differences given here.
-/

namespace Reiconv

/-! ## Specification -/

/-- The text `inp` is `cs` if from left to right each time the longest byte sequence listed in `T` is taken. -/
inductive Longest (T : List (List Byte × Nat)) : List Byte → List Nat → Prop
  | nil : Longest T [] []
  | cons {b s : List Byte} {w : Nat} {cs : List Nat} : (b, w) ∈ T →
      (∀ r ∈ T, ∀ t, b ++ s = r.1 ++ t → r.1.length ≤ b.length) → Longest T s cs → Longest T (b ++ s) (w :: cs)

/-- Listed by no table, but read: shin with the dot first and the dagesh second. -/
def cp1255_more : List (List Byte × Nat) :=
  [([0xf9, 0xd1, 0xcc], 0xfb2c), ([0xf9, 0xd2, 0xcc], 0xfb2d)]

/-- Listed by no table, but read: a letter and a tone mark for a letter that has a byte of its own. -/
def cp1258_more : List (List Byte × Nat) :=
  [([0x41, 0xcc], 0xc0), ([0x41, 0xec], 0xc1), ([0x45, 0xcc], 0xc8), ([0x45, 0xec], 0xc9), ([0x49, 0xec], 0xcd),
    ([0x4e, 0xde], 0xd1), ([0x4f, 0xec], 0xd3), ([0x55, 0xcc], 0xd9), ([0x55, 0xec], 0xda), ([0x61, 0xcc], 0xe0),
    ([0x61, 0xec], 0xe1), ([0x65, 0xcc], 0xe8), ([0x65, 0xec], 0xe9), ([0x69, 0xec], 0xed), ([0x6e, 0xde], 0xf1),
    ([0x6f, 0xec], 0xf3), ([0x75, 0xcc], 0xf9), ([0x75, 0xec], 0xfa)]

/-- Listed by no table, but read: a letter and a tone mark for a letter that has a byte of its own, or that
is listed with another letter and another mark. -/
def tcvn_more : List (List Byte × Nat) :=
  [([0x41, 0xb0], 0xc0), ([0x41, 0xb1], 0x1ea2), ([0x41, 0xb2], 0xc3), ([0x41, 0xb3], 0xc1),
    ([0x41, 0xb4], 0x1ea0), ([0x45, 0xb0], 0xc8), ([0x45, 0xb1], 0x1eba), ([0x45, 0xb2], 0x1ebc),
    ([0x45, 0xb3], 0xc9), ([0x45, 0xb4], 0x1eb8), ([0x49, 0xb0], 0xcc), ([0x49, 0xb1], 0x1ec8),
    ([0x49, 0xb2], 0x128), ([0x49, 0xb3], 0xcd), ([0x49, 0xb4], 0x1eca), ([0x4f, 0xb0], 0xd2),
    ([0x4f, 0xb1], 0x1ece), ([0x4f, 0xb2], 0xd5), ([0x4f, 0xb3], 0xd3), ([0x4f, 0xb4], 0x1ecc),
    ([0x55, 0xb0], 0xd9), ([0x55, 0xb1], 0x1ee6), ([0x55, 0xb2], 0x168), ([0x55, 0xb3], 0xda),
    ([0x55, 0xb4], 0x1ee4), ([0x59, 0xb0], 0x1ef2), ([0x59, 0xb1], 0x1ef6), ([0x59, 0xb2], 0x1ef8),
    ([0x59, 0xb3], 0xdd), ([0x59, 0xb4], 0x1ef4), ([0x61, 0xb0], 0xe0), ([0x61, 0xb1], 0x1ea3),
    ([0x61, 0xb2], 0xe3), ([0x61, 0xb3], 0xe1), ([0x61, 0xb4], 0x1ea1), ([0x65, 0xb0], 0xe8),
    ([0x65, 0xb1], 0x1ebb), ([0x65, 0xb2], 0x1ebd), ([0x65, 0xb3], 0xe9), ([0x65, 0xb4], 0x1eb9),
    ([0x69, 0xb0], 0xec), ([0x69, 0xb1], 0x1ec9), ([0x69, 0xb2], 0x129), ([0x69, 0xb3], 0xed),
    ([0x69, 0xb4], 0x1ecb), ([0x6f, 0xb0], 0xf2), ([0x6f, 0xb1], 0x1ecf), ([0x6f, 0xb2], 0xf5),
    ([0x6f, 0xb3], 0xf3), ([0x6f, 0xb4], 0x1ecd), ([0x75, 0xb0], 0xf9), ([0x75, 0xb1], 0x1ee7),
    ([0x75, 0xb2], 0x169), ([0x75, 0xb3], 0xfa), ([0x75, 0xb4], 0x1ee5), ([0x79, 0xb0], 0x1ef3),
    ([0x79, 0xb1], 0x1ef7), ([0x79, 0xb2], 0x1ef9), ([0x79, 0xb3], 0xfd), ([0x79, 0xb4], 0x1ef5),
    ([0x94, 0xb3], 0x1e4c), ([0x9f, 0xb3], 0x1e78), ([0xa1, 0xb0], 0x1eb0), ([0xa1, 0xb1], 0x1eb2),
    ([0xa1, 0xb2], 0x1eb4), ([0xa1, 0xb3], 0x1eae), ([0xa1, 0xb4], 0x1eb6), ([0xa2, 0xb0], 0x1ea6),
    ([0xa2, 0xb1], 0x1ea8), ([0xa2, 0xb2], 0x1eaa), ([0xa2, 0xb3], 0x1ea4), ([0xa2, 0xb4], 0x1eac),
    ([0xa3, 0xb0], 0x1ec0), ([0xa3, 0xb1], 0x1ec2), ([0xa3, 0xb2], 0x1ec4), ([0xa3, 0xb3], 0x1ebe),
    ([0xa3, 0xb4], 0x1ec6), ([0xa4, 0xb0], 0x1ed2), ([0xa4, 0xb1], 0x1ed4), ([0xa4, 0xb2], 0x1ed6),
    ([0xa4, 0xb3], 0x1ed0), ([0xa4, 0xb4], 0x1ed8), ([0xa5, 0xb0], 0x1edc), ([0xa5, 0xb1], 0x1ede),
    ([0xa5, 0xb2], 0x1ee0), ([0xa5, 0xb3], 0x1eda), ([0xa5, 0xb4], 0x1ee2), ([0xa6, 0xb0], 0x1eea),
    ([0xa6, 0xb1], 0x1eec), ([0xa6, 0xb2], 0x1eee), ([0xa6, 0xb3], 0x1ee8), ([0xa6, 0xb4], 0x1ef0),
    ([0xa8, 0xb0], 0x1eb1), ([0xa8, 0xb1], 0x1eb3), ([0xa8, 0xb2], 0x1eb5), ([0xa8, 0xb3], 0x1eaf),
    ([0xa8, 0xb4], 0x1eb7), ([0xa9, 0xb0], 0x1ea7), ([0xa9, 0xb1], 0x1ea9), ([0xa9, 0xb2], 0x1eab),
    ([0xa9, 0xb3], 0x1ea5), ([0xa9, 0xb4], 0x1ead), ([0xaa, 0xb0], 0x1ec1), ([0xaa, 0xb1], 0x1ec3),
    ([0xaa, 0xb2], 0x1ec5), ([0xaa, 0xb3], 0x1ebf), ([0xaa, 0xb4], 0x1ec7), ([0xab, 0xb0], 0x1ed3),
    ([0xab, 0xb1], 0x1ed5), ([0xab, 0xb2], 0x1ed7), ([0xab, 0xb3], 0x1ed1), ([0xab, 0xb4], 0x1ed9),
    ([0xac, 0xb0], 0x1edd), ([0xac, 0xb1], 0x1edf), ([0xac, 0xb2], 0x1ee1), ([0xac, 0xb3], 0x1edb),
    ([0xac, 0xb4], 0x1ee3), ([0xad, 0xb0], 0x1eeb), ([0xad, 0xb1], 0x1eed), ([0xad, 0xb2], 0x1eef),
    ([0xad, 0xb3], 0x1ee9), ([0xad, 0xb4], 0x1ef1), ([0xe2, 0xb3], 0x1e4d), ([0xf2, 0xb3], 0x1e79)]

/-- What CP1255 reads. -/
def cp1255_read : List (List Byte × Nat) := cp1255_from ++ cp1255_irr ++ cp1255_more
/-- What CP1258 reads: the tone marks U+0340 and U+0341 are read as U+0300 and U+0301, U+1FEE as U+0385. -/
def cp1258_read : List (List Byte × Nat) :=
  (cp1258_from ++ cp1258_irr).filter (fun p => ![0x340, 0x341, 0x1fee].contains p.2) ++ cp1258_more
/-- What TCVN reads: the tone marks U+0340 and U+0341 are read as U+0300 and U+0301, U+00B4 and U+02DC as a space and a tone
mark. -/
def tcvn_read : List (List Byte × Nat) :=
  (tcvn_from ++ tcvn_irr).filter (fun p => ![0x340, 0x341, 0xb4, 0x2dc].contains p.2) ++ tcvn_more

/-! ## Proofs -/

/-- How the list fits the decoder; `K` are the rows with which something can still be combined. -/
structure Munch (d : CompDec) (T K : List (List Byte × Nat)) : Prop where
  ne : ∀ r ∈ T, r.1 ≠ []
  no : ∀ c : Byte, d.byte c.toNat = none → ∀ r ∈ T, ∀ t, r.1 ≠ c :: t
  plain : ∀ (c : Byte) wc, d.byte c.toNat = some wc → d.isB wc = false →
    ([c], wc) ∈ T ∧ ∀ r ∈ T, ∀ t, r.1 = c :: t → r = ([c], wc)
  base : ∀ (c : Byte) wc, d.byte c.toNat = some wc → d.isB wc = true → ([c], wc) ∈ K
  kept : ∀ x ∈ K, x ∈ T ∧ x.2 ≠ 0 ∧ ∀ r ∈ T, r.1 = x.1 → r = x
  stop : ∀ x ∈ K, ∀ c : Byte, (∀ wc, d.byte c.toNat = some wc → d.comb x.2 wc = none) → ∀ r ∈ T, ∀ t, r.1 ≠ x.1 ++ c :: t
  keep : ∀ x ∈ K, ∀ (c : Byte) wc w, d.byte c.toNat = some wc → d.comb x.2 wc = some w → w ∈ d.keep → (x.1 ++ [c], w) ∈ K
  char : ∀ x ∈ K, ∀ (c : Byte) wc w, d.byte c.toNat = some wc → d.comb x.2 wc = some w → w ∉ d.keep →
    (x.1 ++ [c], w) ∈ T ∧ ∀ r ∈ T, ∀ t, r.1 = x.1 ++ c :: t → r = (x.1 ++ [c], w)

/-- `b` is taken first if it is listed and nothing longer is. -/
theorem Longest.first {T : List (List Byte × Nat)} {x : List Byte × Nat} (hx : x ∈ T) (hu : ∀ r ∈ T, r.1 = x.1 → r = x) {s : List Byte}
    (hno : ∀ r ∈ T, ∀ u, r.1 = x.1 ++ u → u ≠ [] → ¬ ∃ t, s = u ++ t) {cs : List Nat} (hne : x.1 ≠ []) :
    Longest T (x.1 ++ s) cs ↔ ∃ cs', cs = x.2 :: cs' ∧ Longest T s cs' := by
  constructor
  · intro h
    generalize hi : x.1 ++ s = inp at h
    cases h with
    | nil => exact absurd (List.append_eq_nil_iff.1 hi).1 hne
    | @cons b s' w cs' hm hl ht =>
      have hle := hl x hx s (by rw [hi])
      obtain ⟨u, hu1, hu2⟩ : ∃ u, b = x.1 ++ u ∧ s = u ++ s' := by
        rcases List.append_eq_append_iff.1 hi with ⟨u, h1, h2⟩ | ⟨u, h1, h2⟩
        · exact ⟨u, h1, h2⟩
        · refine ⟨[], ?_, ?_⟩
          · have : u = [] := by
              have := congrArg List.length h1
              simp only [List.length_append] at this
              exact List.eq_nil_of_length_eq_zero (by omega)
            subst this; simpa using h1.symm
          · have : u = [] := by
              have := congrArg List.length h1
              simp only [List.length_append] at this
              exact List.eq_nil_of_length_eq_zero (by omega)
            subst this; simpa using h2.symm
      by_cases hn : u = []
      · subst hn
        rw [List.append_nil] at hu1
        have := hu _ hm hu1
        subst this
        exact ⟨cs', rfl, by rw [hu2]; exact ht⟩
      · exact absurd ⟨s', hu2⟩ (hno _ hm u hu1 hn)
  · rintro ⟨cs', rfl, h⟩
    refine .cons hx (fun r hr t ht => ?_) h
    rcases List.append_eq_append_iff.1 ht with ⟨u, h1, h2⟩ | ⟨u, h1, h2⟩
    · by_cases hn : u = []
      · subst hn; rw [h1]; simp
      · exact absurd ⟨t, h2⟩ (hno r hr u h1 hn)
    · rw [h1, List.length_append]; omega

/-- The state in which `w` is kept. -/
def keptSt (w : Nat) : IState := { IState.init with st := w }

/-- What remains to be read from a state. -/
def CompDec.Reads (d : CompDec) (w : Nat) (s : List Byte) (cs : List Nat) : Prop :=
  ∃ cs0 is, Chars d.atom (keptSt w) s cs0 is ∧ cs = cs0 ++ d.dec.kept is

theorem CompDec.reads_nil (d : CompDec) (w : Nat) (cs : List Nat) : d.Reads w [] cs ↔ cs = if w = 0 then [] else [w] := by
  have hk : d.dec.kept (keptSt w) = if w = 0 then [] else [w] := by
    show (normal_flushwc (keptSt w)).1.toList = _
    unfold normal_flushwc keptSt
    by_cases h : w = 0
    · simp [h]
    · simp [h]
  rw [← hk]
  constructor
  · rintro ⟨cs0, is, h, rfl⟩
    cases h with
    | nil => rfl
    | char h0 => exact absurd rfl h0
    | shift h0 => exact absurd rfl h0
  · rintro rfl
    exact ⟨[], _, .nil _, rfl⟩

theorem CompDec.reads_char {d : CompDec} {v w w' n : Nat} {s : List Byte} {cs : List Nat} (hs : s ≠ [])
    (ha : d.atom (keptSt w) s = .char v n (keptSt w')) : d.Reads w s cs ↔ ∃ cs', cs = v :: cs' ∧ d.Reads w' (s.drop n) cs' := by
  constructor
  · rintro ⟨cs0, is, h, rfl⟩
    cases h with
    | nil => exact absurd rfl hs
    | char _ h1 h2 => rw [ha] at h1; cases h1; exact ⟨_, rfl, _, _, h2, rfl⟩
    | shift _ h1 h2 => rw [ha] at h1; cases h1
  · rintro ⟨cs', rfl, cs0, is, h, rfl⟩
    exact ⟨_, _, .char hs ha h, rfl⟩

theorem CompDec.reads_shift {d : CompDec} {w w' n : Nat} {s : List Byte} {cs : List Nat} (hs : s ≠ [])
    (ha : d.atom (keptSt w) s = .shift n (keptSt w')) : d.Reads w s cs ↔ d.Reads w' (s.drop n) cs := by
  constructor
  · rintro ⟨cs0, is, h, rfl⟩
    cases h with
    | nil => exact absurd rfl hs
    | char _ h1 h2 => rw [ha] at h1; cases h1
    | shift _ h1 h2 => rw [ha] at h1; cases h1; exact ⟨_, _, h2, rfl⟩
  · rintro ⟨cs0, is, h, rfl⟩
    exact ⟨_, _, .shift hs ha h, rfl⟩

theorem CompDec.reads_ilseq {d : CompDec} {w : Nat} {s : List Byte} {cs : List Nat} (hs : s ≠ [])
    (ha : d.atom (keptSt w) s = .ilseq) : ¬ d.Reads w s cs := by
  rintro ⟨cs0, is, h, rfl⟩
  cases h with
  | nil => exact absurd rfl hs
  | char _ h1 h2 => rw [ha] at h1; cases h1
  | shift _ h1 h2 => rw [ha] at h1; cases h1

theorem Munch.start {d : CompDec} {T K : List (List Byte × Nat)} (h : Munch d T K) (c : Byte) (s : List Byte) (cs : List Nat)
    (hn : d.byte c.toNat = none) : ¬ Longest T (c :: s) cs := by
  intro hl
  generalize hi : c :: s = inp at hl
  cases hl with
  | nil => cases hi
  | @cons b s' w cs' hm hl ht =>
    cases b with
    | nil => exact h.ne _ hm rfl
    | cons x b => cases hi; exact h.no c hn _ hm b rfl

theorem Munch.reads {d : CompDec} {T K : List (List Byte × Nat)} (h : Munch d T K) : ∀ (n : Nat) (s : List Byte) (cs : List Nat),
    (2 * s.length ≤ n → (d.Reads 0 s cs ↔ Longest T s cs)) ∧
    (2 * s.length + 1 ≤ n → ∀ x ∈ K, d.Reads x.2 s cs ↔ Longest T (x.1 ++ s) cs) := by
  intro n
  induction n with
  | zero =>
    intro s cs
    refine ⟨fun hn => ?_, fun hn => by omega⟩
    have : s = [] := List.eq_nil_of_length_eq_zero (by omega)
    subst this
    rw [CompDec.reads_nil, if_pos rfl]
    constructor
    · rintro rfl; exact .nil
    · intro hl
      generalize hi : ([] : List Byte) = inp at hl
      cases hl with
      | nil => rfl
      | cons hm _ _ => exact absurd (List.append_eq_nil_iff.1 hi.symm).1 (h.ne _ hm)
  | succ n ih =>
    intro s cs
    have first : 2 * s.length ≤ n + 1 → (d.Reads 0 s cs ↔ Longest T s cs) := by
      intro hn
      cases s with
      | nil => exact (ih [] cs).1 (by simp)
      | cons c t =>
        simp only [List.length_cons] at hn
        have hat : d.atom (keptSt 0) (c :: t) = match d.byte c.toNat with
            | none => .ilseq
            | some wc => if d.isB wc then .shift 1 (keptSt wc) else .char wc 1 (keptSt 0) := by
          unfold CompDec.atom keptSt
          cases hb : d.byte c.toNat <;> simp [hb]
        cases hb : d.byte c.toNat with
        | none =>
          rw [hb] at hat
          exact ⟨fun hr => absurd hr (CompDec.reads_ilseq (by simp) hat), fun hl => absurd hl (h.start c t cs hb)⟩
        | some wc =>
          rw [hb] at hat
          cases hB : d.isB wc with
          | false =>
            simp only [hB, Bool.false_eq_true, if_false] at hat
            obtain ⟨h1, h2⟩ := h.plain c wc hb hB
            rw [CompDec.reads_char (by simp) hat]
            have := Longest.first (T := T) (x := ([c], wc)) h1 (fun r hr e => h2 r hr [] e) (s := t) (cs := cs)
              (fun r hr u e hu => by
                have := h2 r hr u e
                rw [this] at e
                simp only [List.cons_append, List.nil_append, List.cons.injEq, true_and] at e
                exact absurd e.symm hu) (by simp)
            rw [show (c :: t) = ([c], wc).1 ++ t from rfl, this]
            simp only [List.cons_append, List.nil_append, List.drop_succ_cons, List.drop_zero]
            exact exists_congr fun cs' => and_congr_right fun _ => (ih t cs').1 (by omega)
          | true =>
            simp only [hB, if_true] at hat
            rw [CompDec.reads_shift (by simp) hat]
            exact (ih t cs).2 (by omega) ([c], wc) (h.base c wc hb hB)
    refine ⟨first, fun hn x hx => ?_⟩
    obtain ⟨hT, h0, hu⟩ := h.kept x hx
    have hne := h.ne x hT
    cases s with
    | nil =>
      rw [CompDec.reads_nil, if_neg h0, Longest.first hT hu (fun r hr u e hu1 ⟨t, ht⟩ =>
        hu1 (List.append_eq_nil_iff.1 ht.symm).1) hne]
      constructor
      · rintro rfl; exact ⟨[], rfl, .nil⟩
      · rintro ⟨cs', rfl, hl⟩
        have := ((ih [] cs').1 (by simp)).2 hl
        rw [CompDec.reads_nil, if_pos rfl] at this
        rw [this]
    | cons c t =>
      simp only [List.length_cons] at hn
      have hat : d.atom (keptSt x.2) (c :: t) = match d.byte c.toNat with
          | none => .ilseq
          | some wc => match d.comb x.2 wc with
            | some w => if w ∈ d.keep then .shift 1 (keptSt w) else .char w 1 (keptSt 0)
            | none => .char x.2 0 (keptSt 0) := by
        unfold CompDec.atom keptSt
        cases hb : d.byte c.toNat with
        | none => simp [hb]
        | some wc => simp only [hb, ne_eq, h0, not_false_eq_true, if_true]; cases d.comb x.2 wc <;> rfl
      have stop : (∀ wc, d.byte c.toNat = some wc → d.comb x.2 wc = none) →
          (Longest T (x.1 ++ c :: t) cs ↔ ∃ cs', cs = x.2 :: cs' ∧ Longest T (c :: t) cs') := fun hs =>
        Longest.first hT hu (fun r hr u e hu1 ⟨v, hv⟩ => by
          cases u with
          | nil => exact hu1 rfl
          | cons y u => cases hv; exact h.stop x hx c hs r hr u e) hne
      cases hb : d.byte c.toNat with
      | none =>
        rw [hb] at hat
        refine ⟨fun hr => absurd hr (CompDec.reads_ilseq (by simp) hat), fun hl => ?_⟩
        obtain ⟨cs', _, hl⟩ := (stop (fun wc e => by rw [hb] at e; cases e)).1 hl
        exact absurd hl (h.start c t cs' hb)
      | some wc =>
        rw [hb] at hat
        cases hc : d.comb x.2 wc with
        | none =>
          simp only [hc] at hat
          rw [stop (fun wc' e => by rw [hb] at e; cases e; exact hc), CompDec.reads_char (by simp) hat]
          simp only [List.drop_zero]
          exact exists_congr fun cs' => and_congr_right fun _ => (ih (c :: t) cs').1 (by simp only [List.length_cons]; omega)
        | some w =>
          simp only [hc] at hat
          by_cases hk : w ∈ d.keep
          · rw [if_pos hk] at hat
            rw [CompDec.reads_shift (by simp) hat]
            have := (ih t cs).2 (by omega) _ (h.keep x hx c wc w hb hc hk)
            simpa using this
          · rw [if_neg hk] at hat
            obtain ⟨h1, h2⟩ := h.char x hx c wc w hb hc hk
            rw [CompDec.reads_char (by simp) hat]
            have := Longest.first (T := T) (x := (x.1 ++ [c], w)) h1 (fun r hr e => h2 r hr [] e) (s := t) (cs := cs)
              (fun r hr u e hu => by
                simp only [List.append_assoc, List.cons_append, List.nil_append] at e
                have := h2 r hr u e
                rw [this] at e
                simp only [List.append_cancel_left_eq, List.cons.injEq, true_and] at e
                exact absurd e.symm hu) (by simp)
            simp only [List.append_assoc, List.cons_append, List.nil_append] at this
            rw [this]
            simp only [List.drop_succ_cons, List.drop_zero]
            exact exists_congr fun cs' => and_congr_right fun _ => (ih t cs').1 (by omega)

/-- The rows with which something can still be combined. -/
def CompDec.combines (d : CompDec) (p : List Byte × Nat) : Bool :=
  match p.1 with
  | [_] => d.isB p.2 || d.keep.contains p.2
  | _ => d.keep.contains p.2

/-- Membership, the characters compared first. -/
def hasRow (T : List (List Byte × Nat)) (x : List Byte × Nat) : Bool :=
  T.any fun r => cond (Nat.beq r.2 x.2) (r.1 == x.1) false

theorem hasRow_mem {T : List (List Byte × Nat)} {x : List Byte × Nat} (h : hasRow T x = true) : x ∈ T := by
  obtain ⟨r, h1, h2⟩ := List.any_eq_true.1 h
  cases h3 : Nat.beq r.2 x.2 with
  | false => rw [h3] at h2; cases h2
  | true =>
    rw [h3] at h2
    have : r = x := Prod.ext (eq_of_beq h2) (Nat.eq_of_beq_eq_true h3)
    rw [← this]; exact h1

/-- The check for the first byte of a row. -/
def CompDec.chkStart (d : CompDec) (T : List (List Byte × Nat)) : Bool :=
  (T.all fun r => match r.1 with
    | [] => false
    | c :: _ => match d.byte c.toNat with
      | none => false
      | some wc => d.isB wc || r == ([c], wc)) &&
  (List.range 256).all fun c => match d.byte c with
    | none => true
    | some wc => hasRow T ([u8 c], wc) && (!d.isB wc || d.combines ([u8 c], wc))

/-- The row `r` begins with `x` only if it can be read. -/
def CompDec.chkRow (d : CompDec) (x r : List Byte × Nat) : Bool :=
  if x.1.isPrefixOf r.1 then
    match r.1.drop x.1.length with
    | [] => r == x
    | c :: _ => match d.byte c.toNat with
      | none => false
      | some wc => match d.comb x.2 wc with
        | none => false
        | some w => d.keep.contains w || r == (x.1 ++ [c], w)
  else true

/-- Everything that can be read after `x` is listed. -/
def CompDec.chkNext (d : CompDec) (T : List (List Byte × Nat)) (x : List Byte × Nat) : Bool :=
  (List.range 256).all fun c => match d.byte c with
    | none => true
    | some wc => match d.comb x.2 wc with
      | none => true
      | some w => hasRow T (x.1 ++ [u8 c], w) && (!d.keep.contains w || d.combines (x.1 ++ [u8 c], w))

/-- The check for what follows a kept row. -/
def CompDec.chkStep (d : CompDec) (T : List (List Byte × Nat)) : Bool :=
  T.all fun x => !d.combines x || (!Nat.beq x.2 0 && (T.all fun r => d.chkRow x r) && d.chkNext T x)

theorem CompDec.munch {d : CompDec} {T : List (List Byte × Nat)} (h1 : d.chkStart T = true) (h2 : d.chkStep T = true) :
    Munch d T (T.filter d.combines) := by
  unfold CompDec.chkStart at h1
  rw [Bool.and_eq_true] at h1
  obtain ⟨ha, hb⟩ := h1
  rw [List.all_eq_true] at ha hb
  have hb : ∀ (c : Byte) wc, d.byte c.toNat = some wc →
      ([c], wc) ∈ T ∧ (d.isB wc = true → ([c], wc) ∈ T.filter d.combines) := by
    intro c wc hc
    have := hb c.toNat (List.mem_range.2 c.toNat_lt)
    rw [hc] at this
    have hu : u8 c.toNat = c := by unfold u8; simp
    rw [hu] at this
    simp only [Bool.and_eq_true] at this
    refine ⟨hasRow_mem this.1, fun hB => List.mem_filter.2 ⟨hasRow_mem this.1, ?_⟩⟩
    have := this.2
    rw [hB] at this; exact this
  have ha : ∀ r ∈ T, ∃ c t wc, r.1 = c :: t ∧ d.byte c.toNat = some wc ∧ (d.isB wc = true ∨ r = ([c], wc)) := by
    intro r hr
    have := ha r hr
    cases hc : r.1 with
    | nil => rw [hc] at this; cases this
    | cons c t =>
      rw [hc] at this
      simp only at this
      cases hw : d.byte c.toNat with
      | none => rw [hw] at this; cases this
      | some wc =>
        rw [hw] at this
        simp only [Bool.or_eq_true] at this
        exact ⟨c, t, wc, rfl, hw, this.imp id eq_of_beq⟩
  have h2 : ∀ x ∈ T.filter d.combines, x ∈ T ∧ x.2 ≠ 0 ∧
      (∀ r ∈ T, ∀ t, r.1 = x.1 ++ t → (t = [] ∧ r = x) ∨ ∃ c t' wc w, t = c :: t' ∧ d.byte c.toNat = some wc ∧
        d.comb x.2 wc = some w ∧ (w ∈ d.keep ∨ r = (x.1 ++ [c], w))) ∧
      ∀ (c : Byte) wc w, d.byte c.toNat = some wc → d.comb x.2 wc = some w →
        (x.1 ++ [c], w) ∈ T ∧ (w ∈ d.keep → (x.1 ++ [c], w) ∈ T.filter d.combines) := by
    intro x hx
    obtain ⟨hT, hk⟩ := List.mem_filter.1 hx
    have := List.all_eq_true.1 h2 x hT
    rw [hk] at this
    simp only [Bool.not_true, Bool.false_or, Bool.and_eq_true] at this
    obtain ⟨⟨e2, e3⟩, e4⟩ := this
    unfold CompDec.chkNext at e4
    rw [List.all_eq_true] at e3 e4
    refine ⟨hT, (fun h => by rw [h] at e2; cases e2), fun r hr t ht => ?_, fun c wc w hc hw => ?_⟩
    · have := e3 r hr
      unfold CompDec.chkRow at this
      rw [if_pos (List.isPrefixOf_iff_prefix.2 ⟨t, ht.symm⟩)] at this
      have hd : r.1.drop x.1.length = t := by rw [ht]; simp
      rw [hd] at this
      cases t with
      | nil => exact .inl ⟨rfl, eq_of_beq this⟩
      | cons c t =>
        simp only at this
        cases hc : d.byte c.toNat with
        | none => rw [hc] at this; cases this
        | some wc =>
          rw [hc] at this
          simp only at this
          cases hw : d.comb x.2 wc with
          | none => rw [hw] at this; cases this
          | some w =>
            rw [hw] at this
            simp only [Bool.or_eq_true] at this
            exact .inr ⟨c, t, wc, w, rfl, hc, hw, this.imp List.contains_iff_mem.1 eq_of_beq⟩
    · have := e4 c.toNat (List.mem_range.2 c.toNat_lt)
      rw [hc] at this
      have hu : u8 c.toNat = c := by unfold u8; simp
      simp only [hw, hu, Bool.and_eq_true] at this
      refine ⟨hasRow_mem this.1, fun hB => List.mem_filter.2 ⟨hasRow_mem this.1, ?_⟩⟩
      have h3 := this.2
      rw [List.contains_iff_mem.2 hB] at h3; exact h3
  refine ⟨?_, ?_, ?_, ?_, ?_, ?_, ?_, ?_⟩
  · intro r hr he
    obtain ⟨c, t, _, h, _⟩ := ha r hr
    rw [h] at he; cases he
  · intro c hc r hr t ht
    obtain ⟨c', t', wc, h, h', _⟩ := ha r hr
    rw [h] at ht; cases ht
    rw [hc] at h'; cases h'
  · intro c wc hc hB
    refine ⟨(hb c wc hc).1, fun r hr t ht => ?_⟩
    obtain ⟨c', t', wc', h, h', h3⟩ := ha r hr
    rw [h] at ht; cases ht
    rw [hc] at h'; cases h'
    exact h3.resolve_left (by rw [hB]; simp)
  · exact fun c wc hc hB => (hb c wc hc).2 hB
  · intro x hx
    obtain ⟨e1, e2, e3, _⟩ := h2 x hx
    refine ⟨e1, e2, fun r hr he => ?_⟩
    rcases e3 r hr [] (by simpa using he) with ⟨_, h⟩ | ⟨_, _, _, _, h, _⟩
    · exact h
    · cases h
  · intro x hx c hc r hr t ht
    obtain ⟨_, _, e3, _⟩ := h2 x hx
    rcases e3 r hr _ ht with ⟨h, _⟩ | ⟨c', t', wc, w, h, h3, h4, _⟩
    · cases h
    · cases h; rw [hc wc h3] at h4; cases h4
  · exact fun x hx c wc w hc hw hk => ((h2 x hx).2.2.2 c wc w hc hw).2 hk
  · intro x hx c wc w hc hw hk
    obtain ⟨_, _, e3, e4⟩ := h2 x hx
    refine ⟨(e4 c wc w hc hw).1, fun r hr t ht => ?_⟩
    rcases e3 r hr _ ht with ⟨h, _⟩ | ⟨c', t', wc', w', h, h3, h4, h5⟩
    · cases h
    · cases h
      rw [hc] at h3; cases h3
      rw [hw] at h4; cases h4
      exact h5.resolve_left hk

theorem cp1255_start : cp1255_d.chkStart cp1255_read = true := by decide +kernel
theorem cp1255_step : cp1255_d.chkStep cp1255_read = true := by decide +kernel
theorem cp1258_start : cp1258_d.chkStart cp1258_read = true := by decide +kernel
theorem cp1258_step : cp1258_d.chkStep cp1258_read = true := by decide +kernel
theorem tcvn_start : tcvn_d.chkStart tcvn_read = true := by decide +kernel
theorem tcvn_step : tcvn_d.chkStep tcvn_read = true := by decide +kernel

/-! ## Properties -/

theorem comp_text {idx : Nat} {hu : unitOf idx = 1} {d : CompDec} {hd : d.Ok} {e : CompEnc} {he : e.Ok}
    {T K : List (List Byte × Nat)} (h : Munch d T K) (inp : List Byte) (cs : List Nat) :
    (compEntry idx hu d hd e he).Text inp cs ↔ Longest T inp cs :=
  (h.reads (2 * inp.length) inp cs).1 (Nat.le_refl _)

/-- C29 for the decoders of CP1255, CP1258 and TCVN: for every input, it is a text with the characters `cs` exactly if it is
made of listed byte sequences for these characters, each the longest one that is listed at its place. -/
theorem C29_combining_exact (inp : List Byte) (cs : List Nat) :
    (cp1255_entry.Text inp cs ↔ Longest cp1255_read inp cs) ∧
    (cp1258_entry.Text inp cs ↔ Longest cp1258_read inp cs) ∧
    (tcvn_entry.Text inp cs ↔ Longest tcvn_read inp cs) :=
  ⟨comp_text (CompDec.munch cp1255_start cp1255_step) inp cs, comp_text (CompDec.munch cp1258_start cp1258_step) inp cs,
    comp_text (CompDec.munch tcvn_start tcvn_step) inp cs⟩

theorem comp_fixed {idx : Nat} {hu : unitOf idx = 1} {d : CompDec} {hd : d.Ok} {e : CompEnc} {he : e.Ok} :
    (compEntry idx hu d hd e he).FixedOrder := fun _ h => h.1

/-- C29 for these decoders in terms of the API: converted to UCS-4BE a text gives its characters; anything else is refused with
`EILSEQ`, whatever the target encoding. -/
theorem C29_combining_convert : ∀ r ∈ [(cp1255_entry, cp1255_read), (cp1258_entry, cp1258_read), (tcvn_entry, tcvn_read)],
    ∀ (inp : List Byte) (alloc : Nat → List Byte), (∀ n, (alloc n).length = n) →
    (∀ cs : List Nat, Longest r.2 inp cs →
      ∃ x, convert (r.1.conv ucs4be_entry false) St.init inp true true (fun n => some (alloc n)) = .ok x ∧
        x.ret = .ok () ∧ x.data = some (cs.flatMap b32)) ∧
    ((¬ ∃ cs, Longest r.2 inp cs) → ∀ B : Entry,
      ∃ s1, resultSize (r.1.conv B false) St.init inp = .ok (.error .EILSEQ, s1) ∧
        convert (r.1.conv B false) St.init inp true true (fun n => some (alloc n)) =
          .ok ⟨.error .EILSEQ, s1, none, none⟩) := by
  have key : ∀ (A : Entry) (T : List (List Byte × Nat)), A.FixedOrder → (∀ inp cs, A.Text inp cs ↔ Longest T inp cs) →
      ∀ (inp : List Byte) (alloc : Nat → List Byte), (∀ n, (alloc n).length = n) →
      (∀ cs : List Nat, Longest T inp cs →
        ∃ x, convert (A.conv ucs4be_entry false) St.init inp true true (fun n => some (alloc n)) = .ok x ∧
          x.ret = .ok () ∧ x.data = some (cs.flatMap b32)) ∧
      ((¬ ∃ cs, Longest T inp cs) → ∀ B : Entry,
        ∃ s1, resultSize (A.conv B false) St.init inp = .ok (.error .EILSEQ, s1) ∧
          convert (A.conv B false) St.init inp true true (fun n => some (alloc n)) =
            .ok ⟨.error .EILSEQ, s1, none, none⟩) := by
    intro A T hA h inp alloc hal
    obtain ⟨h1, h2⟩ := decode_api hA inp alloc hal
    exact ⟨fun cs hc => h1 cs ((h inp cs).2 hc), fun hn => h2 fun ⟨cs, hc⟩ => hn ⟨cs, (h inp cs).1 hc⟩⟩
  intro r hr
  simp only [List.mem_cons, List.not_mem_nil, or_false] at hr
  rcases hr with rfl | rfl | rfl
  · exact key _ _ comp_fixed fun inp cs => (C29_combining_exact inp cs).1
  · exact key _ _ comp_fixed fun inp cs => (C29_combining_exact inp cs).2.1
  · exact key _ _ comp_fixed fun inp cs => (C29_combining_exact inp cs).2.2

/-- C29 is violated by these decoders in both directions: the published tables list A8 EC in CP1258 as U+1FEE
and 20 B2 in TCVN as U+02DC, but U+0385 and two characters come out; and they do not list
F9 D1 CC in CP1255 or 41 CC in CP1258, which are read as one character. -/
theorem C29_combining_violated :
    (([0xa8, 0xec], 0x1fee) ∈ cp1258_from ++ cp1258_irr ∧
      convert (cp1258_entry.conv ucs4be_entry false) St.init [0xa8, 0xec] true true (fun n => some (List.replicate n 0)) =
        .ok ⟨.ok (), St.init, some 4, some [0, 0, 3, 0x85]⟩) ∧
    (([0x20, 0xb2], 0x2dc) ∈ tcvn_from ++ tcvn_irr ∧
      convert (tcvn_entry.conv ucs4be_entry false) St.init [0x20, 0xb2] true true (fun n => some (List.replicate n 0)) =
        .ok ⟨.ok (), St.init, some 8, some [0, 0, 0, 0x20, 0, 0, 3, 3]⟩) ∧
    ((∀ w, ([0xf9, 0xd1, 0xcc], w) ∉ cp1255_from ++ cp1255_irr) ∧
      convert (cp1255_entry.conv ucs4be_entry false) St.init [0xf9, 0xd1, 0xcc] true true (fun n => some (List.replicate n 0)) =
        .ok ⟨.ok (), St.init, some 4, some [0, 0, 0xfb, 0x2c]⟩) ∧
    (∀ w, ([0x41, 0xcc], w) ∉ cp1258_from ++ cp1258_irr) ∧
      convert (cp1258_entry.conv ucs4be_entry false) St.init [0x41, 0xcc] true true (fun n => some (List.replicate n 0)) =
        .ok ⟨.ok (), St.init, some 4, some [0, 0, 0, 0xc0]⟩ := by
  have key : ∀ (T : List (List Byte × Nat)) (b : List Byte), (T.all fun r => r.1 != b) = true → ∀ w, (b, w) ∉ T := by
    intro T b h w hm
    have := List.all_eq_true.1 h _ hm
    simp at this
  exact ⟨⟨hasRow_mem (by decide +kernel), by decide +kernel⟩, ⟨hasRow_mem (by decide +kernel), by decide +kernel⟩,
    ⟨key _ _ (by decide +kernel), by decide +kernel⟩, key _ _ (by decide +kernel), by decide +kernel⟩

/-- "Việt" in TCVN: the letter with two marks has a byte of its own, and can also be made of two bytes. -/
example : tcvn_entry.Text [0x56, 0x69, 0xd6, 0x74] [0x56, 0x69, 0x1ec7, 0x74] ∧
    Longest tcvn_read [0x56, 0x69, 0xaa, 0xb4, 0x74] [0x56, 0x69, 0x1ec7, 0x74] := by
  refine ⟨⟨_, _, charsOf_sound (fuel := 8)
    (show charsOf tcvn_d.atom 8 IState.init _ = some ([0x56, 0x69, 0x1ec7], { IState.init with st := 0x74 }) by decide +kernel), rfl⟩, ?_⟩
  exact (C29_combining_exact _ _).2.2.1 ⟨_, _, charsOf_sound (fuel := 8)
    (show charsOf tcvn_d.atom 8 IState.init _ = some ([0x56, 0x69, 0x1ec7], { IState.init with st := 0x74 }) by decide +kernel), rfl⟩

end Reiconv
