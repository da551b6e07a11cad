import Verif.NameCheck

/-!
# C31–C37: names, code pages, opening descriptors

Names are C strings: `s ++ 0 :: junk` is memory holding the NUL-terminated string `s`, with anything after
it. Local arrays are given with arbitrary contents.
-/

namespace Reiconv

/-! ## C31 -/

theorem u8_inj {a b : Nat} (ha : a < 256) (hb : b < 256) (h : u8 a = u8 b) : a = b := by
  have := congrArg UInt8.toNat h
  simp only [u8_toNat] at this
  omega

theorem upCase_toNat (c : Byte) : (upCase c).toNat =
    if 0x61 ≤ c.toNat ∧ c.toNat ≤ 0x7a then c.toNat - 0x20 else c.toNat := by
  unfold upCase
  split
  · simp only [u8_toNat]; omega
  · rfl

theorem lowerCase_toNat (c : Byte) : (lowerCase c).toNat =
    if 0x41 ≤ c.toNat ∧ c.toNat ≤ 0x5a then c.toNat + 0x20 else c.toNat := by
  unfold lowerCase
  split
  · simp only [u8_toNat]; omega
  · rfl

theorem upCase_eq_iff (c d : Byte) : upCase c = upCase d ↔ lowerCase c = lowerCase d := by
  rw [← UInt8.toNat_inj, ← UInt8.toNat_inj, upCase_toNat, upCase_toNat, lowerCase_toNat, lowerCase_toNat]
  split <;> split <;> split <;> split <;> omega

theorem upCase_dash (c : Byte) : (upCase c = 0x2d ∨ upCase c = 0x5f) ↔ (c = 0x2d ∨ c = 0x5f) := by
  simp only [← UInt8.toNat_inj, upCase_toNat, UInt8.reduceToNat]
  split <;> omega

theorem sameName_self (s : List Byte) : SameName s s := by
  induction s with
  | nil => exact .nil
  | cons c s ih => exact .both rfl ih

theorem sameName_iff {s t : List Byte} : SameName s t ↔ canonStr s = canonStr t := by
  constructor
  · intro h
    induction h with
    | nil => rfl
    | left hc _ ih => rw [canonStr_cons, if_pos ((upCase_dash _).2 hc), ih]
    | right hc _ ih => rw [canonStr_cons, if_pos ((upCase_dash _).2 hc), ih]
    | both hc _ ih => rw [canonStr_cons, canonStr_cons, (upCase_eq_iff _ _).2 hc, ih]
  · intro h
    induction s generalizing t with
    | nil =>
      induction t with
      | nil => exact .nil
      | cons d t ih =>
        rw [canonStr_cons] at h
        split at h
        · next hd => exact .right ((upCase_dash _).1 hd) (ih h)
        · cases h
    | cons c s ih =>
      rw [canonStr_cons] at h
      split at h
      · next hc => exact .left ((upCase_dash _).1 hc) (ih h)
      · next hc =>
        induction t with
        | nil => cases h
        | cons d t iht =>
          rw [canonStr_cons] at h
          split at h
          · next hd => exact .right ((upCase_dash _).1 hd) (iht h)
          · simp only [List.cons.injEq] at h
            exact .both ((upCase_eq_iff _ _).1 h.1) (ih h.2)

/-- C31. Names that differ only in case, hyphens and underscores give the same answer, whatever is in
memory around them (if one call is undefined behaviour so is the other); canonicalising a name gives a
name of the same kind, and canonicalising that changes nothing. -/
theorem C31_insensitive {s t js jt b1 b2 : List Byte} (hs : 0 ∉ s) (ht : 0 ∉ t) (h : SameName s t)
    (hb1 : b1.length = MAX_WORD_LENGTH + 2) (hb2 : b2.length = MAX_WORD_LENGTH + 2) :
    lookupFromName b1 (s ++ 0 :: js) = lookupFromName b2 (t ++ 0 :: jt) := by
  rw [lookupFromName_eq hb1 hs, lookupFromName_eq hb2 ht, sameName_iff.1 h]

/-- C31, canonicalisation: with room for it, the result is a NUL-terminated name that differs from the
given one only in case, hyphens and underscores and that has none of these, the rest of the array is
not changed, and the return value is its length. A second canonicalisation gives the same string. -/
theorem C31_canonicalize {s js buf : List Byte} (hs : 0 ∉ s) (hb : s.length < buf.length) :
    ∃ k, canonicalize (s ++ 0 :: js) buf = .ok (k.length, k ++ 0 :: buf.drop (k.length + 1)) ∧
      SameName s k ∧ 0 ∉ k ∧ (∀ c ∈ k, c ≠ 0x2d ∧ c ≠ 0x5f ∧ ¬ (0x61 ≤ c.toNat ∧ c.toNat ≤ 0x7a)) ∧
      ∀ j buf', k.length < buf'.length →
        canonicalize (k ++ 0 :: j) buf' = .ok (k.length, k ++ 0 :: buf'.drop (k.length + 1)) := by
  have hlen : (canonStr s).length ≤ s.length := by
    unfold canonStr
    exact Nat.le_trans (List.length_filter_le _ _) (by simp)
  refine ⟨canonStr s, ?_, sameName_iff.2 (canonStr_idem s).symm, canonStr_zero hs, ?_, ?_⟩
  · rw [canonicalize_spec hs, if_pos (by omega)]
  · intro c hc
    simp only [canonStr, List.mem_filter, List.mem_map, Bool.not_eq_true', Bool.or_eq_false_iff,
      decide_eq_false_iff_not] at hc
    obtain ⟨⟨d, _, rfl⟩, h1, h2⟩ := hc
    refine ⟨h1, h2, ?_⟩
    rw [upCase_toNat]
    split <;> omega
  · intro j buf' hb'
    rw [canonicalize_spec (canonStr_zero hs), canonStr_idem, if_pos hb']

/-- "utf_8" and "UTF8". -/
example : SameName (lit "utf_8") (lit "UTF8") := sameName_iff.2 (by decide)
example : (0 : Byte) ∉ lit "utf_8" := by decide

/-! ## C32 -/

/-- The number of bytes of a name that are neither a hyphen nor an underscore. -/
def nameLen (s : List Byte) : Nat := (s.filter fun c => decide (c ≠ 0x2d ∧ c ≠ 0x5f)).length

theorem nameLen_eq (s : List Byte) : (canonStr s).length = nameLen s := by
  induction s with
  | nil => rfl
  | cons c s ih =>
    rw [canonStr_cons]
    have h := upCase_dash c
    unfold nameLen at ih ⊢
    rw [List.filter_cons]
    by_cases hc : c = 0x2d ∨ c = 0x5f
    · rw [if_pos (h.2 hc), ih, if_neg]
      simp only [decide_eq_true_eq]
      rintro ⟨h1, h2⟩
      exact hc.elim h1 h2
    · rw [if_neg (fun x => hc (h.1 x)), if_pos]
      · simp [ih]
      · simp only [decide_eq_true_eq]
        exact not_or.1 hc

theorem lookup_ok {s js buf : List Byte} (hs : 0 ∉ s) (ha : IsAscii s) (hl : nameLen s ≤ 40)
    (hb : buf.length = MAX_WORD_LENGTH + 2) :
    ∃ v : Int, lookupFromName buf (s ++ 0 :: js) = .ok v ∧
      (v = -1 ∨ ∃ i : Nat, i < ei_end ∧ v = i) ∧
      ∀ i : Nat, v = i ↔ ∃ n, Registered n i ∧ lit n = canonStr s := by
  rw [lookupFromName_eq hb hs]
  unfold lookupK
  rw [if_pos (by rw [nameLen_eq]; simp only [MAX_WORD_LENGTH]; omega)]
  obtain ⟨o, ho, hi⟩ := lookup_iff (canonStr_ascii ha) (canonStr_zero hs)
  rw [ho]
  cases o with
  | none =>
    refine ⟨-1, rfl, .inl rfl, fun i => ?_⟩
    rw [← hi i]
    simp only [reduceCtorEq]
  | some j =>
    obtain ⟨n, hn, _⟩ := (hi j).1 rfl
    refine ⟨j, rfl, .inr ⟨j, row_lt hn, rfl⟩, fun i => ?_⟩
    rw [← hi i]
    simp only [Option.some.injEq]
    omega

/-- C32, partial. The answer for a name of ASCII characters, with at most 40 that are not hyphens or
underscores, is always defined; it is an encoding number or -1; if it is `i` then the name is, up to
case, hyphens and underscores, declared for encoding `i` (or one of the two names in `extraNames`); and
if the name is declared for encoding `i`, and is not in `lostNames`, the answer is `i`.
Missing: the names in `lostNames` and `extraNames`, see `C32_lost` and `C32_extra`. -/
theorem C32_lookup_partial {s js buf : List Byte} (hs : 0 ∉ s) (ha : IsAscii s) (hl : nameLen s ≤ 40)
    (hb : buf.length = MAX_WORD_LENGTH + 2) :
    ∃ v : Int, lookupFromName buf (s ++ 0 :: js) = .ok v ∧
      (v = -1 ∨ ∃ i : Nat, i < ei_end ∧ v = i) ∧
      (∀ i : Nat, v = i → ∃ n, (Declared n i ∨ (n, i) ∈ extraNames) ∧ SameName s (lit n)) ∧
      ∀ (n : String) (i : Nat), Declared n i → (n, i) ∉ lostNames → SameName s (lit n) → v = i := by
  obtain ⟨v, hv, hr, hi⟩ := lookup_ok (js := js) hs ha hl hb
  refine ⟨v, hv, hr, ?_, ?_⟩
  · intro i h
    obtain ⟨n, hn, he⟩ := (hi i).1 h
    refine ⟨n, registered_declared hn, sameName_iff.2 ?_⟩
    rw [he, canonStr_idem]
  · intro n i hd hlost hsn
    have hreg := declared_registered hd hlost
    by_cases hn : n = "CP-GR"
    · -- found as "CPGR"
      subst hn
      obtain ⟨p, hp⟩ := hreg
      have hrow := rows_ok _ hp
      have h464 : (464, "CP-GR", ei_cp869) ∈ aliasRows := aliasAt_mem (by decide +kernel)
      have hrow2 := rows_ok _ h464
      simp only [rowOK, Bool.and_eq_true, decide_eq_true_eq] at hrow hrow2
      have e1 := hrow.1.1.1.1.1.1.1
      have e2 := hrow2.1.1.1.1.1.1.1
      rw [e2] at e1
      cases e1
      have h2 := aliasAt_row hp
      rw [aliasAt_row h464] at h2
      cases h2
      refine (hi _).2 ⟨"CPGR", ⟨462, aliasAt_mem (by decide +kernel)⟩, ?_⟩
      rw [sameName_iff.1 hsn]
      decide +kernel
    · refine (hi i).2 ⟨n, hreg, ?_⟩
      rw [sameName_iff.1 hsn, row_canon hreg hn]

/-- An array of the size the code uses. -/
def scratch : List Byte := List.replicate (MAX_WORD_LENGTH + 2) 0

/-- C32 is violated: the declared names in `lostNames` are not found (one of them is found for another
encoding, for which it is declared too). -/
theorem C32_lost : ∀ x ∈ lostNames, Declared x.1 x.2 ∧
    lookupFromName scratch (lit x.1 ++ [0]) =
      .ok (if x.1 = "KSC56011987" then (ei_ksc5601 : Int) else -1) := by
  have h : ∀ x ∈ lostNames, (∃ l, declaredNames[x.2]? = some l ∧ x.1 ∈ l) ∧
      lookupFromName scratch (lit x.1 ++ [0]) =
      .ok (if x.1 = "KSC56011987" then (ei_ksc5601 : Int) else -1) := by
    simp only [lostNames, List.forall_mem_cons, List.not_mem_nil, false_implies, implies_true, and_true]
    refine ⟨⟨⟨_, rfl, ?_⟩, ?_⟩, ⟨⟨_, rfl, ?_⟩, ?_⟩, ⟨⟨_, rfl, ?_⟩, ?_⟩, ⟨⟨_, rfl, ?_⟩, ?_⟩, ⟨⟨_, rfl, ?_⟩, ?_⟩,
      ⟨⟨_, rfl, ?_⟩, ?_⟩, ⟨⟨_, rfl, ?_⟩, ?_⟩, ⟨⟨_, rfl, ?_⟩, ?_⟩, ⟨⟨_, rfl, ?_⟩, ?_⟩, ⟨⟨_, rfl, ?_⟩, ?_⟩,
      ⟨⟨_, rfl, ?_⟩, ?_⟩, ⟨⟨_, rfl, ?_⟩, ?_⟩, ⟨⟨_, rfl, ?_⟩, ?_⟩, ⟨⟨_, rfl, ?_⟩, ?_⟩⟩ <;> decide +kernel
  exact h

/-- C32 is violated the other way round: two names that are not declared are found. -/
theorem C32_extra : ∀ x ∈ extraNames, (∀ l ∈ declaredNames, x.1 ∉ l) ∧
    lookupFromName scratch (lit x.1 ++ [0]) = .ok (x.2 : Int) := by decide +kernel

example : Declared "UTF8" ei_utf8 ∧ ("UTF8", ei_utf8) ∉ lostNames ∧ SameName (lit "utf-8") (lit "UTF8") ∧
    lookupFromName scratch (lit "utf-8" ++ [0]) = .ok (ei_utf8 : Int) :=
  ⟨⟨_, rfl, by decide⟩, by decide +kernel, sameName_iff.2 (by decide), by decide +kernel⟩

/-! ## C33 -/

/-- C33, partial: no out-of-bounds access for names of ASCII characters, with at most 40 that are not
hyphens or underscores. Missing: other names, see `C33_long`, `C33_high` and `C33_ignore_overflow`. -/
theorem C33_lookup_partial {s js buf : List Byte} (hs : 0 ∉ s) (ha : IsAscii s) (hl : nameLen s ≤ 40)
    (hb : buf.length = MAX_WORD_LENGTH + 2) : ∃ v, lookupFromName buf (s ++ 0 :: js) = .ok v := by
  obtain ⟨v, hv, _⟩ := lookup_ok (js := js) hs ha hl hb
  exact ⟨v, hv⟩

/-- C33 is violated by every name with more than 40 characters that are not hyphens or underscores: the
array on the stack is overrun. -/
theorem C33_long {s js buf : List Byte} (hs : 0 ∉ s) (hl : 40 < nameLen s)
    (hb : buf.length = MAX_WORD_LENGTH + 2) : lookupFromName buf (s ++ 0 :: js) = .ub := by
  rw [lookupFromName_eq hb hs]
  unfold lookupK
  rw [if_neg (by rw [nameLen_eq]; simp only [MAX_WORD_LENGTH]; omega)]

/-- C33 is violated by short names with bytes that are not ASCII: the table of the hash function is read
out of bounds. -/
theorem C33_high : lookupFromName scratch ([0xc3, 0xa9] ++ [0]) = .ub := by decide +kernel

example : 40 < nameLen (List.replicate 41 0x41) := by decide

/-! ## C34 -/

/-- C34, partial. For the numbers 0 to 65001 the answer is `i` iff the number is declared for encoding
`i`, and -1 iff it is not declared. Missing: other numbers, see `C34_out_of_range`. -/
theorem C34_codepage_partial (n : Nat) (h : n < CODEPAGE_SIZE) :
    ∃ v : Int, lookupFromCodepage n = .ok v ∧ (∀ i : Nat, v = i ↔ (n, i) ∈ codepages) ∧
      (v = -1 ↔ ∀ i, (n, i) ∉ codepages) := by
  have huniq : ∀ x ∈ codepages, ∀ y ∈ codepages, x.1 = y.1 → x.2 = y.2 := by decide +kernel
  unfold lookupFromCodepage
  rw [if_pos ⟨by omega, by omega⟩]
  unfold codepageToEi
  rw [Int.toNat_natCast]
  cases hf : codepages.find? fun r => Nat.beq r.1 n with
  | none =>
    have hno : ∀ i, (n, i) ∉ codepages := by
      intro i hi
      have := List.find?_eq_none.1 hf _ hi
      simp at this
    refine ⟨_, rfl, fun i => ⟨fun e => ?_, fun e => absurd e (hno i)⟩, fun _ => hno, fun _ => by simp⟩
    simp only at e
    omega
  | some r =>
    have hm := List.mem_of_find?_eq_some hf
    have hr := List.find?_some hf
    have hr : r.1 = n := Nat.eq_of_beq_eq_true hr
    obtain ⟨a, j⟩ := r
    cases hr
    refine ⟨_, rfl, fun i => ⟨fun e => ?_, fun e => ?_⟩, fun e => ?_, fun e => absurd hm (e j)⟩
    · simp only at e
      have : i = j := by omega
      rw [this]; exact hm
    · have := huniq _ hm _ e rfl
      simp only at this ⊢
      omega
    · simp only at e
      omega

/-- C34 is violated: any other number is read outside the table. -/
theorem C34_out_of_range (n : Int) (h : n < 0 ∨ 65001 < n) : lookupFromCodepage n = .ub := by
  unfold lookupFromCodepage
  rw [if_neg (by simp only [CODEPAGE_SIZE]; omega)]

example : lookupFromCodepage 1252 = .ok (ei_cp1252 : Int) ∧ lookupFromCodepage 1 = .ok (-1) := by
  decide +kernel

/-! ## C35 -/

def constCheck (l : List (String × Nat)) : Bool :=
  l.all (fun x => decide (indexNames[x.2]? = some x.1)) && Nat.beq l.length ei_end &&
  (List.range ei_end).all fun i => l.any fun x => Nat.beq x.2 i

theorem constCheck_sound {l : List (String × Nat)} (h : constCheck l = true) (nm : String) (i : Nat) :
    (nm, i) ∈ l ↔ indexNames[i]? = some nm := by
  simp only [constCheck, Bool.and_eq_true, List.all_eq_true, decide_eq_true_eq] at h
  obtain ⟨⟨h1, _⟩, h3⟩ := h
  constructor
  · intro hm; exact h1 _ hm
  · intro hi
    have hlt : i < ei_end := by
      have hl : indexNames.length = ei_end := by decide +kernel
      obtain ⟨hh, _⟩ := List.getElem?_eq_some_iff.1 hi
      omega
    obtain ⟨⟨m, j⟩, hx, he⟩ := List.any_eq_true.1 (h3 i (List.mem_range.2 hlt))
    have he : j = i := Nat.eq_of_beq_eq_true he
    subst he
    have := h1 _ hx
    simp only at this
    rw [hi] at this
    cases this
    exact hx

/-- C35. The public constants of the C and of the C++ interface are exactly the encodings with their
numbers; so are the additional constants; and the lookup of a declared name (other than `lostNames`) and
of every declared code page of an encoding gives the number of its constant. -/
theorem C35_constants :
    (∀ (nm : String) (i : Nat), (nm, i) ∈ publicC ↔ indexNames[i]? = some nm) ∧
    (∀ (nm : String) (i : Nat), (nm, i) ∈ publicCpp ↔ indexNames[i]? = some nm) ∧
    (∀ x, x ∈ publicCAliases ↔ x ∈ indexAliases) ∧ (∀ x, x ∈ publicCppAliases ↔ x ∈ indexAliases) ∧
    (∀ x ∈ indexAliases, x.2 ∈ indexNames ∧ x.1 ∉ indexNames) ∧
    (∀ i j : Nat, ∀ nm : String, indexNames[i]? = some nm → indexNames[j]? = some nm → i = j) ∧
    indexNames.length = ei_end ∧ declaredNames.length = ei_end ∧
    (∀ n i, Declared n i → (n, i) ∉ lostNames → ∀ buf js, buf.length = MAX_WORD_LENGTH + 2 →
      lookupFromName buf (lit n ++ 0 :: js) = .ok (i : Int)) ∧
    (∀ x ∈ codepages, lookupFromCodepage x.1 = .ok (x.2 : Int)) := by
  have hdist : ∀ i j : Nat, ∀ nm : String, indexNames[i]? = some nm → indexNames[j]? = some nm → i = j := by
    have hl : indexNames.length = ei_end := by decide +kernel
    have hnd : indexNames.Nodup := by decide +kernel
    intro i j nm hi hj
    obtain ⟨hi', _⟩ := List.getElem?_eq_some_iff.1 hi
    exact (List.getElem?_inj hi' hnd).1 (hi.trans hj.symm)
  refine ⟨constCheck_sound (by decide +kernel), constCheck_sound (by decide +kernel), ?_, ?_,
    by decide +kernel, hdist, by decide +kernel, by decide +kernel, ?_, by decide +kernel⟩
  · intro x
    have h1 : ∀ x ∈ publicCAliases, x ∈ indexAliases := by decide +kernel
    have h2 : ∀ x ∈ indexAliases, x ∈ publicCAliases := by decide +kernel
    exact ⟨h1 x, h2 x⟩
  · intro x
    have h1 : ∀ x ∈ publicCppAliases, x ∈ indexAliases := by decide +kernel
    have h2 : ∀ x ∈ indexAliases, x ∈ publicCppAliases := by decide +kernel
    exact ⟨h1 x, h2 x⟩
  · intro n i hd hlost buf js hb
    obtain ⟨p, hp⟩ := declared_registered hd hlost
    have hrow := rows_ok _ hp
    simp only [rowOK, Bool.and_eq_true, decide_eq_true_eq] at hrow
    obtain ⟨⟨⟨⟨⟨_, hlen⟩, h0⟩, hasc⟩, _⟩, _⟩ := hrow
    have hlen : (lit n).length ≤ 39 := Nat.le_of_ble_eq_true hlen
    have hnl : nameLen (lit n) ≤ 40 := Nat.le_trans (List.length_filter_le _ _) (by omega)
    obtain ⟨v, hv, _, _, h4⟩ := C32_lookup_partial (js := js) h0 hasc hnl hb
    rw [hv, h4 n i hd hlost (sameName_self _)]

end Reiconv
