import Verif.Props.Open

/-!
# C32, C33, C36, C37 for every name

What the name lookup does with every string: when it accesses memory out of bounds, and the answer when it does not.
-/

namespace Reiconv

/-! ## Specification -/

/-- The bytes of a name that count: all but hyphens and underscores. -/
def nameBytes (s : List Byte) : List Byte := s.filter fun c => decide (c ≠ 0x2d ∧ c ≠ 0x5f)

/-- What the hash function adds to the byte at position `i` before it looks it up. -/
def hashOffset (i : Nat) : Nat := if i = 1 then 2 else if i = 5 then 4 else 0

/-- The hash function, called for 2 to 39 bytes, looks up the first ten and the last in a table of 132 elements: it reads
behind the end for some of them. -/
def BeyondTable (s : List Byte) : Prop :=
  2 ≤ nameLen s ∧ nameLen s ≤ 39 ∧
  ∃ i c, (nameBytes s)[i]? = some c ∧ ((i < 10 ∧ 132 ≤ c.toNat + hashOffset i) ∨ (i + 1 = nameLen s ∧ 132 ≤ c.toNat))

/-- The lookup of this name is undefined: it does not fit the array of 41 bytes, or the hash function reads behind the end
of its table. -/
def Overruns (s : List Byte) : Prop := 40 < nameLen s ∨ BeyondTable s

/-- The name is, up to case, hyphens and underscores, a name the lookup knows for encoding `i`: a declared name but the 14
in `lostNames`, or one of the two in `extraNames`. -/
def Known (s : List Byte) (i : Nat) : Prop :=
  ∃ n, ((Declared n i ∧ (n, i) ∉ lostNames) ∨ (n, i) ∈ extraNames) ∧ SameName s (lit n)

/-! ## Proofs -/

theorem canonStr_bytes (s : List Byte) : canonStr s = (nameBytes s).map upCase := by
  induction s with
  | nil => rfl
  | cons c s ih =>
    rw [canonStr_cons]
    have h := upCase_dash c
    unfold nameBytes at ih ⊢
    rw [List.filter_cons]
    by_cases hc : c = 0x2d ∨ c = 0x5f
    · rw [if_pos (h.2 hc), ih, if_neg]
      simp only [decide_eq_true_eq]
      rintro ⟨h1, h2⟩
      exact hc.elim h1 h2
    · rw [if_neg (fun x => hc (h.1 x)), if_pos]
      · simp [ih]
      · simp only [decide_eq_true_eq]
        exact not_or.1 hc

theorem upCase_far (c : Byte) {off : Nat} (h : off ≤ 4) : 132 ≤ (upCase c).toNat + off ↔ 132 ≤ c.toNat + off := by
  rw [upCase_toNat]
  split <;> omega

theorem hashOffset_le (i : Nat) : hashOffset i ≤ 4 := by
  unfold hashOffset; split
  · omega
  · split <;> omega

theorem asso_ub {i : Nat} (h : 132 ≤ i) : asso i = .ub := by
  unfold asso
  have hl : assoValues.length = 132 := by decide +kernel
  rw [List.getElem?_eq_none (by omega)]

theorem hashStep_cases {k : List Byte} {i : Nat} (off v : Nat) (h : i < k.length) :
    (132 ≤ k[i].toNat + off ∧ hashStep k i off v = .ub) ∨ (k[i].toNat + off < 132 ∧ ∃ r, hashStep k i off v = .ok r) := by
  have hr : rd k i = .ok (k[i].toNat) := by simp [rd, List.getElem?_eq_getElem h]
  by_cases h1 : 132 ≤ k[i].toNat + off
  · exact .inl ⟨h1, by simp [hashStep, hr, asso_ub h1]⟩
  · obtain ⟨w, hw⟩ := asso_ok (i := k[i].toNat + off) (by omega)
    exact .inr ⟨by omega, v + w, by simp [hashStep, hr, hw]⟩

/-- One of the first `n` bytes is looked up behind the end. -/
def farBefore (k : List Byte) (n : Nat) : Prop := ∃ i c, i < n ∧ k[i]? = some c ∧ 132 ≤ c.toNat + hashOffset i

theorem hashCases_cases {k : List Byte} : ∀ (n v : Nat), n ≤ k.length →
    (farBefore k n ∧ hashCases k n v = .ub) ∨ (¬ farBefore k n ∧ ∃ r, hashCases k n v = .ok r) := by
  intro n
  induction n with
  | zero => exact fun v _ => .inr ⟨fun ⟨i, _, h, _⟩ => by omega, v, rfl⟩
  | succ n ih =>
    intro v h
    simp only [hashCases]
    rcases hashStep_cases (k := k) (i := n) (if n = 1 then 2 else if n = 5 then 4 else 0) v (by omega) with ⟨h1, h2⟩ | ⟨h1, r, h2⟩
    · rw [h2]
      exact .inl ⟨⟨n, _, by omega, List.getElem?_eq_getElem (by omega), h1⟩, rfl⟩
    · rw [h2]
      simp only [Outcome.bind_ok]
      rcases ih r (by omega) with ⟨⟨i, c, h3, h4, h5⟩, h6⟩ | ⟨h3, h4⟩
      · exact .inl ⟨⟨i, c, by omega, h4, h5⟩, h6⟩
      · refine .inr ⟨?_, h4⟩
        rintro ⟨i, c, h5, h6, h7⟩
        by_cases hi : i = n
        · subst hi
          rw [List.getElem?_eq_getElem (by omega)] at h6
          have h8 := Option.some.inj h6
          unfold hashOffset at h7
          rw [← h8] at h7
          omega
        · exact h3 ⟨i, c, by omega, h6, h7⟩

/-- A byte that counts for the hash function is looked up behind the end. -/
def farHash (k : List Byte) : Prop :=
  ∃ i c, k[i]? = some c ∧ ((i < 10 ∧ 132 ≤ c.toNat + hashOffset i) ∨ (i + 1 = k.length ∧ 132 ≤ c.toNat))

theorem hash_cases {k : List Byte} (h : 2 ≤ k.length) :
    (farHash k ∧ aliasesHash k k.length = .ub) ∨ (¬ farHash k ∧ ∃ r, aliasesHash k k.length = .ok r) := by
  unfold aliasesHash
  generalize hn : (if 1 ≤ k.length ∧ k.length ≤ 9 then k.length else 10) = n
  have hle : n ≤ k.length := by subst hn; split <;> omega
  have hall : ∀ i, i < k.length → i < 10 → i < n := by subst hn; intro i h1 h2; split <;> omega
  have hten : n ≤ 10 := by subst hn; split <;> omega
  rcases hashCases_cases (k := k) n k.length hle with ⟨⟨i, c, h1, h2, h3⟩, h4⟩ | ⟨h1, v, h2⟩
  · rw [h4]
    exact .inl ⟨⟨i, c, h2, .inl ⟨by omega, h3⟩⟩, rfl⟩
  · rw [h2]
    simp only [Outcome.bind_ok]
    rcases hashStep_cases (k := k) (i := k.length - 1) 0 v (by omega) with ⟨h3, h4⟩ | ⟨h3, h4⟩
    · exact .inl ⟨⟨k.length - 1, _, List.getElem?_eq_getElem (by omega), .inr ⟨by omega, h3⟩⟩, h4⟩
    · refine .inr ⟨?_, h4⟩
      rintro ⟨i, c, h5, ⟨h6, h7⟩ | ⟨h6, h7⟩⟩
      · obtain ⟨hi, _⟩ := List.getElem?_eq_some_iff.1 h5
        exact h1 ⟨i, c, hall i hi h6, h5, h7⟩
      · have : i = k.length - 1 := by omega
        subst this
        rw [List.getElem?_eq_getElem (by omega)] at h5
        have h8 := Option.some.inj h5
        rw [← h8] at h7
        omega

theorem farHash_iff (s : List Byte) : farHash (canonStr s) ↔
    ∃ i c, (nameBytes s)[i]? = some c ∧ ((i < 10 ∧ 132 ≤ c.toNat + hashOffset i) ∨ (i + 1 = nameLen s ∧ 132 ≤ c.toNat)) := by
  unfold farHash
  rw [canonStr_bytes]
  simp only [List.getElem?_map, Option.map_eq_some_iff, List.length_map]
  have hl : (nameBytes s).length = nameLen s := rfl
  rw [hl]
  constructor
  · rintro ⟨i, _, ⟨c, h1, rfl⟩, h2⟩
    refine ⟨i, c, h1, h2.imp (fun h => ⟨h.1, (upCase_far c (hashOffset_le i)).1 h.2⟩) fun h => ⟨h.1, ?_⟩⟩
    have := (upCase_far c (off := 0) (by omega)).1 h.2
    omega
  · rintro ⟨i, c, h1, h2⟩
    refine ⟨i, _, ⟨c, h1, rfl⟩, h2.imp (fun h => ⟨h.1, (upCase_far c (hashOffset_le i)).2 h.2⟩) fun h => ⟨h.1, ?_⟩⟩
    exact (upCase_far c (off := 0) (by omega)).2 h.2

theorem lookup_far {k : List Byte} (h0 : 0 ∉ k) (ha : ¬ IsAscii k) :
    (2 ≤ k.length ∧ k.length ≤ 39 ∧ farHash k ∧ aliasesLookup (k ++ [0]) k.length = .ub) ∨
    (¬ (2 ≤ k.length ∧ k.length ≤ 39 ∧ farHash k) ∧ aliasesLookup (k ++ [0]) k.length = .ok none) := by
  unfold aliasesLookup
  split
  · next hl =>
    simp only [MAX_WORD_LENGTH, MIN_WORD_LENGTH] at hl
    rw [hash_append hl.2]
    rcases hash_cases hl.2 with ⟨h1, h2⟩ | ⟨h1, key, h2⟩
    · rw [h2]; exact .inl ⟨hl.2, hl.1, h1, rfl⟩
    · rw [h2]
      refine .inr ⟨fun h => h1 h.2.2, ?_⟩
      simp only [Outcome.bind_ok]
      split
      · cases hat : aliasAt key with
        | none => rfl
        | some x =>
          obtain ⟨n, j⟩ := x
          have hr := rows_ok _ (aliasAt_mem hat)
          simp only [rowOK, Bool.and_eq_true, decide_eq_true_eq] at hr
          obtain ⟨⟨⟨⟨_, hn0⟩, hna⟩, _⟩, _⟩ := hr
          simp only
          rw [strEq_eq h0 hn0, decide_eq_false (fun e : k = lit n => ha (e ▸ hna))]
          rfl
      · rfl
  · next hl =>
    simp only [MAX_WORD_LENGTH, MIN_WORD_LENGTH] at hl
    exact .inr ⟨fun h => hl ⟨h.2.1, h.1⟩, rfl⟩

theorem ascii_near {k : List Byte} (ha : IsAscii k) : ¬ farHash k := by
  rintro ⟨i, c, h1, h2⟩
  have h3 := ha c (List.mem_of_getElem? h1)
  have h4 := hashOffset_le i
  omega

theorem registered_ascii {n : String} {i : Nat} (h : Registered n i) : IsAscii (lit n) := by
  obtain ⟨p, hp⟩ := h
  have hr := rows_ok _ hp
  simp only [rowOK, Bool.and_eq_true, decide_eq_true_eq] at hr
  exact hr.1.1.2

/-- The lookup for every string. -/
theorem lookup_all {s js buf : List Byte} (hs : 0 ∉ s) (hb : buf.length = MAX_WORD_LENGTH + 2) :
    (Overruns s ∧ lookupFromName buf (s ++ 0 :: js) = .ub) ∨
    (¬ Overruns s ∧ ∃ v : Int, lookupFromName buf (s ++ 0 :: js) = .ok v ∧
      (v = -1 ∨ ∃ i : Nat, i < ei_end ∧ v = i) ∧ ∀ i : Nat, v = i ↔ ∃ n, Registered n i ∧ lit n = canonStr s) := by
  by_cases hl : 40 < nameLen s
  · exact .inl ⟨.inl hl, C33_long hs hl hb⟩
  have hov : Overruns s ↔ 2 ≤ (canonStr s).length ∧ (canonStr s).length ≤ 39 ∧ farHash (canonStr s) := by
    unfold Overruns BeyondTable
    rw [farHash_iff, nameLen_eq]
    exact ⟨fun h => h.resolve_left hl, .inr⟩
  rw [hov, lookupFromName_eq hb hs]
  unfold lookupK
  rw [if_pos (by rw [nameLen_eq]; simp only [MAX_WORD_LENGTH]; omega)]
  by_cases ha : IsAscii (canonStr s)
  · obtain ⟨o, ho, hi⟩ := lookup_iff ha (canonStr_zero hs)
    refine .inr ⟨fun h => ascii_near ha h.2.2, ?_⟩
    rw [ho]
    cases o with
    | none =>
      refine ⟨-1, rfl, .inl rfl, fun i => ?_⟩
      rw [← hi i]
      simp only [reduceCtorEq]
    | some j =>
      obtain ⟨n, hn, _⟩ := (hi j).1 rfl
      refine ⟨j, rfl, .inr ⟨j, row_lt hn, rfl⟩, fun i => ?_⟩
      rw [← hi i]
      simp only [Option.some.injEq]
      omega
  · rcases lookup_far (canonStr_zero hs) ha with ⟨h1, h2, h3, h4⟩ | ⟨h1, h4⟩
    · exact .inl ⟨⟨h1, h2, h3⟩, by rw [h4]; rfl⟩
    · refine .inr ⟨h1, -1, by rw [h4]; rfl, .inl rfl, fun i => ⟨fun h => by omega, ?_⟩⟩
      rintro ⟨n, hn, he⟩
      exact absurd (he ▸ registered_ascii hn) ha

theorem short_lost : ∀ x ∈ lostNames, 0 ∉ lit x.1 := by decide +kernel
theorem short_extra : ∀ x ∈ extraNames, 0 ∉ lit x.1 := by decide +kernel
theorem lost_cp949 : ∀ x ∈ lostNames, x.1 = "KSC56011987" → x.2 ≠ ei_ksc5601 := by decide +kernel

theorem same_lookup {s t : List Byte} (hs : 0 ∉ s) (ht : 0 ∉ t) (h : SameName s t) {b1 b2 j1 j2 : List Byte}
    (h1 : b1.length = MAX_WORD_LENGTH + 2) (h2 : b2.length = MAX_WORD_LENGTH + 2) :
    lookupFromName b1 (s ++ 0 :: j1) = lookupFromName b2 (t ++ 0 :: j2) := by
  rw [lookupFromName_eq h1 hs, lookupFromName_eq h2 ht, sameName_iff.1 h]

/-! ## C32, C33 -/

/-- C32 and C33 for every string: `reiconv_lookup_from_name` accesses memory out of bounds exactly if the string `Overruns`;
otherwise the answer is an encoding number or -1, and it is `i` exactly if the name is known for encoding `i`. -/
theorem C33_exact {s js buf : List Byte} (hs : 0 ∉ s) (hb : buf.length = MAX_WORD_LENGTH + 2) :
    (lookupFromName buf (s ++ 0 :: js) = .ub ↔ Overruns s) ∧
    (¬ Overruns s → ∃ v : Int, lookupFromName buf (s ++ 0 :: js) = .ok v ∧
      (v = -1 ∨ ∃ i : Nat, i < ei_end ∧ v = i) ∧ ∀ i : Nat, v = i ↔ Known s i) := by
  have hsc : scratch.length = MAX_WORD_LENGTH + 2 := by decide
  rcases lookup_all (js := js) hs hb with ⟨h1, h2⟩ | ⟨h1, v, h2, h3, h4⟩
  · exact ⟨⟨fun _ => h1, fun _ => h2⟩, fun h => absurd h1 h⟩
  · refine ⟨⟨fun h => (by rw [h2] at h; exact nomatch h), fun h => absurd h h1⟩, fun _ => ⟨v, h2, h3, fun i => ⟨fun h => ?_, ?_⟩⟩⟩
    · obtain ⟨n, hn, he⟩ := (h4 i).1 h
      have hsn : SameName s (lit n) := sameName_iff.2 (by rw [he, canonStr_idem])
      refine ⟨n, ?_, hsn⟩
      rcases registered_declared hn with hd | hx
      · refine .inl ⟨hd, fun hlost => ?_⟩
        have := (C32_lost _ hlost).2
        rw [← same_lookup hs (short_lost _ hlost) hsn hb hsc (j1 := js), h2, h] at this
        simp only [Outcome.ok.injEq] at this
        split at this
        · next e => exact lost_cp949 _ hlost e (Int.ofNat.inj this)
        · omega
      · exact .inr hx
    · rintro ⟨n, ⟨hd, hlost⟩ | hx, hsn⟩
      · obtain ⟨p, hp⟩ := declared_registered hd hlost
        have hrow := rows_ok _ hp
        simp only [rowOK, Bool.and_eq_true, decide_eq_true_eq] at hrow
        obtain ⟨⟨⟨⟨⟨_, hlen⟩, h0⟩, hasc⟩, _⟩, _⟩ := hrow
        have hlen : (lit n).length ≤ 39 := Nat.le_of_ble_eq_true hlen
        have hnl : nameLen (lit n) ≤ 40 := Nat.le_trans (List.length_filter_le _ _) (by omega)
        obtain ⟨w, hw, _, _, h5⟩ := C32_lookup_partial (js := []) h0 hasc hnl hsc
        rw [← same_lookup hs h0 hsn hb hsc (j1 := js), h2] at hw
        cases hw
        exact h5 n i hd hlost (sameName_self _)
      · have := (C32_extra _ hx).2
        rw [← same_lookup hs (short_extra _ hx) hsn hb hsc (j1 := js), h2] at this
        cases this
        rfl

/-- "é" in UTF-8 overruns, "\x81\x81" does not, "utf-8" is known. -/
example : Overruns [0xc3, 0xa9] ∧ ¬ Overruns [0x81, 0x81] ∧ ¬ Overruns (lit "utf-8") ∧ Known (lit "utf-8") ei_utf8 := by
  have hsc : scratch.length = MAX_WORD_LENGTH + 2 := by decide
  refine ⟨?_, ?_, ?_, "UTF8", .inl ⟨⟨_, rfl, by decide⟩, by decide +kernel⟩, sameName_iff.2 (by decide)⟩
  · exact (C33_exact (js := []) (by decide) hsc).1.1 (by decide +kernel)
  · intro h
    exact absurd ((C33_exact (js := []) (by decide) hsc).1.2 h) (by decide +kernel)
  · intro h
    exact absurd ((C33_exact (js := []) (by decide) hsc).1.2 h) (by decide +kernel)

/-- Long names that are not ASCII need not overrun: the bytes between the tenth and the last do not count. -/
example : ¬ Overruns (List.replicate 10 0x41 ++ [0xff, 0x41]) := by
  intro h
  exact absurd ((C33_exact (js := []) (by decide) (by decide : scratch.length = MAX_WORD_LENGTH + 2)).1.2 h) (by decide +kernel)

/-! ## C37 -/

/-- C37 for every two strings: `reiconv_open_from_name` accesses memory out of bounds exactly if one of them overruns; otherwise
it fails with `EINVAL` exactly if one is not known, and else gives `ENOMEM` without memory and a descriptor for the encodings
known by these names with it. -/
theorem C37_exact {s t js jt b1 b2 : List Byte} (mem : Bool) (flags : Nat) (hs : 0 ∉ s) (ht : 0 ∉ t)
    (hb1 : b1.length = MAX_WORD_LENGTH + 2) (hb2 : b2.length = MAX_WORD_LENGTH + 2) :
    (openFromName mem b1 b2 (s ++ 0 :: js) (t ++ 0 :: jt) flags = .ub ↔ Overruns s ∨ Overruns t) ∧
    (¬ Overruns s → ¬ Overruns t →
      (((∀ i, ¬ Known s i) ∨ ∀ o, ¬ Known t o) →
        openFromName mem b1 b2 (s ++ 0 :: js) (t ++ 0 :: jt) flags = .ok (.error .EINVAL)) ∧
      ∀ i o, Known s i → Known t o → openFromName mem b1 b2 (s ++ 0 :: js) (t ++ 0 :: jt) flags =
        .ok (if mem then .ok ⟨i, o, flags % 2 = 1, St.init⟩ else .error .ENOMEM)) := by
  obtain ⟨u1, g1⟩ := C33_exact (js := js) hs hb1
  obtain ⟨u2, g2⟩ := C33_exact (js := jt) ht hb2
  unfold openFromName
  by_cases o1 : Overruns s
  · rw [u1.2 o1]
    exact ⟨⟨fun _ => .inl o1, fun _ => rfl⟩, fun h => absurd o1 h⟩
  obtain ⟨v, h1, h2, h3⟩ := g1 o1
  rw [h1]
  simp only [Outcome.bind_ok]
  by_cases o2 : Overruns t
  · rw [u2.2 o2]
    exact ⟨⟨fun _ => .inr o2, fun _ => rfl⟩, fun _ h => absurd o2 h⟩
  obtain ⟨w, h4, h5, h6⟩ := g2 o2
  rw [h4]
  simp only [Outcome.bind_ok]
  have key : ∀ i o : Nat, i < ei_end → o < ei_end → v = i → w = o →
      (if v = -1 ∨ w = -1 then .ok (.error .EINVAL) else openFromIndex mem v w flags) =
        .ok (if mem then .ok ⟨i, o, flags % 2 = 1, St.init⟩ else .error .ENOMEM) := by
    rintro i o hi ho rfl rfl
    rw [if_neg (by omega)]
    unfold openFromIndex encodingAt
    cases mem with
    | false => rfl
    | true =>
      rw [if_pos rfl, if_pos ⟨by omega, by omega⟩, if_pos ⟨by omega, by omega⟩]
      simp [Nat.testBit_zero]
  refine ⟨⟨fun h => ?_, fun h => h.elim (absurd · o1) (absurd · o2)⟩, fun _ _ => ⟨fun h => ?_, fun i o hi ho => ?_⟩⟩
  · rcases h2 with e | ⟨i, hi, e1⟩
    · rw [if_pos (.inl e)] at h; cases h
    · rcases h5 with e | ⟨o, ho, e2⟩
      · rw [if_pos (.inr e)] at h; cases h
      · rw [key i o hi ho e1 e2] at h; cases h
  · rw [if_pos]
    rcases h with h | h
    · exact .inl (h2.resolve_right fun ⟨i, _, e⟩ => h i ((h3 i).1 e))
    · exact .inr (h5.resolve_right fun ⟨i, _, e⟩ => h i ((h6 i).1 e))
  · have e1 := (h3 i).2 hi
    have e2 := (h6 o).2 ho
    rcases h2 with e | ⟨i', hi', e⟩
    · omega
    rcases h5 with e' | ⟨o', ho', e'⟩
    · omega
    exact key i o (by omega) (by omega) e1 e2

/-! ## C36 -/

/-- C36 and C33 for every two strings given to `reiconv_open`: it accesses memory out of bounds exactly if one of them has more
than 40 bytes that count, or its part before the first slash overruns; otherwise it does what `reiconv_open_from_name` does with
these parts, discarding invalid input exactly if the source name ends in `//IGNORE` or the target name contains it. -/
theorem C36_exact {s t js jt : List Byte} (mem : Bool) {k : Stack} (hk : k.Sized) (hs : 0 ∉ s) (ht : 0 ∉ t) :
    (openDesc mem k (t ++ 0 :: jt) (s ++ 0 :: js) = .ub ↔
      40 < nameLen s ∨ 40 < nameLen t ∨ Overruns (baseName s) ∨ Overruns (baseName t)) ∧
    (nameLen s ≤ 40 → nameLen t ≤ 40 → ∃ flag : Bool, (flag = true ↔ EndsIgnore s ∨ HasIgnore t) ∧
      openDesc mem k (t ++ 0 :: jt) (s ++ 0 :: js) = openFromName mem scratch scratch (baseName s ++ [0]) (baseName t ++ [0])
        (if flag then REICONV_DISCARD_ILSEQ else 0)) := by
  have hsc : scratch.length = MAX_WORD_LENGTH + 2 := by decide
  refine ⟨?_, fun h1 h2 => C36_open_partial mem hk hs ht h1 h2⟩
  by_cases h1 : 40 < nameLen s
  · refine ⟨fun _ => .inl h1, fun _ => ?_⟩
    unfold openDesc
    rw [canonicalize_spec hs, hk.1, if_neg (by rw [nameLen_eq]; simp only [MAX_WORD_LENGTH]; omega)]
    rfl
  by_cases h2 : 40 < nameLen t
  · refine ⟨fun _ => .inr (.inl h2), fun _ => ?_⟩
    unfold openDesc
    rw [canonicalize_spec hs, hk.1, if_pos (by rw [nameLen_eq]; simp only [MAX_WORD_LENGTH]; omega)]
    simp only [Outcome.bind_ok]
    rw [canonicalize_spec ht, hk.2.1, if_neg (by rw [nameLen_eq]; simp only [MAX_WORD_LENGTH]; omega)]
    rfl
  obtain ⟨flag, _, h3⟩ := C36_open_partial (js := js) (jt := jt) mem hk hs ht (by omega) (by omega)
  rw [h3, (C37_exact (js := []) (jt := []) mem _ (base_zero hs) (base_zero ht) hsc hsc).1]
  exact ⟨fun h => .inr (.inr h), fun h => h.elim (absurd · h1) fun h => h.elim (absurd · h2) id⟩

end Reiconv
