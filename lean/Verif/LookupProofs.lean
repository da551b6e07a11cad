import Verif.Lookup

/-!
# Lemmas about name lookup
-/

namespace Reiconv

/-- The canonical form of a name. -/
def canonStr (s : List Byte) : List Byte :=
  (s.map upCase).filter fun c => !(decide (c = 0x2d) || decide (c = 0x5f))

theorem canonStr_nil : canonStr [] = [] := rfl

theorem canonStr_cons (c : Byte) (s : List Byte) : canonStr (c :: s) =
    if upCase c = 0x2d ∨ upCase c = 0x5f then canonStr s else upCase c :: canonStr s := by
  simp only [canonStr, List.map_cons, List.filter_cons]
  by_cases h1 : upCase c = 0x2d <;> by_cases h2 : upCase c = 0x5f <;> simp [h1, h2]

theorem canonStr_append (s t : List Byte) : canonStr (s ++ t) = canonStr s ++ canonStr t := by
  simp [canonStr]

theorem upCase_idem (c : Byte) : upCase (upCase c) = upCase c := by
  unfold upCase
  split
  · next h =>
    rw [if_neg]
    simp only [u8_toNat]
    omega
  · rfl

theorem upCase_zero {c : Byte} (h : c ≠ 0) : upCase c ≠ 0 := by
  unfold upCase
  split
  · intro h2
    have := congrArg UInt8.toNat h2
    simp only [u8_toNat, UInt8.toNat_zero] at this
    omega
  · exact h

theorem upCase_ascii {c : Byte} (h : c.toNat < 0x80) : (upCase c).toNat < 0x80 := by
  unfold upCase
  split
  · simp only [u8_toNat]; omega
  · exact h

theorem canonStr_idem (s : List Byte) : canonStr (canonStr s) = canonStr s := by
  induction s with
  | nil => rfl
  | cons c s ih =>
    rw [canonStr_cons]
    split
    · exact ih
    · next h => rw [canonStr_cons, upCase_idem, if_neg h, ih]

theorem canonStr_zero {s : List Byte} (h : 0 ∉ s) : 0 ∉ canonStr s := by
  induction s with
  | nil => simp [canonStr_nil]
  | cons c s ih =>
    simp only [List.mem_cons, not_or] at h
    rw [canonStr_cons]
    split
    · exact ih h.2
    · simp only [List.mem_cons, not_or]
      exact ⟨fun e => upCase_zero (Ne.symm h.1) e.symm, ih h.2⟩

/-- All bytes are ASCII. -/
def IsAscii (s : List Byte) : Prop := ∀ c ∈ s, c.toNat < 0x80

instance (s : List Byte) : Decidable (IsAscii s) := inferInstanceAs (Decidable (∀ c ∈ s, c.toNat < 0x80))

theorem canonStr_ascii {s : List Byte} (h : IsAscii s) : IsAscii (canonStr s) := by
  intro c hc
  simp only [canonStr, List.mem_filter, List.mem_map] at hc
  obtain ⟨⟨d, hd, rfl⟩, _⟩ := hc
  exact upCase_ascii (h d hd)

theorem take_set_succ {α} (l : List α) (i : Nat) (v : α) (h : i < l.length) :
    (l.set i v).take (i + 1) = l.take i ++ [v] := by
  rw [List.take_add_one]
  simp [List.take_set_of_le, h]

theorem canonLoop_spec {s junk : List Byte} (h : 0 ∉ s) : ∀ (buf : List Byte) (i : Nat),
    canonLoop (s ++ 0 :: junk) buf i =
      if i + (canonStr s).length < buf.length then
        .ok (i + (canonStr s).length,
          buf.take i ++ canonStr s ++ 0 :: buf.drop (i + (canonStr s).length + 1))
      else .ub := by
  induction s with
  | nil =>
    intro buf i
    simp only [List.nil_append, canonLoop, if_true, wr, canonStr_nil, List.length_nil, Nat.add_zero,
      List.append_nil]
    split
    · next hi =>
      simp only [Outcome.bind_ok]
      rw [List.set_eq_take_append_cons_drop, if_pos hi]
    · rfl
  | cons c s ih =>
    intro buf i
    simp only [List.mem_cons, not_or] at h
    simp only [List.cons_append, canonLoop]
    rw [if_neg (Ne.symm h.1), canonStr_cons]
    split
    · exact ih h.2 buf i
    · next hc =>
      simp only [wr]
      split
      · next hi =>
        simp only [Outcome.bind_ok]
        rw [ih h.2, take_set_succ _ _ _ hi]
        simp only [List.length_set, List.length_cons]
        rw [show i + 1 + (canonStr s).length = i + ((canonStr s).length + 1) by omega]
        split
        · next hl =>
          congr 2
          rw [List.drop_set_of_lt (by omega)]
          simp
        · rfl
      · next hi =>
        simp only [Outcome.bind_ub, List.length_cons]
        rw [if_neg (by omega)]

theorem canonicalize_spec {s junk : List Byte} (h : 0 ∉ s) (buf : List Byte) :
    canonicalize (s ++ 0 :: junk) buf =
      if (canonStr s).length < buf.length then
        .ok ((canonStr s).length, canonStr s ++ 0 :: buf.drop ((canonStr s).length + 1))
      else .ub := by
  unfold canonicalize
  rw [canonLoop_spec h]
  simp

theorem rd_append {k x : List Byte} {i : Nat} (h : i < k.length) : rd (k ++ x) i = rd k i := by
  simp [rd, List.getElem?_append_left h]

theorem hashStep_append {k x : List Byte} {i off v : Nat} (h : i < k.length) :
    hashStep (k ++ x) i off v = hashStep k i off v := by
  unfold hashStep; rw [rd_append h]

theorem hashCases_append {k x : List Byte} : ∀ (n v : Nat), n ≤ k.length →
    hashCases (k ++ x) n v = hashCases k n v := by
  intro n
  induction n with
  | zero => intros; rfl
  | succ n ih =>
    intro v h
    simp only [hashCases]
    rw [hashStep_append (by omega)]
    congr 1
    funext v'
    exact ih v' (by omega)

theorem hash_append {k x : List Byte} (h : 2 ≤ k.length) :
    aliasesHash (k ++ x) k.length = aliasesHash k k.length := by
  unfold aliasesHash
  rw [hashCases_append _ _ (by split <;> omega)]
  congr 1
  funext v
  exact hashStep_append (by omega)

theorem asso_ok {i : Nat} (h : i < 132) : ∃ v, asso i = .ok v := by
  unfold asso
  have hl : assoValues.length = 132 := by decide +kernel
  rw [List.getElem?_eq_getElem (by omega)]
  exact ⟨_, rfl⟩

theorem hashStep_ok {k : List Byte} {i off v : Nat} (h : i < k.length) (ha : IsAscii k) (ho : off ≤ 4) :
    ∃ r, hashStep k i off v = .ok r := by
  have hr : rd k i = .ok (k[i].toNat) := by simp [rd, List.getElem?_eq_getElem h]
  have hk := ha k[i] (List.getElem_mem h)
  obtain ⟨w, hw⟩ := asso_ok (i := k[i].toNat + off) (by omega)
  refine ⟨v + w, ?_⟩
  simp [hashStep, hr, hw]

theorem hashCases_ok {k : List Byte} (ha : IsAscii k) : ∀ (n v : Nat), n ≤ k.length →
    ∃ r, hashCases k n v = .ok r := by
  intro n
  induction n with
  | zero => intro v _; exact ⟨v, rfl⟩
  | succ n ih =>
    intro v h
    simp only [hashCases]
    obtain ⟨r, hr⟩ := hashStep_ok (k := k) (i := n) (off := if n = 1 then 2 else if n = 5 then 4 else 0)
      (v := v) (by omega) ha (by split; omega; split <;> omega)
    rw [hr]
    exact ih r (by omega)

theorem hash_ok {k : List Byte} (ha : IsAscii k) (h : 2 ≤ k.length) :
    ∃ r, aliasesHash k k.length = .ok r := by
  unfold aliasesHash
  obtain ⟨v, hv⟩ := hashCases_ok ha (if 1 ≤ k.length ∧ k.length ≤ 9 then k.length else 10) k.length
    (by split <;> omega)
  rw [hv]
  exact hashStep_ok (by omega) ha (by omega)

theorem strEq_append {k x : List Byte} : ∀ m, strEq (k ++ 0 :: x) m = strEq (k ++ [0]) m := by
  induction k with
  | nil =>
    intro m
    cases m with
    | nil => rfl
    | cons y m =>
      simp only [List.nil_append, strEq]
      split
      · rfl
      · simp
  | cons c k ih =>
    intro m
    cases m with
    | nil => rfl
    | cons y m =>
      simp only [List.cons_append, strEq]
      rw [ih]

theorem strEq_eq {k m : List Byte} (hk : 0 ∉ k) (hm : 0 ∉ m) :
    strEq (k ++ [0]) (m ++ [0]) = .ok (decide (k = m)) := by
  induction k generalizing m with
  | nil =>
    cases m with
    | nil => rfl
    | cons y m =>
      simp only [List.mem_cons, not_or] at hm
      simp [strEq, hm.1]
  | cons c k ih =>
    simp only [List.mem_cons, not_or] at hk
    cases m with
    | nil => simp [strEq, Ne.symm hk.1]
    | cons y m =>
      simp only [List.mem_cons, not_or] at hm
      simp only [List.cons_append, strEq]
      by_cases h : c = y
      · subst h
        simp [ih hk.2 hm.2, Ne.symm hk.1]
      · simp [h]

theorem aliasesLookup_append {k x : List Byte} :
    aliasesLookup (k ++ 0 :: x) k.length = aliasesLookup (k ++ [0]) k.length := by
  unfold aliasesLookup
  split
  · next h =>
    rw [hash_append h.2, hash_append h.2]
    congr 1
    funext key
    split
    · split
      · rfl
      · rw [strEq_append]
    · rfl
  · rfl

/-- What the kernel checks about one row of `aliases`. -/
def rowOK (r : Nat × String × Nat) : Bool :=
  let k := lit r.2.1
  decide (aliasesHash k k.length = .ok r.1) && Nat.ble r.1 MAX_HASH_VALUE && Nat.ble 2 k.length &&
  Nat.ble k.length MAX_WORD_LENGTH && decide (0 ∉ k) && decide (IsAscii k) &&
  Nat.blt r.2.2 ei_end && (Nat.beq r.1 464 || decide (canonStr k = k))

theorem rows_ok : ∀ r ∈ aliasRows, rowOK r = true := by decide +kernel

/-- The positions are strictly increasing. -/
def sortedPos : Nat → List (Nat × String × Nat) → Bool
  | _, [] => true
  | p, r :: rs => Nat.blt p r.1 && sortedPos r.1 rs

theorem rows_sorted : sortedPos 3 aliasRows = true := by decide +kernel

theorem sorted_gt {p : Nat} {rs : List (Nat × String × Nat)} (h : sortedPos p rs = true) :
    ∀ r ∈ rs, p < r.1 := by
  induction rs generalizing p with
  | nil => simp
  | cons q rs ih =>
    simp only [sortedPos, Bool.and_eq_true] at h
    have hq : p < q.1 := Nat.le_of_ble_eq_true h.1
    intro r hr
    rcases List.mem_cons.1 hr with rfl | hr
    · exact hq
    · have := ih h.2 r hr; omega

theorem sorted_find {p : Nat} {rs : List (Nat × String × Nat)} (h : sortedPos p rs = true) :
    ∀ r ∈ rs, (rs.find? fun q => Nat.beq q.1 r.1) = some r := by
  induction rs generalizing p with
  | nil => simp
  | cons q rs ih =>
    simp only [sortedPos, Bool.and_eq_true] at h
    intro r hr
    rcases List.mem_cons.1 hr with rfl | hr
    · simp
    · have := sorted_gt h.2 r hr
      have hne : Nat.beq q.1 r.1 = false := by
        rw [Bool.eq_false_iff]; intro he
        have := Nat.eq_of_beq_eq_true he
        omega
      simp only [List.find?_cons, hne]
      exact ih h.2 r hr

theorem aliasAt_row {p : Nat} {n : String} {i : Nat} (h : (p, n, i) ∈ aliasRows) :
    aliasAt p = some (n, i) := by
  unfold aliasAt
  rw [sorted_find rows_sorted _ h]
  rfl

theorem aliasAt_mem {p : Nat} {n : String} {i : Nat} (h : aliasAt p = some (n, i)) :
    (p, n, i) ∈ aliasRows := by
  unfold aliasAt at h
  cases hf : aliasRows.find? fun r => Nat.beq r.1 p with
  | none => rw [hf] at h; cases h
  | some r =>
    rw [hf] at h
    have hm := List.mem_of_find?_eq_some hf
    have hp := List.find?_some hf
    have hp : r.1 = p := Nat.eq_of_beq_eq_true hp
    simp only [Option.map_some, Option.some.injEq] at h
    obtain ⟨a, b⟩ := r
    cases h; cases hp
    exact hm

/-- The names the lookup function knows, with their encoding numbers. -/
def Registered (n : String) (i : Nat) : Prop := ∃ p, (p, n, i) ∈ aliasRows

theorem lookup_iff {k : List Byte} (ha : IsAscii k) (h0 : 0 ∉ k) :
    ∃ o, aliasesLookup (k ++ [0]) k.length = .ok o ∧
      ∀ i, o = some i ↔ ∃ n, Registered n i ∧ lit n = k := by
  unfold aliasesLookup
  split
  · next hl =>
    obtain ⟨key, hkey⟩ := hash_ok ha hl.2
    rw [hash_append hl.2, hkey]
    simp only [Outcome.bind_ok]
    split
    · next hk =>
      cases hat : aliasAt key with
      | none =>
        refine ⟨none, rfl, fun i => ⟨by simp, ?_⟩⟩
        rintro ⟨n, ⟨p, hp⟩, rfl⟩
        have := rows_ok _ hp
        simp only [rowOK, Bool.and_eq_true, decide_eq_true_eq] at this
        obtain ⟨⟨⟨⟨⟨⟨⟨h1, _⟩, _⟩, _⟩, _⟩, _⟩, _⟩, _⟩ := this
        rw [hkey] at h1; cases h1
        rw [aliasAt_row hp] at hat; cases hat
      | some x =>
        obtain ⟨n, j⟩ := x
        have hm := aliasAt_mem hat
        have hr := rows_ok _ hm
        simp only [rowOK, Bool.and_eq_true, decide_eq_true_eq] at hr
        obtain ⟨⟨⟨⟨⟨⟨⟨h1, _⟩, _⟩, _⟩, hn0⟩, _⟩, _⟩, _⟩ := hr
        simp only
        rw [strEq_eq h0 hn0]
        refine ⟨_, rfl, fun i => ?_⟩
        by_cases hkn : k = lit n
        · simp only [hkn, decide_true, if_true, Option.some.injEq]
          constructor
          · rintro rfl; exact ⟨n, ⟨_, hm⟩, rfl⟩
          · rintro ⟨n', ⟨p, hp⟩, hn'⟩
            have := rows_ok _ hp
            simp only [rowOK, Bool.and_eq_true, decide_eq_true_eq] at this
            obtain ⟨⟨⟨⟨⟨⟨⟨h2, _⟩, _⟩, _⟩, _⟩, _⟩, _⟩, _⟩ := this
            rw [hn', ← hkn, hkey] at h2; cases h2
            rw [aliasAt_row hp] at hat; cases hat; rfl
        · simp only [hkn, decide_false, Bool.false_eq_true, if_false, reduceCtorEq, false_iff]
          rintro ⟨n', ⟨p, hp⟩, rfl⟩
          have := rows_ok _ hp
          simp only [rowOK, Bool.and_eq_true, decide_eq_true_eq] at this
          obtain ⟨⟨⟨⟨⟨⟨⟨h2, _⟩, _⟩, _⟩, _⟩, _⟩, _⟩, _⟩ := this
          rw [hkey] at h2; cases h2
          rw [aliasAt_row hp] at hat; cases hat
          exact hkn rfl
    · next hk =>
      refine ⟨none, rfl, fun i => ⟨by simp, ?_⟩⟩
      rintro ⟨n, ⟨p, hp⟩, rfl⟩
      have := rows_ok _ hp
      simp only [rowOK, Bool.and_eq_true, decide_eq_true_eq] at this
      obtain ⟨⟨⟨⟨⟨⟨⟨h1, h2⟩, _⟩, _⟩, _⟩, _⟩, _⟩, _⟩ := this
      rw [hkey] at h1; cases h1
      exact absurd (Nat.le_of_ble_eq_true h2) hk
  · next hl =>
    refine ⟨none, rfl, fun i => ⟨by simp, ?_⟩⟩
    rintro ⟨n, ⟨p, hp⟩, rfl⟩
    have := rows_ok _ hp
    simp only [rowOK, Bool.and_eq_true, decide_eq_true_eq] at this
    obtain ⟨⟨⟨⟨⟨⟨⟨_, _⟩, h3⟩, h4⟩, _⟩, _⟩, _⟩, _⟩ := this
    exact absurd ⟨Nat.le_of_ble_eq_true h4, Nat.le_of_ble_eq_true h3⟩ hl

/-- The result of a lookup, from the canonical name. -/
def lookupK (k : List Byte) : Outcome Int :=
  if k.length < MAX_WORD_LENGTH + 2 then do
    let ap ← aliasesLookup (k ++ [0]) k.length
    match ap with
    | some ei => .ok ei
    | none => .ok (-1)
  else .ub

theorem lookupFromName_eq {buf s junk : List Byte} (hb : buf.length = MAX_WORD_LENGTH + 2) (h : 0 ∉ s) :
    lookupFromName buf (s ++ 0 :: junk) = lookupK (canonStr s) := by
  unfold lookupFromName lookupK
  rw [canonicalize_spec h, hb]
  split
  · simp only [Outcome.bind_ok]
    rw [aliasesLookup_append]
    rfl
  · rfl

theorem row_canon {n : String} {i : Nat} (h : Registered n i) (hn : n ≠ "CP-GR") :
    canonStr (lit n) = lit n := by
  obtain ⟨p, hp⟩ := h
  have := rows_ok _ hp
  simp only [rowOK, Bool.and_eq_true, Bool.or_eq_true, decide_eq_true_eq] at this
  rcases this.2 with h | h
  · have h : p = 464 := Nat.eq_of_beq_eq_true h
    subst h
    have h2 := aliasAt_row hp
    have h3 : aliasAt 464 = some ("CP-GR", ei_cp869) := by decide +kernel
    rw [h2] at h3
    cases h3
    exact absurd rfl hn
  · exact h

theorem row_lt {n : String} {i : Nat} (h : Registered n i) : i < ei_end := by
  obtain ⟨p, hp⟩ := h
  have := rows_ok _ hp
  simp only [rowOK, Bool.and_eq_true, Bool.or_eq_true, decide_eq_true_eq] at this
  exact Nat.le_of_ble_eq_true this.1.2

theorem row_len {n : String} {i : Nat} (h : Registered n i) : (lit n).length ≤ MAX_WORD_LENGTH := by
  obtain ⟨p, hp⟩ := h
  have := rows_ok _ hp
  simp only [rowOK, Bool.and_eq_true, Bool.or_eq_true, decide_eq_true_eq] at this
  exact Nat.le_of_ble_eq_true this.1.1.1.1.2

end Reiconv
