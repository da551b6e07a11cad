import Verif.Props.Lookup

/-!
# C36, C37: opening descriptors; C33 for `reiconv_open`
-/

namespace Reiconv

/-! ## Lemmas -/

theorem canonStr_split {s u v : List Byte} (h : canonStr s = u ++ v) :
    ∃ a b, s = a ++ b ∧ canonStr a = u ∧ canonStr b = v := by
  induction s generalizing u with
  | nil =>
    rw [canonStr_nil] at h
    obtain ⟨rfl, rfl⟩ := List.append_eq_nil_iff.1 h.symm
    exact ⟨[], [], rfl, rfl, rfl⟩
  | cons c s ih =>
    rw [canonStr_cons] at h
    by_cases hc : upCase c = 0x2d ∨ upCase c = 0x5f
    · rw [if_pos hc] at h
      obtain ⟨a, b, rfl, ha, hb⟩ := ih h
      exact ⟨c :: a, b, rfl, by rw [canonStr_cons, if_pos hc, ha], hb⟩
    · rw [if_neg hc] at h
      cases u with
      | nil => exact ⟨[], c :: s, rfl, rfl, by rw [canonStr_cons, if_neg hc]; simpa using h⟩
      | cons x u =>
        simp only [List.cons_append, List.cons.injEq] at h
        obtain ⟨a, b, rfl, ha, hb⟩ := ih h.2
        exact ⟨c :: a, b, rfl, by rw [canonStr_cons, if_neg hc, ha, h.1], hb⟩

/-- The part of a name before the first slash. -/
def baseName (s : List Byte) : List Byte := s.takeWhile fun c => decide (c ≠ 0x2f)

theorem upCase_slash (c : Byte) : upCase c = 0x2f ↔ c = 0x2f := by
  simp only [← UInt8.toNat_inj, upCase_toNat, UInt8.reduceToNat]
  split <;> omega

theorem baseName_cons (c : Byte) (s : List Byte) :
    baseName (c :: s) = if c = 0x2f then [] else c :: baseName s := by
  simp only [baseName, List.takeWhile_cons]
  by_cases h : c = 0x2f <;> simp [h]

theorem base_canon (s : List Byte) : baseName (canonStr s) = canonStr (baseName s) := by
  induction s with
  | nil => rfl
  | cons c s ih =>
    rw [canonStr_cons, baseName_cons]
    by_cases hs : c = 0x2f
    · subst hs
      rw [if_neg (by decide), if_pos rfl, baseName_cons, if_pos (by decide)]; rfl
    · rw [if_neg hs, canonStr_cons]
      split
      · exact ih
      · rw [baseName_cons, if_neg (fun h => hs ((upCase_slash c).1 h)), ih]

theorem base_zero {s : List Byte} (h : 0 ∉ s) : 0 ∉ baseName s := by
  intro hm
  exact h ((List.takeWhile_sublist _).subset hm)

/-- The slashes replaced by NUL. -/
def zap (q : List Byte) : List Byte := q.map fun c => if c = 0x2f then 0 else c

theorem zap_base (k x : List Byte) : ∃ j, zap k ++ 0 :: x = baseName k ++ 0 :: j := by
  induction k with
  | nil => exact ⟨x, rfl⟩
  | cons c k ih =>
    rw [baseName_cons]
    simp only [zap, List.map_cons, List.cons_append] at ih ⊢
    split
    · exact ⟨_, rfl⟩
    · obtain ⟨j, hj⟩ := ih
      exact ⟨j, by rw [hj]; rfl⟩

/-- Whether the loop sets the flag. -/
def hits (pat : List Byte) : List Byte → Bool
  | [] => false
  | c :: q => (decide (c = 0x2f) && decide (7 ≤ q.length) && decide ((q ++ [0]).take pat.length = pat)) ||
      hits pat q

theorem slashLoop_spec {pat : List Byte} (hp : pat.length ≤ 8) (x : List Byte) :
    ∀ (q p : List Byte) (flag : Bool),
    slashLoop pat (p.length + q.length) q.length p.length (p ++ (q ++ 0 :: x)) flag =
      .ok (p ++ (zap q ++ 0 :: x), flag || hits pat q) := by
  intro q
  induction q with
  | nil => intro p flag; simp [slashLoop, zap, hits]
  | cons c q ih =>
    intro p flag
    have hrd : rd (p ++ (c :: q ++ 0 :: x)) p.length = .ok c.toNat := by
      simp [rd]
    have hwr : ∀ v, wr (p ++ (c :: q ++ 0 :: x)) p.length v = .ok (p ++ (v :: q ++ 0 :: x)) := by
      intro v
      unfold wr
      rw [if_pos (by simp)]
      congr 1
      rw [List.set_append_right _ _ (Nat.le_refl _), Nat.sub_self]
      rfl
    have hih : ∀ v f, slashLoop pat (p.length + (q.length + 1)) q.length (p.length + 1)
        (p ++ (v :: q ++ 0 :: x)) f = .ok (p ++ (v :: zap q ++ 0 :: x), f || hits pat q) := by
      intro v f
      have h := ih (p ++ [v]) f
      simp only [List.length_append, List.length_cons, List.length_nil, Nat.zero_add, List.append_assoc,
        List.cons_append, List.nil_append] at h ⊢
      rw [show p.length + (q.length + 1) = p.length + 1 + q.length by omega]
      exact h
    simp only [List.length_cons, slashLoop, hrd, Outcome.bind_ok]
    by_cases hc : c = 0x2f
    · subst hc
      rw [if_pos (by decide), hwr]
      simp only [Outcome.bind_ok]
      by_cases h7 : 7 ≤ q.length
      · rw [if_pos (by omega)]
        have hmem : memEq (p ++ (0 :: q ++ 0 :: x)) (p.length + 1) pat =
            .ok (decide ((q ++ [0]).take pat.length = pat)) := by
          unfold memEq
          rw [if_pos (by simp; omega)]
          rw [show (p ++ (0 :: q ++ 0 :: x)).drop (p.length + 1) = q ++ 0 :: x by
            rw [List.drop_append]; simp]
          rw [show (q ++ 0 :: x).take pat.length = (q ++ [0]).take pat.length by
            rw [show q ++ 0 :: x = (q ++ [0]) ++ x by simp, List.take_append_of_le_length (by simp; omega)]]
        rw [hmem]
        simp only [Outcome.bind_ok]
        rw [hih]
        simp [hits, zap, h7, Bool.or_assoc]
      · rw [if_neg (by omega), hih]
        simp [hits, zap, h7]
    · rw [if_neg (fun h => hc (UInt8.toNat_inj.1 (h.trans rfl))), hih]
      simp [hits, zap, hc]

theorem hits_to {k : List Byte} : hits ignorePat k = true ↔ (0x2f :: ignorePat) <:+: k := by
  induction k with
  | nil => simp [hits]
  | cons c q ih =>
    rw [List.infix_cons_iff]
    simp only [hits, Bool.or_eq_true, Bool.and_eq_true, decide_eq_true_eq, ih]
    refine or_congr ?_ Iff.rfl
    rw [List.cons_prefix_cons, eq_comm (a := (0x2f : Byte)), and_assoc]
    refine and_congr Iff.rfl ?_
    constructor
    · rintro ⟨h7, h⟩
      rw [List.take_append_of_le_length (show ignorePat.length ≤ q.length from h7)] at h
      exact List.prefix_iff_eq_take.2 h.symm
    · intro h
      have h7 : 7 ≤ q.length := h.length_le
      exact ⟨h7, by rw [List.take_append_of_le_length (show ignorePat.length ≤ q.length from h7)]; exact (List.prefix_iff_eq_take.1 h).symm⟩

theorem hits_from {k : List Byte} (h0 : 0 ∉ k) :
    hits (ignorePat ++ [0]) k = true ↔ (0x2f :: ignorePat) <:+ k := by
  induction k with
  | nil => simp [hits]
  | cons c q ih =>
    simp only [List.mem_cons, not_or] at h0
    rw [List.suffix_cons_iff]
    simp only [hits, Bool.or_eq_true, Bool.and_eq_true, decide_eq_true_eq, ih h0.2]
    refine or_congr ?_ Iff.rfl
    rw [List.cons.injEq, eq_comm (a := (0x2f : Byte)), and_assoc]
    refine and_congr Iff.rfl ?_
    constructor
    · rintro ⟨h7, h⟩
      have hl : (ignorePat ++ [(0 : Byte)]).length = 8 := rfl
      rw [hl] at h
      by_cases h8 : 8 ≤ q.length
      · rw [List.take_append_of_le_length h8] at h
        have : (0 : Byte) ∈ q.take 8 := by rw [h]; simp
        exact absurd (List.mem_of_mem_take this) h0.2
      · rw [List.take_of_length_le (by simp; omega)] at h
        exact (List.append_inj_left' h rfl).symm
    · rintro rfl
      exact ⟨by decide, by decide⟩

/-! ## C36 -/

/-- The name ends in `//IGNORE`, up to case, hyphens and underscores. -/
def EndsIgnore (s : List Byte) : Prop := ∃ a b, s = a ++ b ∧ SameName b (lit "//IGNORE")

/-- The name has `//IGNORE` somewhere, up to case, hyphens and underscores. -/
def HasIgnore (s : List Byte) : Prop := ∃ a b c, s = a ++ b ++ c ∧ SameName b (lit "//IGNORE")

theorem canon_ignore : canonStr (lit "//IGNORE") = 0x2f :: ignorePat := by decide

theorem endsIgnore_iff {s : List Byte} : EndsIgnore s ↔ (0x2f :: ignorePat) <:+ canonStr s := by
  constructor
  · rintro ⟨a, b, rfl, h⟩
    rw [canonStr_append, sameName_iff.1 h, canon_ignore]
    exact List.suffix_append _ _
  · rintro ⟨u, h⟩
    obtain ⟨a, b, rfl, _, hb⟩ := canonStr_split h.symm
    exact ⟨a, b, rfl, sameName_iff.2 (by rw [hb, canon_ignore])⟩

theorem hasIgnore_iff {s : List Byte} : HasIgnore s ↔ (0x2f :: ignorePat) <:+: canonStr s := by
  constructor
  · rintro ⟨a, b, c, rfl, h⟩
    rw [canonStr_append, canonStr_append, sameName_iff.1 h, canon_ignore]
    exact ⟨_, _, rfl⟩
  · rintro ⟨u, v, h⟩
    obtain ⟨ab, c, rfl, hab, _⟩ := canonStr_split h.symm
    obtain ⟨a, b, rfl, _, hb⟩ := canonStr_split hab
    exact ⟨a, b, c, rfl, sameName_iff.2 (by rw [hb, canon_ignore])⟩

/-- C36, partial. `reiconv_open` does what `reiconv_open_from_name` does with the names up to their first
slash, discarding invalid input iff the source name ends in `//IGNORE` or the target name *contains*
`//IGNORE`. Names with more than 40 characters (including `//IGNORE`) are excluded, see
`C33_ignore_overflow`. Missing: for the target name it should be "ends in" too, see
`C36_target_not_suffix`. -/
theorem C36_open_partial {s t js jt : List Byte} (mem : Bool) {k : Stack} (hk : k.Sized)
    (hs : 0 ∉ s) (ht : 0 ∉ t) (hls : nameLen s ≤ 40) (hlt : nameLen t ≤ 40) :
    ∃ flag : Bool, (flag = true ↔ EndsIgnore s ∨ HasIgnore t) ∧
      openDesc mem k (t ++ 0 :: jt) (s ++ 0 :: js) =
        openFromName mem scratch scratch (baseName s ++ [0]) (baseName t ++ [0])
          (if flag then REICONV_DISCARD_ILSEQ else 0) := by
  obtain ⟨k1, k2, k3, k4⟩ := hk
  have hsc : scratch.length = MAX_WORD_LENGTH + 2 := by decide
  refine ⟨hits (ignorePat ++ [0]) (canonStr s) || hits ignorePat (canonStr t), ?_, ?_⟩
  · rw [Bool.or_eq_true, hits_from (canonStr_zero hs), hits_to, endsIgnore_iff, hasIgnore_iff]
  · unfold openDesc
    rw [canonicalize_spec hs, k1, if_pos (by rw [nameLen_eq]; simp only [MAX_WORD_LENGTH]; omega)]
    simp only [Outcome.bind_ok]
    rw [canonicalize_spec ht, k2, if_pos (by rw [nameLen_eq]; simp only [MAX_WORD_LENGTH]; omega)]
    simp only [Outcome.bind_ok]
    have h1 := slashLoop_spec (pat := ignorePat ++ [0]) (by decide)
      (k.fromBuf.drop ((canonStr s).length + 1)) (canonStr s) [] false
    have h2 := slashLoop_spec (pat := ignorePat) (by decide)
      (k.toBuf.drop ((canonStr t).length + 1)) (canonStr t) [] (hits (ignorePat ++ [0]) (canonStr s))
    simp only [List.length_nil, Nat.zero_add, List.nil_append, Bool.false_or] at h1 h2
    rw [h1]
    simp only [Outcome.bind_ok]
    rw [h2]
    simp only [Outcome.bind_ok]
    obtain ⟨j1, e1⟩ := zap_base (canonStr s) (k.fromBuf.drop ((canonStr s).length + 1))
    obtain ⟨j2, e2⟩ := zap_base (canonStr t) (k.toBuf.drop ((canonStr t).length + 1))
    rw [e1, e2, base_canon, base_canon, lookupFromName_eq k3 (canonStr_zero (base_zero hs)),
      lookupFromName_eq k4 (canonStr_zero (base_zero ht)), canonStr_idem, canonStr_idem]
    unfold openFromName
    rw [lookupFromName_eq hsc (base_zero hs), lookupFromName_eq hsc (base_zero ht)]

/-- Arrays of the sizes the code uses. -/
def scratchStack : Stack := ⟨scratch, scratch, scratch, scratch⟩

example : scratchStack.Sized := by unfold Stack.Sized; decide
example : EndsIgnore (lit "utf-8//ignore") :=
  endsIgnore_iff.2 (by decide)
example : openDesc true scratchStack (lit "ASCII" ++ [0]) (lit "utf-8//ignore" ++ [0]) =
    .ok (.ok ⟨ei_utf8, ei_ascii, true, St.init⟩) := by decide +kernel

/-- C36 is violated: a target name that only begins with `//IGNORE` after the slash turns the flag on,
where a source name does not. -/
theorem C36_target_not_suffix :
    ¬ EndsIgnore (lit "UTF-8//IGNORED") ∧
    openDesc true scratchStack (lit "UTF-8//IGNORED" ++ [0]) (lit "ASCII" ++ [0]) =
      .ok (.ok ⟨ei_ascii, ei_utf8, true, St.init⟩) ∧
    openDesc true scratchStack (lit "ASCII" ++ [0]) (lit "UTF-8//IGNORED" ++ [0]) =
      .ok (.ok ⟨ei_utf8, ei_ascii, false, St.init⟩) := by
  refine ⟨fun h => ?_, by decide +kernel, by decide +kernel⟩
  exact absurd (endsIgnore_iff.1 h) (by decide)

/-- C33 is violated by `reiconv_open` even for a name from the table: with `//IGNORE` after it, it does
not fit the array on the stack. -/
theorem C33_ignore_overflow :
    lookupFromName scratch (lit "Extended_UNIX_Code_Packed_Format_for_Japanese" ++ [0]) =
      .ok (ei_euc_jp : Int) ∧
    openDesc true scratchStack (lit "UTF-8" ++ [0])
      (lit "Extended_UNIX_Code_Packed_Format_for_Japanese//IGNORE" ++ [0]) = .ub := by
  decide +kernel

/-! ## C37 -/

/-- C37 for names, partial: the call returns; it fails with `EINVAL` iff one of the names is unknown;
otherwise it gives `ENOMEM` if there is no memory, and else a descriptor in its initial state for the
encodings the lookup gives, with the flag as requested. Missing: names that are too long or not ASCII
(C33). -/
theorem C37_names_partial {s t js jt b1 b2 : List Byte} (mem : Bool) (flags : Nat)
    (hs : 0 ∉ s) (ht : 0 ∉ t) (has : IsAscii s) (hat : IsAscii t) (hls : nameLen s ≤ 40)
    (hlt : nameLen t ≤ 40) (hb1 : b1.length = MAX_WORD_LENGTH + 2)
    (hb2 : b2.length = MAX_WORD_LENGTH + 2) :
    ∃ vs vt : Int, lookupFromName b1 (s ++ 0 :: js) = .ok vs ∧ lookupFromName b2 (t ++ 0 :: jt) = .ok vt ∧
      ((vs = -1 ∨ vt = -1) → openFromName mem b1 b2 (s ++ 0 :: js) (t ++ 0 :: jt) flags =
        .ok (.error .EINVAL)) ∧
      (¬ (vs = -1 ∨ vt = -1) → ∃ i o : Nat, vs = i ∧ vt = o ∧ i < ei_end ∧ o < ei_end ∧
        openFromName mem b1 b2 (s ++ 0 :: js) (t ++ 0 :: jt) flags =
          .ok (if mem then .ok ⟨i, o, flags % 2 = 1, St.init⟩ else .error .ENOMEM)) := by
  obtain ⟨vs, h1, h2, _⟩ := lookup_ok (js := js) hs has hls hb1
  obtain ⟨vt, h3, h4, _⟩ := lookup_ok (js := jt) ht hat hlt hb2
  refine ⟨vs, vt, h1, h3, fun h => ?_, fun h => ?_⟩
  · unfold openFromName
    rw [h1]; simp only [Outcome.bind_ok]; rw [h3]; simp only [Outcome.bind_ok]
    rw [if_pos h]
  · obtain ⟨h5, h6⟩ := not_or.1 h
    obtain ⟨i, hi, rfl⟩ := h2.resolve_left h5
    obtain ⟨o, ho, rfl⟩ := h4.resolve_left h6
    refine ⟨i, o, rfl, rfl, hi, ho, ?_⟩
    unfold openFromName
    rw [h1]; simp only [Outcome.bind_ok]; rw [h3]; simp only [Outcome.bind_ok]
    rw [if_neg h]
    unfold openFromIndex encodingAt
    cases mem with
    | false => rfl
    | true =>
      rw [if_pos rfl, if_pos ⟨by omega, by omega⟩, if_pos ⟨by omega, by omega⟩]
      simp [Nat.testBit_zero]

theorem codepages_lt : ∀ x ∈ codepages, x.2 < ei_end := by decide +kernel

/-- C37 for code pages, partial: as for names, for the numbers 0 to 65001. Missing: other numbers are
undefined behaviour (C34). -/
theorem C37_codepages_partial (mem : Bool) (flags a b : Nat) (ha : a < CODEPAGE_SIZE)
    (hb : b < CODEPAGE_SIZE) :
    (((∀ i, (a, i) ∉ codepages) ∨ (∀ i, (b, i) ∉ codepages)) →
      openFromCodepage mem a b flags = .ok (.error .EINVAL)) ∧
    (∀ i o, (a, i) ∈ codepages → (b, o) ∈ codepages →
      openFromCodepage mem a b flags =
        .ok (if mem then .ok ⟨i, o, flags % 2 = 1, St.init⟩ else .error .ENOMEM)) := by
  obtain ⟨v, h1, h2, h3⟩ := C34_codepage_partial a ha
  obtain ⟨w, h4, h5, h6⟩ := C34_codepage_partial b hb
  have hopen : openFromCodepage mem a b flags =
      if v = -1 ∨ w = -1 then .ok (.error .EINVAL) else openFromIndex mem v w flags := by
    unfold openFromCodepage
    simp only [h1, h4, Outcome.bind_ok]
  have hlt := codepages_lt
  refine ⟨fun h => ?_, fun i o hi ho => ?_⟩
  · rw [hopen, if_pos (h.imp h3.2 h6.2)]
  · have hv := (h2 i).2 hi
    have hw := (h5 o).2 ho
    have hi' := hlt _ hi
    have ho' := hlt _ ho
    simp only at hi' ho'
    subst hv hw
    clear ha hb h1 h2 h3 h4 h5 h6
    rw [hopen, if_neg (by omega)]
    unfold openFromIndex encodingAt
    cases mem with
    | false => rfl
    | true =>
      rw [if_pos rfl, if_pos ⟨by omega, by omega⟩, if_pos ⟨by omega, by omega⟩]
      simp [Nat.testBit_zero]

/-- C37 for indexes: in range a descriptor for exactly these encodings, out of range (such as the -1 that
a failed lookup gives) undefined behaviour. -/
theorem C37_indexes (flags : Nat) (i o : Int) :
    (0 ≤ i → i < 198 → 0 ≤ o → o < 198 → openFromIndex true i o flags =
      .ok (.ok ⟨i.toNat, o.toNat, flags % 2 = 1, St.init⟩)) ∧
    openFromIndex false i o flags = .ok (.error .ENOMEM) ∧
    (i < 0 ∨ 198 ≤ i ∨ o < 0 ∨ 198 ≤ o → openFromIndex true i o flags = .ub) := by
  refine ⟨fun h1 h2 h3 h4 => ?_, rfl, fun h => ?_⟩
  · unfold openFromIndex encodingAt
    rw [if_pos rfl, if_pos ⟨h1, h2⟩, if_pos ⟨h3, h4⟩]
    simp [Nat.testBit_zero]
  · unfold openFromIndex encodingAt
    rw [if_pos rfl]
    by_cases hi : 0 ≤ i ∧ i < (ei_end : Int)
    · rw [if_pos hi]
      simp only [Outcome.bind_ok]
      rw [if_neg (by simp only [ei_end] at hi ⊢; omega)]
      rfl
    · rw [if_neg hi]; rfl

example : openFromName true scratch scratch (lit "utf8" ++ [0]) (lit "latin1" ++ [0]) 1 =
    .ok (.ok ⟨ei_utf8, ei_iso8859_1, true, St.init⟩) := by decide +kernel
example : openFromName true scratch scratch (lit "utf8" ++ [0]) (lit "klingon" ++ [0]) 0 =
    .ok (.error .EINVAL) := by decide +kernel
example : openFromCodepage true 65001 1252 0 = .ok (.ok ⟨ei_utf8, ei_cp1252, false, St.init⟩) := by
  decide +kernel

end Reiconv
