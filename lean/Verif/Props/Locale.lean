import Verif.Locale
import Verif.Props.Lookup

/-!
# C39 (locale charset), C40 (Windows code pages)
-/

namespace Reiconv

/-! ## C39 -/

/-- `s` comes before `t` in the order of bytes. -/
def Before (s t : List Byte) : Prop := strCmp s t < 0

theorem strCmp_eq {s t : List Byte} : (0 ∉ s) → (0 ∉ t) → (strCmp s t = 0 ↔ s = t) := by
  induction s generalizing t with
  | nil =>
    intro _ ht
    cases t with
    | nil => simp [strCmp]
    | cons y t =>
      simp only [List.mem_cons, not_or] at ht
      have : y.toNat ≠ 0 := fun h => ht.1 (UInt8.toNat_inj.1 h.symm)
      simp only [strCmp, reduceCtorEq, iff_false]
      omega
  | cons x s ih =>
    intro hs ht
    simp only [List.mem_cons, not_or] at hs
    cases t with
    | nil =>
      have : x.toNat ≠ 0 := fun h => hs.1 (UInt8.toNat_inj.1 h.symm)
      simp only [strCmp, reduceCtorEq, iff_false]
      omega
    | cons y t =>
      simp only [List.mem_cons, not_or] at ht
      simp only [strCmp]
      split
      · next h => rw [ih hs.2 ht.2, h]; simp
      · next h =>
        have : x.toNat ≠ y.toNat := fun he => h (UInt8.toNat_inj.1 he)
        simp only [List.cons.injEq, h, false_and, iff_false]
        omega

theorem strCmp_trans {s t u : List Byte} (ht : 0 ∉ t) (h1 : strCmp s t < 0) (h2 : strCmp t u ≤ 0) : strCmp s u < 0 := by
  induction s generalizing t u with
  | nil =>
    cases t with
    | nil => simp [strCmp] at h1
    | cons y t =>
      cases u with
      | nil => simp only [strCmp] at h1 h2; omega
      | cons z u =>
        simp only [strCmp] at h1 h2 ⊢
        split at h2
        · next h => subst h; exact h1
        · omega
  | cons x s ih =>
    cases t with
    | nil => simp only [strCmp] at h1; omega
    | cons y t =>
      cases u with
      | nil =>
        simp only [List.mem_cons, not_or] at ht
        have : y.toNat ≠ 0 := fun h => ht.1 (UInt8.toNat_inj.1 h.symm)
        simp only [strCmp] at h2
        omega
      | cons z u =>
        simp only [strCmp] at h1 h2 ⊢
        by_cases hxy : x = y
        · subst hxy
          rw [if_pos rfl] at h1
          by_cases hxz : x = z
          · subst hxz
            rw [if_pos rfl] at h2 ⊢
            exact ih (fun hm => ht (List.mem_cons_of_mem _ hm)) h1 h2
          · rw [if_neg hxz] at h2 ⊢
            have : x.toNat ≠ z.toNat := fun he => hxz (UInt8.toNat_inj.1 he)
            omega
        · rw [if_neg hxy] at h1
          by_cases hyz : y = z
          · subst hyz
            rw [if_neg hxy]; exact h1
          · rw [if_neg hyz] at h2
            have hxz : x ≠ z := by rintro rfl; omega
            rw [if_neg hxz]; omega

/-- The search: `some c` iff the table lists `c` for the name. For every table sorted by name, and every
name. -/
theorem search_spec {table : List (List Byte × List Byte)} (h0 : ∀ e ∈ table, 0 ∉ e.1)
    (hs : table.Pairwise fun a b => Before a.1 b.1) {locale : List Byte} (hl : 0 ∉ locale) :
    ∀ fuel lo hi, lo ≤ hi → hi ≤ table.length → hi - lo < fuel →
      (∀ i e, table[i]? = some e → i < lo → strCmp e.1 locale < 0) →
      (∀ i e, table[i]? = some e → hi ≤ i → strCmp e.1 locale > 0) →
      ∃ o, tableSearch table locale fuel lo hi = .ok o ∧ ∀ c, o = some c ↔ (locale, c) ∈ table := by
  have hpw := List.pairwise_iff_getElem.1 hs
  intro fuel
  induction fuel with
  | zero => intros; omega
  | succ fuel ih =>
    intro lo hi hle hhi hf hlow hhigh
    unfold tableSearch
    by_cases hlt : lo < hi
    · rw [if_pos hlt]
      have hm : (hi + lo) / 2 < table.length := by omega
      simp only [List.getElem?_eq_getElem hm]
      have hme := List.getElem_mem hm
      by_cases hc : strCmp (table[(hi + lo) / 2]).1 locale < 0
      · rw [if_pos hc]
        refine ih _ _ (by omega) hhi (by omega) ?_ hhigh
        intro i e he hi'
        by_cases heq : i = (hi + lo) / 2
        · subst heq
          rw [List.getElem?_eq_getElem hm] at he
          cases he
          exact hc
        · obtain ⟨hil, rfl⟩ := List.getElem?_eq_some_iff.1 he
          exact strCmp_trans (h0 _ hme) (hpw i ((hi + lo) / 2) hil hm (by omega)) (by omega)
      · rw [if_neg hc]
        by_cases hc2 : strCmp (table[(hi + lo) / 2]).1 locale > 0
        · rw [if_pos hc2]
          refine ih _ _ (by omega) (by omega) (by omega) hlow ?_
          intro i e he hi'
          by_cases heq : i = (hi + lo) / 2
          · subst heq
            rw [List.getElem?_eq_getElem hm] at he
            cases he
            exact hc2
          · obtain ⟨hil, rfl⟩ := List.getElem?_eq_some_iff.1 he
            have h1 := hpw ((hi + lo) / 2) i hm hil (by omega)
            have h2 := h0 _ (List.getElem_mem hil)
            by_cases h3 : strCmp table[i].1 locale ≤ 0
            · have := strCmp_trans h2 h1 h3
              omega
            · omega
        · rw [if_neg hc2]
          have he := (strCmp_eq (h0 _ hme) hl).1 (by omega)
          refine ⟨_, rfl, fun c => ⟨?_, ?_⟩⟩
          · rintro h
            cases h
            rw [← he]
            exact hme
          · intro hcm
            obtain ⟨j, hj, hje⟩ := List.getElem_of_mem hcm
            have hirr : ∀ s : List Byte, ¬ Before s s := by
              intro s
              induction s with
              | nil => simp [Before, strCmp]
              | cons x s ih => simpa [Before, strCmp] using ih
            rcases Nat.lt_trichotomy j ((hi + lo) / 2) with h | h | h
            · have := hpw j _ hj hm h
              rw [hje, he] at this
              exact absurd this (hirr _)
            · subst h
              rw [hje]
            · have := hpw _ j hm hj h
              rw [hje, he] at this
              exact absurd this (hirr _)
    · rw [if_neg hlt]
      refine ⟨none, rfl, fun c => ⟨by simp, fun hcm => ?_⟩⟩
      obtain ⟨j, hj, hje⟩ := List.getElem_of_mem hcm
      have hsome : table[j]? = some (locale, c) := by rw [List.getElem?_eq_getElem hj, hje]
      have hself : strCmp locale locale = 0 := (strCmp_eq hl hl).2 rfl
      by_cases hjl : j < lo
      · have := hlow j _ hsome hjl
        simp only [hself] at this
        omega
      · have := hhigh j _ hsome (by omega)
        simp only [hself] at this
        omega

/-- Neighbours in the table are in order. -/
def sortedRows : List (List Byte × List Byte) → Bool
  | a :: b :: l => decide (strCmp a.1 b.1 < 0) && sortedRows (b :: l)
  | _ => true

theorem sortedRows_pairwise {l : List (List Byte × List Byte)} (h0 : ∀ e ∈ l, 0 ∉ e.1)
    (h : sortedRows l = true) : l.Pairwise fun a b => Before a.1 b.1 := by
  induction l with
  | nil => exact .nil
  | cons a l ih =>
    cases l with
    | nil => simp
    | cons b l =>
      simp only [sortedRows, Bool.and_eq_true, decide_eq_true_eq] at h
      have ihl := ih (fun e he => h0 e (List.mem_cons_of_mem _ he)) h.2
      refine List.pairwise_cons.2 ⟨?_, ihl⟩
      intro e he
      rcases List.mem_cons.1 he with rfl | he
      · exact h.1
      · exact strCmp_trans (h0 b (by simp)) h.1 (Int.le_of_lt ((List.pairwise_cons.1 ihl).1 e he))

theorem localeRows_zero : ∀ e ∈ localeRows, 0 ∉ e.1 := by decide +kernel
theorem localeRows_sorted : sortedRows localeRows = true := by decide +kernel

/-- The first of these that is set to something. -/
def firstSet : List (Option (List Byte)) → Option (List Byte)
  | [] => none
  | some (c :: s) :: _ => some (c :: s)
  | _ :: l => firstSet l

/-- C39. The locale is the first non-empty one of `LC_ALL`, `LC_CTYPE`, `LANG`, and if all are unset or
empty, what `setlocale` reports. -/
theorem C39_locale (e : LocaleEnv) :
    getLocale e = match firstSet [e.lcAll, e.lcCtype, e.lang] with
      | some s => some s
      | none => e.current := by
  obtain ⟨a, b, c, d⟩ := e
  rcases a with _ | _ | ⟨a, a'⟩ <;> rcases b with _ | _ | ⟨b, b'⟩ <;> rcases c with _ | _ | ⟨c, c'⟩ <;> rfl

/-- C39. With a locale, `locale_charset` returns: on FreeBSD the charset the table lists for exactly that
name, and if it lists none, like on the other systems without `nl_langinfo`, what comes after the first
dot in the name, or UTF-8 if there is no dot. -/
theorem C39_charset (e : LocaleEnv) {locale : List Byte} (h : getLocale e = some locale)
    (h0 : 0 ∉ locale) :
    (∀ c, (locale, c) ∈ localeRows → localeCharset .freebsd e = .ok c) ∧
    ((∀ c, (locale, c) ∉ localeRows) → localeCharset .freebsd e = localeCharset .other e) ∧
    (∀ a b, 0x2e ∉ a → locale = a ++ 0x2e :: b → localeCharset .other e = .ok b) ∧
    (0x2e ∉ locale → localeCharset .other e = .ok (lit "UTF-8")) := by
  obtain ⟨o, ho, hi⟩ := search_spec localeRows_zero (sortedRows_pairwise localeRows_zero localeRows_sorted)
    h0 (localeRows.length + 1) 0 localeRows.length (by omega) (by omega) (by omega)
    (fun i e _ hi => absurd hi (by omega))
    (fun i e he hi => by
      obtain ⟨hlt, _⟩ := List.getElem?_eq_some_iff.1 he
      omega)
  have hf : localeCharset .freebsd e = .ok (o.getD (afterDot locale)) := by
    simp only [localeCharset, h, ho, Outcome.bind_ok]
    cases o <;> rfl
  have ho' : localeCharset .other e = .ok (afterDot locale) := by simp only [localeCharset, h]
  refine ⟨fun c hc => ?_, fun hc => ?_, ?_, ?_⟩
  · rw [hf, (hi c).2 hc]; rfl
  · cases o with
    | none => rw [hf, ho']; rfl
    | some c => exact absurd ((hi c).1 rfl) (hc c)
  · rintro a b ha rfl
    rw [ho']
    congr 1
    clear hf ho' ho hi h h0
    induction a with
    | nil => rfl
    | cons x a ih =>
      simp only [List.mem_cons, not_or] at ha
      simp only [List.cons_append, afterDot]
      rw [if_neg (Ne.symm ha.1), ih ha.2]
  · intro hd
    rw [ho']
    congr 1
    clear hf ho' ho hi h h0
    induction locale with
    | nil => rfl
    | cons x a ih =>
      simp only [List.mem_cons, not_or] at hd
      simp only [afterDot]
      rw [if_neg (Ne.symm hd.1), ih hd.2]

example : localeCharset .freebsd ⟨some [], none, some (lit "ja_JP.SJIS"), some (lit "C")⟩ =
    .ok (lit "SHIFT_JIS") := by decide +kernel
example : (lit "ja_JP.SJIS", lit "SHIFT_JIS") ∈ localeRows := by decide +kernel
example : localeCharset .other ⟨none, some (lit "de_DE.ISO-8859-1"), none, none⟩ =
    .ok (lit "ISO-8859-1") := by decide +kernel

/-! ## C40 -/

/-- Code pages for which the reported name denotes another encoding than the one registered, or none. -/
def winWrong : List Nat := [950, 932, 949, 1258, 38598]

/-- Code pages that are not registered although the reported name is known. -/
def winUnregistered : List Nat := [20932, 708, 21025]

/-- C40, partial. For every code page the function knows, except those in `winWrong`: if the code page is
registered, the reported name denotes the encoding registered for it; if it is not, then (except those
in `winUnregistered`) the reported name is unknown as well. For all other code pages the name is "ASCII".
Missing: `winWrong` (see `C40_wrong`), and names that are not known to `reiconv_open`. -/
theorem C40_windows_partial :
    (∀ x ∈ winNames, windowsGetcp x.1 = x.2 ∧
      (x.1 ∉ winWrong → x.1 ∉ winUnregistered →
        lookupFromName scratch (lit x.2 ++ [0]) = lookupFromCodepage x.1)) ∧
    (∀ cp, (∀ x ∈ winNames, x.1 ≠ cp) → windowsGetcp cp = "ASCII") := by
  refine ⟨by decide +kernel, fun cp h => ?_⟩
  unfold windowsGetcp
  rw [List.find?_eq_none.2]
  intro x hx hb
  exact h x hx (Nat.eq_of_beq_eq_true hb)

/-- C40 is violated: code page 950 is reported as BIG5, 932 as SHIFT_JIS, 949 as KS_C_5601-1987, 1258 as
VISCII, which are different encodings from the registered ones, and 38598 as ISO-8859-8-I, which is
unknown. -/
theorem C40_wrong :
    [950, 932, 949, 1258, 38598].map (fun cp : Nat =>
      (lookupFromName scratch (lit (windowsGetcp cp) ++ [0]), lookupFromCodepage cp)) =
    [(.ok ei_ces_big5, .ok ei_cp950), (.ok ei_sjis, .ok ei_cp932), (.ok ei_ksc5601, .ok ei_cp949),
      (.ok ei_viscii, .ok ei_cp1258), (.ok (-1), .ok ei_iso8859_8)] := by decide +kernel

/-- The names reported for the unsupported code pages cannot be opened, among them that of US-ASCII. -/
theorem C40_unknown : windowsGetcp 20127 = "CP20127" ∧
    lookupFromName scratch (lit (windowsGetcp 20127) ++ [0]) = .ok (-1) := by decide +kernel

end Reiconv
