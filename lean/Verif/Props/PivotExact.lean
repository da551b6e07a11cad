import Verif.Props.Sizes
import Verif.Props.Pivot
import Verif.Props.Join
import Verif.Props.Scalars

/-!
# C49 exactly: for which source encodings it holds
-/

namespace Reiconv

/-- C49 for the targets of which the size asked for is always enough (`C13_exact`): two texts with the same characters, in any two
source encodings without byte order marks, give the same return value, the same reported length and the same data. -/
theorem C49_enough_partial : ∀ A ∈ sources, ∀ A' ∈ sources, A.idx ∉ markedIdx → A'.idx ∉ markedIdx → ∀ (discard : Bool),
    ∀ B ∈ targets, B.idx ∈ enoughIdx discard → ∀ (inp inp' : List Byte) (cs : List Nat),
    A.Text inp cs → A'.Text inp' cs → ∀ (alloc : Nat → List Byte), (∀ n, (alloc n).length = n) →
    ∃ r r', convert (A.conv B discard) St.init inp true true (fun n => some (alloc n)) = .ok r ∧
      convert (A'.conv B discard) St.init inp' true true (fun n => some (alloc n)) = .ok r' ∧
      r.ret = r'.ret ∧ r.outLen = r'.outLen ∧ r.data = r'.data := by
  intro A hA A' hA' hm hm' discard B hB hi inp inp' cs h h' alloc hal
  have f := sources_fixed A hA hm
  have f' := sources_fixed A' hA' hm'
  obtain ⟨r, r', h1, h1', h2, h3, h4, _⟩ := C49_same_result_partial A A' B discard f f' inp inp' cs h h' alloc hal
  refine ⟨r, r', h1, h1', ?_⟩
  have enough := (C13_exact discard B hB).2 hi
  obtain ⟨x, g1, g2⟩ := convert_cases A B discard f inp alloc hal
  rw [h1] at g1; cases g1
  rcases g2 with ⟨out, irr, hw, _⟩ | ⟨_, g2, g4, g3⟩
  · have hw' : Whole A'.atom (A'.conv B discard) St.init inp' out irr :=
      (whole_iff_write h' out irr).2 ((whole_iff_write h out irr).1 hw)
    obtain ⟨y, k1, k2⟩ := enough A hA hm inp alloc hal ⟨_, _, hw⟩
    obtain ⟨y', k1', k2'⟩ := enough A' hA' hm' inp' alloc hal ⟨_, _, hw'⟩
    rw [h1] at k1; cases k1
    rw [h1'] at k1'; cases k1'
    exact ⟨by rw [k2, k2'], h2, h4 k2 k2'⟩
  · have e := h3.1 g2
    obtain ⟨x', k1, k2⟩ := convert_cases A' B discard f' inp' alloc hal
    rw [h1'] at k1; cases k1
    rcases k2 with ⟨_, _, _, _, k2 | k2⟩ | ⟨_, _, _, k3⟩
    · rw [e] at k2; cases k2.1
    · rw [e] at k2; cases k2.1
    · exact ⟨by rw [g2, e], h2, by rw [g3, k3]⟩

/-- The hypotheses are met: "א" in CP1255, which holds the letter back, and in UTF-8, to UTF-16BE. -/
example : cp1255_entry.idx ∉ markedIdx ∧ cp1255_entry.idx ∈ holdingIdx ∧ ei_utf16be ∈ enoughIdx false ∧
    convert (cp1255_entry.conv utf16be_entry false) St.init [0xE0] true true zeros = .ok ⟨.ok (), St.init, some 2, some [5, 0xD0]⟩ ∧
    convert (utf8_entry.conv utf16be_entry false) St.init [0xD7, 0x90] true true zeros =
      .ok ⟨.ok (), St.init, some 2, some [5, 0xD0]⟩ := by
  refine ⟨by decide +kernel, by decide +kernel, by decide +kernel, by decide +kernel, by decide +kernel⟩

/-- Two texts with the same characters in the encodings `A` and `A'` give the same result in every target encoding. -/
def Same (A A' : Entry) : Prop := ∀ B ∈ targets, ∀ (discard : Bool) (inp inp' : List Byte) (cs : List Nat),
  A.Text inp cs → A'.Text inp' cs → ∀ (alloc : Nat → List Byte), (∀ n, (alloc n).length = n) →
  ∃ r r', convert (A.conv B discard) St.init inp true true (fun n => some (alloc n)) = .ok r ∧
    convert (A'.conv B discard) St.init inp' true true (fun n => some (alloc n)) = .ok r' ∧
    r.ret = r'.ret ∧ r.outLen = r'.outLen ∧ r.data = r'.data

/-- Two texts with the same characters, the second in UTF-8, for which this is not so. -/
def differs (A B : Entry) (inp inp' : List Byte) : Bool :=
  match A.readOf inp, utf8_entry.readOf inp' with
  | some cs, some cs' => decide (cs = cs') &&
    match convert (A.conv B true) St.init inp true true zeros, convert (utf8_entry.conv B true) St.init inp' true true zeros with
    | .ok r, .ok r' => r.data != r'.data
    | _, _ => false
  | _, _ => false

theorem differs_sound {A B : Entry} (hB : B ∈ targets) {inp inp' : List Byte} (h : differs A B inp inp' = true) :
    ¬ Same A utf8_entry := by
  intro hs
  unfold differs at h
  split at h
  · next cs cs' h1 h2 =>
    simp only [Bool.and_eq_true, decide_eq_true_eq] at h
    obtain ⟨rfl, h⟩ := h
    obtain ⟨r, r', h3, h4, _, _, h5⟩ := hs B hB true inp inp' cs (Entry.readOf_sound h1) (Entry.readOf_sound h2)
      (fun n => List.replicate n 0) (fun n => List.length_replicate)
    have h3 : convert (A.conv B true) St.init inp true true zeros = .ok r := h3
    have h4 : convert (utf8_entry.conv B true) St.init inp' true true zeros = .ok r' := h4
    rw [h3, h4] at h
    simp only [h5, bne_self_eq_false, Bool.false_eq_true] at h
  · cases h

/-- A text for each encoding with byte order marks and each that holds characters back, and the same text in UTF-8. With a mark
inside the text the second of the two passes of `reiconv_convert` starts in the wrong byte order; a character that is held back
to the end and left out needs no room. -/
noncomputable def sourceDiffs : List (Entry × Entry × List Byte × List Byte) :=
  [(ucs2_entry, utf8_entry, [0, 0x61, 0xFF, 0xFE], [0x61]),
   (ucs4_entry, ucs4be_entry, [0, 1, 0, 0, 0xFF, 0xFE, 0, 0], [0xF0, 0x90, 0x80, 0x80]),
   (utf16_entry, utf8_entry, [0, 0x61, 0xFF, 0xFE], [0x61]),
   (utf32_entry, utf8_entry, [0, 1, 0, 0, 0xFF, 0xFE, 0, 0], [0xF0, 0x90, 0x80, 0x80]),
   (big5hkscs1999_entry, iso8859_1_entry, [0x88, 0x62], [0xC3, 0x8A, 0xCC, 0x84]),
   (big5hkscs2001_entry, iso8859_1_entry, [0x88, 0x62], [0xC3, 0x8A, 0xCC, 0x84]),
   (big5hkscs2004_entry, iso8859_1_entry, [0x88, 0x62], [0xC3, 0x8A, 0xCC, 0x84]),
   (big5hkscs2008_entry, iso8859_1_entry, [0x88, 0x62], [0xC3, 0x8A, 0xCC, 0x84]),
   (cp1255_entry, ascii_entry, [0xE0], [0xD7, 0x90]),
   (cp1258_entry, ascii_entry, [0xC2], [0xC3, 0x82]),
   (tcvn_entry, ascii_entry, [0xA2], [0xC3, 0x82]),
   (euc_jisx0213_entry, iso8859_1_entry, [0xAB, 0xC4], [0xC3, 0xA6, 0xCC, 0x80]),
   (shift_jisx0213_entry, iso8859_1_entry, [0x86, 0x63], [0xC3, 0xA6, 0xCC, 0x80]),
   (iso2022_jp3_entry, iso8859_1_entry, [0x1B, 0x24, 0x28, 0x51, 0x2B, 0x44], [0xC3, 0xA6, 0xCC, 0x80])]

theorem sourceDiffs_idx : sourceDiffs.map (·.1.idx) = markedIdx ++ holdingIdx := by decide +kernel
theorem sourceDiffs_ok : ∀ x ∈ sourceDiffs, differs x.1 x.2.1 x.2.2.1 x.2.2.2 = true := by decide +kernel
theorem sourceDiffs_entries : ∀ x ∈ sourceDiffs, ∃ k j : Nat, sources[k]? = some x.1 ∧ targets[j]? = some x.2.1 :=
  all_cons ⟨3, 1, rfl, rfl⟩ <| all_cons ⟨6, 6, rfl, rfl⟩ <| all_cons ⟨9, 1, rfl, rfl⟩ <|
  all_cons ⟨12, 1, rfl, rfl⟩ <| all_cons ⟨39, 48, rfl, rfl⟩ <| all_cons ⟨40, 48, rfl, rfl⟩ <|
  all_cons ⟨41, 48, rfl, rfl⟩ <| all_cons ⟨42, 48, rfl, rfl⟩ <| all_cons ⟨72, 0, rfl, rfl⟩ <|
  all_cons ⟨75, 0, rfl, rfl⟩ <| all_cons ⟨105, 0, rfl, rfl⟩ <| all_cons ⟨191, 48, rfl, rfl⟩ <|
  all_cons ⟨192, 48, rfl, rfl⟩ <| all_cons ⟨193, 48, rfl, rfl⟩ all_nil

/-- **C49** exactly. A source encoding gives the same results as all the encodings without byte order marks that hold nothing
back, if and only if it is one of them. -/
theorem C49_exact : ∀ A ∈ sources,
    (∀ A' ∈ sources, A'.idx ∉ markedIdx → A'.idx ∉ holdingIdx → Same A A') ↔ A.idx ∉ markedIdx ∧ A.idx ∉ holdingIdx := by
  intro A hA
  constructor
  · intro h
    rw [← not_or, ← List.mem_append, ← sourceDiffs_idx]
    intro hi
    obtain ⟨x, hx, he⟩ := List.mem_map.1 hi
    obtain ⟨k, j, h1, h2⟩ := sourceDiffs_entries x hx
    have e := sources_unique A hA x.1 (List.mem_of_getElem? h1) he.symm
    subst e
    exact differs_sound (List.mem_of_getElem? h2) (sourceDiffs_ok x hx)
      (h utf8_entry (List.mem_of_getElem? (i := 2) rfl) (by decide +kernel) (by decide +kernel))
  · rintro ⟨h1, h2⟩ A' hA' h3 h4 B hB discard inp inp' cs h h' alloc hal
    exact C49_registered_partial A hA A' hA' B hB h1 h3 h2 h4 discard inp inp' cs h h' alloc hal

/-- C58, UTF-8 as a hub also for sources that hold characters back: for the targets of which the size asked for is always
enough (`C13_exact`), converting a text to UTF-8 and the result to `B` gives what the direct conversion to `B` gives. -/
theorem C58_hub_enough : ∀ A ∈ sources, A.idx ∉ beyondIdx → A.idx ∉ markedIdx → ∀ (discard discard' : Bool),
    ∀ B ∈ targets, B.idx ∈ enoughIdx discard → ∀ (inp : List Byte) (alloc : Nat → List Byte), (∀ n, (alloc n).length = n) →
    (∃ cs, A.Text inp cs) → ∃ m u r r',
      convert (A.conv utf8_entry discard') St.init inp true true (fun n => some (alloc n)) = .ok m ∧ m.ret = .ok () ∧
      m.data = some u ∧
      convert (utf8_entry.conv B discard) St.init u true true (fun n => some (alloc n)) = .ok r ∧
      convert (A.conv B discard) St.init inp true true (fun n => some (alloc n)) = .ok r' ∧
      r.ret = r'.ret ∧ r.outLen = r'.outLen ∧ r.data = r'.data := by
  rintro A hA hb hm discard discard' B hB hi inp alloc hal ⟨cs, h⟩
  have hs := (C58_registered A hA).2 hb inp cs h
  obtain ⟨m, h1, h2, _, h3⟩ := convert_text discard' (sources_fixed A hA hm) h
    (utf8_encodes.2 ⟨hs, rfl⟩ : utf8_entry.Encodes cs _) alloc hal
  obtain ⟨r, r', h4⟩ := C49_enough_partial utf8_entry (List.mem_of_getElem? (i := 2) rfl) A hA (by decide) hm discard B hB hi
    _ inp cs ((C19_utf8_decoding _ _).2 ⟨hs, rfl⟩) h alloc hal
  exact ⟨m, _, r, r', h1, h2, h3, h4⟩

/-- "Việt" in TCVN, whose last letter but one is held back, to UTF-16. -/
example : tcvn_entry ∈ sources ∧ tcvn_entry.idx ∈ holdingIdx ∧ tcvn_entry.idx ∉ beyondIdx ∧ tcvn_entry.idx ∉ markedIdx ∧
    utf16_entry ∈ targets ∧ utf16_entry.idx ∈ enoughIdx false ∧
    tcvn_entry.readOf [0x56, 0x69, 0xd6, 0x74] = some [0x56, 0x69, 0x1ec7, 0x74] :=
  ⟨List.mem_of_getElem? (i := 105) rfl, by decide +kernel, by decide +kernel, by decide +kernel,
    List.mem_of_getElem? (i := 8) rfl, by decide +kernel, by decide +kernel⟩

end Reiconv
