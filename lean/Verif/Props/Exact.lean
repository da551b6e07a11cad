import Verif.Props.Flush

/-!
# C09, C17 and C18 exactly: for which encodings they hold
-/

namespace Reiconv

/-! ## C09 -/

/-- A new descriptor converts the input in one call and a flush to a text that is not the one which `reiconv_convert`
returns. -/
def returnsOther (c : Conv) (inp : List Byte) : Bool :=
  match iconv c St.init (some inp) (some ⟨false, [], List.replicate 8 0⟩) with
  | .ok ⟨.ok _, s1, _, b1⟩ =>
    match iconv c s1 none (some ⟨false, [], List.replicate 8 0⟩), convert c St.init inp true true zeros with
    | .ok ⟨.ok _, _, _, b2⟩, .ok ⟨.ok _, _, _, some d⟩ => decide (d ≠ b1.out ++ b2.out)
    | _, _ => false
  | _ => false

theorem returnsOther_ok {A B : Entry} {inp : List Byte} (h : returnsOther (A.conv B false) inp = true) :
    ∃ out irr r, Whole A.atom (A.conv B false) St.init inp out irr ∧
      convert (A.conv B false) St.init inp true true zeros = .ok r ∧ r.ret = .ok () ∧ r.data ≠ some out := by
  unfold returnsOther at h
  split at h
  · next s1 _ b1 h1 =>
    split at h
    · next b2 _ _ d h2 h3 =>
      obtain ⟨irr, hw⟩ := whole_of_calls A B false h1 rfl rfl rfl h2 rfl
      refine ⟨_, irr, _, hw, h3, rfl, fun e => ?_⟩
      exact of_decide_eq_true h (Option.some.inj e)
    · cases h
  · cases h

/-- **C09** exactly. For a source encoding, the following holds with every target encoding if and only if it is not one
of UCS-2, UCS-4, UTF-16 and UTF-32: on a new descriptor `reiconv_convert` returns; if it returns 0, length and contents are
the conversion of the whole input followed by the flush bytes; if it returns -1 there is no buffer; it returns 0 if every
character can be represented, and fails with `EILSEQ` if the input has no conversion. -/
theorem C09_exact : ∀ A ∈ sources, (∀ B ∈ targets, ∀ (discard : Bool) (inp : List Byte) (alloc : Nat → List Byte),
      (∀ n, (alloc n).length = n) →
      ∃ r, convert (A.conv B discard) St.init inp true true (fun n => some (alloc n)) = .ok r ∧
        ((r.ret = .ok () ∧ ∃ out irr, Whole A.atom (A.conv B discard) St.init inp out irr ∧
            r.outLen = some out.length ∧ r.data = some out) ∨
         ((∃ e, r.ret = .error e) ∧ r.data = none)) ∧
        ((∃ out, Faithful A.atom (A.conv B discard) St.init inp out) → r.ret = .ok ()) ∧
        ((∀ out irr, ¬ Whole A.atom (A.conv B discard) St.init inp out irr) → r.ret = .error .EILSEQ)) ↔
    A.idx ∉ markedIdx := by
  intro A hA
  constructor
  · intro h hm
    have bad : ∀ inp, returnsOther (A.conv ucs4be_entry false) inp = true → False := by
      intro inp hr
      obtain ⟨out, irr, r, hw, h1, h2, h3⟩ := returnsOther_ok hr
      obtain ⟨r', g1, g2, _⟩ := h ucs4be_entry (List.mem_of_getElem? (i := 6) rfl) false inp (fun n => List.replicate n 0)
        (fun n => List.length_replicate)
      have g1 : convert (A.conv ucs4be_entry false) St.init inp true true zeros = .ok r' := g1
      rw [h1] at g1
      cases g1
      rcases g2 with ⟨_, out', irr', hw', _, g3⟩ | ⟨⟨e, g2⟩, _⟩
      · exact h3 (by rw [g3, (whole_det hw hw').1])
      · rw [h2] at g2; cases g2
    simp only [markedIdx, List.mem_cons, List.not_mem_nil, or_false] at hm
    rcases hm with hm | hm | hm | hm
    · obtain rfl := sources_unique ucs2_entry (List.mem_of_getElem? (i := 3) rfl) A hA hm.symm
      exact bad [0x4E, 0x4F, 0xFF, 0xFE] (by decide +kernel)
    · obtain rfl := sources_unique ucs4_entry (List.mem_of_getElem? (i := 6) rfl) A hA hm.symm
      exact bad [0, 1, 0, 0, 0xFF, 0xFE, 0, 0] (by decide +kernel)
    · obtain rfl := sources_unique utf16_entry (List.mem_of_getElem? (i := 9) rfl) A hA hm.symm
      exact bad [0x4E, 0x4F, 0xFF, 0xFE] (by decide +kernel)
    · obtain rfl := sources_unique utf32_entry (List.mem_of_getElem? (i := 12) rfl) A hA hm.symm
      exact bad [0, 1, 0, 0, 0xFF, 0xFE, 0, 0] (by decide +kernel)
  · intro hm B _ discard inp alloc hal
    exact C09_convert_whole_partial A B discard (sources_fixed A hA hm) inp alloc hal

/-! ## C17 -/

/-- The encodings whose encoder has a state: those that write a byte order mark, shift sequences or a character together
with the next one. -/
def encStateIdx : List Nat := [ei_utf16, ei_utf32, ei_big5hkscs1999, ei_big5hkscs2001, ei_big5hkscs2004, ei_big5hkscs2008,
  ei_euc_jisx0213, ei_shift_jisx0213, ei_iso2022_jp3, ei_utf7, ei_iso2022_jp, ei_iso2022_jp1, ei_iso2022_jp2,
  ei_iso2022_jpms, ei_iso2022_cn, ei_iso2022_cn_ext, ei_hz, ei_iso2022_kr]

theorem comp_enc_stateless {idx hu d hd e he} : ∀ os, (compEntry idx hu d hd e he).encOK.Inv os → os = 0 := fun _ h => h

theorem targets_enc_stateless : ∀ B ∈ targets, B.idx ∉ encStateIdx → ∀ os, B.encOK.Inv os → os = 0 := by
  each_target (intro h; first | exact absurd (by decide) h | exact simple_stateless.2 | exact comp_enc_stateless | exact fun _ h => h)

theorem sources_dec_stateless : ∀ A ∈ sources, A.idx ∉ statefulIdx → ∀ is, A.decOK.Inv is → is = IState.init := by
  intro A hA h
  rcases List.mem_cons.1 hA with rfl | hA
  · exact simple_stateless.1
  · exact (targets_stateless A hA h).1

/-- After any calls of `reiconv_convert`, successful or not, all later calls give the replies of a new descriptor. -/
def NoTrace (c : Conv) : Prop := ∀ (ks : List Call) (s : St),
  (∀ k ∈ ks, ∃ (inp : List Byte) (al : Nat → List Byte), k = .convert inp true true (fun n => some (al n)) ∧ ∀ n, (al n).length = n) →
  afterAll c St.init ks = .ok s → ∀ ks', replies c s ks' = replies c St.init ks'

theorem noTrace_stateless {A B : Entry} {discard : Bool} (hA : ∀ is, A.decOK.Inv is → is = IState.init)
    (hB : ∀ os, B.encOK.Inv os → os = 0) : NoTrace (A.conv B discard) := by
  intro ks s _ hs ks'
  obtain ⟨hI, hO⟩ := Entry.inv A B ⟨ks, hs⟩
  have : s = St.init := by
    obtain ⟨is, os⟩ := s
    simp only at hI hO
    rw [hA is hI, hB os hO]; rfl
  rw [this]

/-- What `reiconv_convert` returns, as a reply to the only call. -/
def convOut : Outcome (List Reply) → Option (Option Nat × Option (List Byte))
  | .ok [.convert _ n d] => some (n, d)
  | _ => none

/-- A first call of `reiconv_convert` changes what a second one returns. -/
def leavesTrace (c : Conv) (inp1 inp2 : List Byte) : Bool :=
  match convert c St.init inp1 true true zeros with
  | .ok r => decide (convOut (replies c r.st [.convert inp2 true true zeros]) ≠
      convOut (replies c St.init [.convert inp2 true true zeros]))
  | _ => false

theorem leavesTrace_ok {c : Conv} (inp1 inp2 : List Byte) (h : leavesTrace c inp1 inp2 = true) (hn : NoTrace c) : False := by
  unfold leavesTrace at h
  split at h
  · next r hr =>
    have hz : ∀ (n : Nat), (List.replicate n (0 : Byte)).length = n := fun n => List.length_replicate
    have := hn [.convert inp1 true true zeros] r.st (by
      intro k hk
      rw [List.mem_singleton.1 hk]
      exact ⟨inp1, fun n => List.replicate n 0, rfl, hz⟩) (by simp only [afterAll, Call.after, hr]; rfl)
      [.convert inp2 true true zeros]
    rw [this] at h
    exact of_decide_eq_true h rfl
  · cases h

/-- The entries whose decoder has a state, each with a target encoding without state, a first and a second input. -/
noncomputable def sourceTraces : List (Entry × Entry × List Byte × List Byte) :=
  [(ucs2_entry, utf8_entry, [0xFF, 0xFE], [0x12, 0x34]),
   (ucs4_entry, utf8_entry, [0xFF, 0xFE, 0, 0], [0, 1, 0, 0]),
   (utf16_entry, utf8_entry, [0xFF, 0xFE], [0x12, 0x34]),
   (utf32_entry, utf8_entry, [0xFF, 0xFE, 0, 0], [0, 1, 0, 0]),
   (big5hkscs1999_entry, iso8859_1_entry, [0x88, 0x62, 0x41], [0x41]),
   (big5hkscs2001_entry, iso8859_1_entry, [0x88, 0x62, 0x41], [0x41]),
   (big5hkscs2004_entry, iso8859_1_entry, [0x88, 0x62, 0x41], [0x41]),
   (big5hkscs2008_entry, iso8859_1_entry, [0x88, 0x62, 0x41], [0x41]),
   (cp1255_entry, ascii_entry, [0xE0, 0x41], [0x41]),
   (cp1258_entry, ascii_entry, [0xC2, 0x41], [0x41]),
   (tcvn_entry, ascii_entry, [0xA2, 0x41], [0x41]),
   (euc_jisx0213_entry, iso8859_1_entry, [0xAB, 0xC4, 0x41], [0x41]),
   (shift_jisx0213_entry, iso8859_1_entry, [0x86, 0x63, 0x41], [0x41]),
   (iso2022_jp3_entry, iso8859_1_entry, [0x1B, 0x24, 0x28, 0x51, 0x2B, 0x44, 0x30, 0x21], [0x41]),
   (utf7_entry, utf8_entry, [0x2B, 0x41, 0xFF], [0x41]),
   (iso2022_jp_entry, utf8_entry, [0x1B, 0x24, 0x42, 0xFF], [0x24, 0x22]),
   (iso2022_jp1_entry, utf8_entry, [0x1B, 0x24, 0x42, 0xFF], [0x24, 0x22]),
   (iso2022_jp2_entry, utf8_entry, [0x1B, 0x24, 0x42, 0xFF], [0x24, 0x22]),
   (iso2022_jpms_entry, utf8_entry, [0x1B, 0x24, 0x42, 0xFF], [0x24, 0x22]),
   (iso2022_cn_entry, utf8_entry, [0x1B, 0x24, 0x29, 0x41, 0x0E, 0xFF], [0x24, 0x22]),
   (iso2022_cn_ext_entry, utf8_entry, [0x1B, 0x24, 0x29, 0x41, 0x0E, 0xFF], [0x24, 0x22]),
   (hz_entry, utf8_entry, [0x7E, 0x7B, 0xFF], [0x24, 0x22]),
   (iso2022_kr_entry, utf8_entry, [0x1B, 0x24, 0x29, 0x43, 0x0E, 0xFF], [0x30, 0x21])]

theorem sourceTraces_idx : sourceTraces.map (·.1.idx) = statefulIdx := by decide +kernel
theorem sourceTraces_target : ∀ x ∈ sourceTraces, x.2.1.idx ∉ encStateIdx := by decide +kernel
theorem sourceTraces_ok : ∀ x ∈ sourceTraces, leavesTrace (x.1.conv x.2.1 false) x.2.2.1 x.2.2.2 = true := by decide +kernel

/-- The entries whose encoder has a state, each with a first and a second input in UTF-8. -/
noncomputable def targetTraces : List (Entry × List Byte × List Byte) :=
  [(utf16_entry, [0x61, 0xFF], [0x62]),
   (utf32_entry, [0x61, 0xFF], [0x62]),
   (big5hkscs1999_entry, [0xC3, 0x8A, 0xFF], [0x41]),
   (big5hkscs2001_entry, [0xC3, 0x8A, 0xFF], [0x41]),
   (big5hkscs2004_entry, [0xC3, 0x8A, 0xFF], [0x41]),
   (big5hkscs2008_entry, [0xC3, 0x8A, 0xFF], [0x41]),
   (euc_jisx0213_entry, [0xE3, 0x81, 0x8B, 0xFF], [0x41]),
   (shift_jisx0213_entry, [0xE3, 0x81, 0x8B, 0xFF], [0x41]),
   (iso2022_jp3_entry, [0xE3, 0x81, 0x8B, 0xFF], [0x41]),
   (utf7_entry, [0xE3, 0x81, 0x82, 0xFF], [0x41]),
   (iso2022_jp_entry, [0xE3, 0x81, 0x82, 0xFF], [0x41]),
   (iso2022_jp1_entry, [0xE3, 0x81, 0x82, 0xFF], [0x41]),
   (iso2022_jp2_entry, [0xE3, 0x81, 0x82, 0xFF], [0x41]),
   (iso2022_jpms_entry, [0xE3, 0x81, 0x82, 0xFF], [0x41]),
   (iso2022_cn_entry, [0xE3, 0x81, 0x82, 0xFF], [0x41]),
   (iso2022_cn_ext_entry, [0xE3, 0x81, 0x82, 0xFF], [0x41]),
   (hz_entry, [0xE3, 0x81, 0x82, 0xFF], [0x41]),
   (iso2022_kr_entry, [0xE3, 0x81, 0x82, 0xFF], [0x41])]

theorem targetTraces_idx : targetTraces.map (·.1.idx) = encStateIdx := by decide +kernel
theorem targetTraces_ok : ∀ x ∈ targetTraces, leavesTrace (utf8_entry.conv x.1 false) x.2.1 x.2.2 = true := by decide +kernel

theorem sourceTraces_entries : ∀ x ∈ sourceTraces, ∃ k j : Nat, sources[k]? = some x.1 ∧ targets[j]? = some x.2.1 :=
  all_cons ⟨3, 1, rfl, rfl⟩ <| all_cons ⟨6, 1, rfl, rfl⟩ <| all_cons ⟨9, 1, rfl, rfl⟩ <|
  all_cons ⟨12, 1, rfl, rfl⟩ <| all_cons ⟨39, 48, rfl, rfl⟩ <| all_cons ⟨40, 48, rfl, rfl⟩ <|
  all_cons ⟨41, 48, rfl, rfl⟩ <| all_cons ⟨42, 48, rfl, rfl⟩ <| all_cons ⟨72, 0, rfl, rfl⟩ <|
  all_cons ⟨75, 0, rfl, rfl⟩ <| all_cons ⟨105, 0, rfl, rfl⟩ <| all_cons ⟨191, 48, rfl, rfl⟩ <|
  all_cons ⟨192, 48, rfl, rfl⟩ <| all_cons ⟨193, 48, rfl, rfl⟩ <| all_cons ⟨15, 1, rfl, rfl⟩ <|
  all_cons ⟨25, 1, rfl, rfl⟩ <| all_cons ⟨26, 1, rfl, rfl⟩ <| all_cons ⟨27, 1, rfl, rfl⟩ <|
  all_cons ⟨28, 1, rfl, rfl⟩ <| all_cons ⟨33, 1, rfl, rfl⟩ <| all_cons ⟨34, 1, rfl, rfl⟩ <|
  all_cons ⟨35, 1, rfl, rfl⟩ <| all_cons ⟨46, 1, rfl, rfl⟩ all_nil

theorem targetTraces_entries : ∀ x ∈ targetTraces, ∃ k : Nat, targets[k]? = some x.1 :=
  all_cons ⟨8, rfl⟩ <| all_cons ⟨11, rfl⟩ <| all_cons ⟨38, rfl⟩ <| all_cons ⟨39, rfl⟩ <| all_cons ⟨40, rfl⟩ <|
  all_cons ⟨41, rfl⟩ <| all_cons ⟨190, rfl⟩ <| all_cons ⟨191, rfl⟩ <| all_cons ⟨192, rfl⟩ <| all_cons ⟨14, rfl⟩ <|
  all_cons ⟨24, rfl⟩ <| all_cons ⟨25, rfl⟩ <| all_cons ⟨26, rfl⟩ <| all_cons ⟨27, rfl⟩ <| all_cons ⟨32, rfl⟩ <|
  all_cons ⟨33, rfl⟩ <| all_cons ⟨34, rfl⟩ <| all_cons ⟨45, rfl⟩ all_nil

/-- **C17** exactly, for source encodings: with all target encodings whose encoder has no state, earlier calls of
`reiconv_convert` leave no trace if and only if the decoder of the source encoding has no state. -/
theorem C17_sources : ∀ A ∈ sources, (∀ B ∈ targets, B.idx ∉ encStateIdx → ∀ discard : Bool, NoTrace (A.conv B discard)) ↔
    A.idx ∉ statefulIdx := by
  intro A hA
  constructor
  · intro h hi
    rw [← sourceTraces_idx] at hi
    obtain ⟨x, hx, he⟩ := List.mem_map.1 hi
    obtain ⟨k, j, h1, h2⟩ := sourceTraces_entries x hx
    have e := sources_unique A hA x.1 (List.mem_of_getElem? h1) he.symm
    subst e
    exact leavesTrace_ok _ _ (sourceTraces_ok x hx) (h x.2.1 (List.mem_of_getElem? h2) (sourceTraces_target x hx) false)
  · intro hi B hB ho discard
    exact noTrace_stateless (sources_dec_stateless A hA hi) (targets_enc_stateless B hB ho)

/-- **C17** exactly, for target encodings: with all source encodings whose decoder has no state, earlier calls of
`reiconv_convert` leave no trace if and only if the encoder of the target encoding has no state. -/
theorem C17_targets : ∀ B ∈ targets, (∀ A ∈ sources, A.idx ∉ statefulIdx → ∀ discard : Bool, NoTrace (A.conv B discard)) ↔
    B.idx ∉ encStateIdx := by
  intro B hB
  constructor
  · intro h hi
    rw [← targetTraces_idx] at hi
    obtain ⟨x, hx, he⟩ := List.mem_map.1 hi
    obtain ⟨k, h1⟩ := targetTraces_entries x hx
    have e := sources_unique B (List.mem_cons_of_mem _ hB) x.1 (List.mem_cons_of_mem _ (List.mem_of_getElem? h1)) he.symm
    subst e
    exact leavesTrace_ok _ _ (targetTraces_ok x hx) (h utf8_entry (List.mem_of_getElem? (i := 2) rfl) (by decide) false)
  · intro ho A hA hi discard
    exact noTrace_stateless (sources_dec_stateless A hA hi) (targets_enc_stateless B hB ho)

/-! ## C18 -/

/-- The encodings in which every byte is a character: a text cannot end inside a sequence. -/
noncomputable def wholeIdx : List Nat := singleRows.map (·.entry.idx) ++ [ei_cp1255, ei_cp1258, ei_tcvn]

/-- The decoder never waits for more bytes. -/
def Entry.NoMore (A : Entry) : Prop := ∀ is inp, inp ≠ [] → A.atom is inp ≠ .more

theorem not_truncated {A : Entry} (h : A.NoMore) {is : IState} {inp : List Byte} : ¬ Truncated A.atom is inp := by
  intro ht
  induction ht with
  | more hne ha => exact h _ _ hne ha
  | char _ _ _ ih => exact ih
  | shift _ _ _ ih => exact ih

theorem single_noMore : ∀ r ∈ singleRows, r.entry.NoMore := by
  intro r hr is inp hne ha
  obtain ⟨b, t, rfl⟩ := List.exists_cons_of_ne_nil hne
  rcases List.mem_append.1 hr with h | h
  · simp only [plainRows, List.mem_cons, List.not_mem_nil, or_false] at h
    rcases h with rfl | rfl
    · have ha : atomOf ascii_simple.g is (b :: t) = .more := ha
      unfold atomOf at ha
      simp only [ascii_simple] at ha
      by_cases hb : b.toNat < 0x80
      · simp only [if_pos hb] at ha; cases ha
      · simp only [if_neg hb] at ha; cases ha
    · cases ha
  · obtain ⟨e, h, hu, he, _⟩ := sbRows_ok r h
    rw [he] at ha
    have ha : atomOf e.item is (b :: t) = .more := ha
    unfold atomOf SB.item at ha
    simp only at ha
    cases hx : e.decode b.toNat with
    | none => rw [hx] at ha; cases ha
    | some w => rw [hx] at ha; cases ha

theorem comp_noMore {idx hu d hd e he} : (compEntry idx hu d hd e he).NoMore := by
  intro is inp hne ha
  obtain ⟨b, t, rfl⟩ := List.exists_cons_of_ne_nil hne
  have ha : d.atom is (b :: t) = .more := ha
  unfold CompDec.atom at ha
  simp only at ha
  (repeat' split at ha) <;> cases ha

theorem mb_not_single : ∀ r ∈ mbRows, r.entry.idx ∉ singleRows.map (·.entry.idx) := by decide +kernel
theorem uni_not_single : ∀ B ∈ exactUni, B.idx ∉ singleRows.map (·.entry.idx) := by decide +kernel
theorem pair_not_single : ∀ r ∈ pairRows, r.entry.idx ∉ singleRows.map (·.entry.idx) := by decide +kernel
theorem shift_not_single : ∀ r ∈ shiftRows, r.entry.idx ∉ singleRows.map (·.entry.idx) := by decide +kernel
theorem other_not_single : ∀ B ∈ otherEntries, B.idx ∉ singleRows.map (·.entry.idx) := by decide +kernel

theorem whole_noMore : ∀ A ∈ sources, A.idx ∈ wholeIdx → A.NoMore := by
  intro A hA hi
  rcases List.mem_append.1 hi with h | h
  · rcases List.mem_cons.1 hA with rfl | hA
    · exact absurd h (by decide +kernel)
    · cases targets_kinds A hA with
      | single r hr e => exact e ▸ single_noMore r hr
      | multi r hr e => subst e; exact absurd h (mb_not_single r hr)
      | uni hu => exact absurd h (uni_not_single A hu)
      | pair r hr e => subst e; exact absurd h (pair_not_single r hr)
      | shift r hr e => subst e; exact absurd h (shift_not_single r hr)
      | other ho => exact absurd h (other_not_single A ho)
  · simp only [List.mem_cons, List.not_mem_nil, or_false] at h
    rcases h with h | h | h
    · rw [sources_unique A hA cp1255_entry (List.mem_of_getElem? (i := 72) rfl) h]; exact comp_noMore
    · rw [sources_unique A hA cp1258_entry (List.mem_of_getElem? (i := 75) rfl) h]; exact comp_noMore
    · rw [sources_unique A hA tcvn_entry (List.mem_of_getElem? (i := 105) rfl) h]; exact comp_noMore

/-- A byte that is the beginning of a sequence, and `reiconv_convert_static_size` accepts it. -/
def acceptsPart (A : Entry) (b : Byte) : Bool :=
  match A.atom IState.init [b], convertStatic (A.conv utf8_entry false) St.init [b] ⟨false, [], [0, 0, 0, 0]⟩ with
  | .more, .ok (.ok (), _, _) => true
  | _, _ => false

theorem parts_ok : ∀ A ∈ sources, A.idx ∈ wholeIdx ∨
    ∃ b ∈ [0x1B, 0x5C, 0x7E, 0x81, 0xB0, 0xE2, 0x2B], acceptsPart A b = true := by decide +kernel

/-- **C18** exactly. `reiconv_result_size` and `reiconv_convert` report input that ends inside a sequence for every source
encoding (`C18_truncated_partial`). `reiconv_convert_static_size` does so if and only if there is no such input in the
source encoding: for all others it accepts some. -/
theorem C18_exact : ∀ A ∈ sources, (∀ B ∈ targets, ∀ (discard : Bool) (s : St), Reach (A.conv B discard) s →
      ∀ inp room : List Byte, Truncated A.atom s.is inp → ∀ x,
        convertStatic (A.conv B discard) s inp ⟨false, [], room⟩ = .ok x → ∃ e, x.1 = .error e) ↔
    ∀ is inp, ¬ Truncated A.atom is inp := by
  intro A hA
  constructor
  · intro h
    rcases parts_ok A hA with hi | ⟨b, _, hb⟩
    · exact fun is inp => not_truncated (whole_noMore A hA hi)
    · exfalso
      unfold acceptsPart at hb
      split at hb
      · next s2 b2 h1 h2 =>
        obtain ⟨e, he⟩ := h utf8_entry (List.mem_of_getElem? (i := 1) rfl) false St.init (Reach.init _) [b] [0, 0, 0, 0]
          (.more (by simp) h1) _ h2
        cases he
      · cases hb
  · intro h B _ discard s _ inp room ht
    exact absurd ht (h _ _)

/-- The encodings in which no text ends inside a sequence are the single-byte encodings. -/
theorem C18_whole : ∀ A ∈ sources, (∀ is inp, ¬ Truncated A.atom is inp) ↔ A.idx ∈ wholeIdx := by
  intro A hA
  constructor
  · intro h
    rcases parts_ok A hA with hi | ⟨b, _, hb⟩
    · exact hi
    · exfalso
      unfold acceptsPart at hb
      split at hb
      · next h1 _ => exact h IState.init [b] (.more (by simp) h1)
      · cases hb
  · exact fun hi is inp => not_truncated (whole_noMore A hA hi)

/-! ## The hypotheses are met -/

/-- C17: the failed conversion of `~{`, a byte that is none, from HZ, makes the next text be read as Chinese. -/
example : convert (hz_entry.conv utf8_entry false) St.init [0x7E, 0x7B, 0xFF] true true zeros =
      .ok ⟨.error .EILSEQ, ⟨⟨0, 1⟩, 0⟩, none, none⟩ ∧
    leavesTrace (hz_entry.conv utf8_entry false) [0x7E, 0x7B, 0xFF] [0x24, 0x22] = true ∧
    convert (hz_entry.conv utf8_entry false) St.init [0x24, 0x22] true true zeros =
      .ok ⟨.ok (), St.init, some 2, some [0x24, 0x22]⟩ := by
  refine ⟨by decide +kernel, by decide +kernel, by decide +kernel⟩

example : utf8_entry.idx ∉ statefulIdx ∧ cp1252_entry.idx ∉ encStateIdx := by decide +kernel

/-- C18: Big5 and its first byte 0xB0. -/
example : Truncated ces_big5_entry.atom IState.init [0xB0] := .more (by simp) (by decide +kernel)

end Reiconv
