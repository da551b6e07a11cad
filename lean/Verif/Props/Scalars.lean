import Verif.Codec.Scalars2
import Verif.Props.Rev
import Verif.Props.Bounds
import Verif.Props.Pivot
import Verif.Props.MarkRead
import Verif.Props.EscRead

/-!
# C58: which texts have a form in UTF-8

Every text of a registered encoding consists of Unicode scalar values, so that it can be converted to UTF-8 and the other
encodings of all of Unicode without loss, except for the seven encodings of `beyondIdx`.
-/

namespace Reiconv

/-! ## Specification -/

/-- All characters of all texts are Unicode scalar values. -/
def Entry.Scalars (A : Entry) : Prop := ∀ inp cs, A.Text inp cs → ∀ c ∈ cs, Scalar c

/-- The encodings with texts that have other characters, and such a text for each: values above U+10FFFF, a surrogate. -/
noncomputable def beyond : List (Entry × List Byte) :=
  [(ucs4_entry, [0x00, 0x00, 0xd8, 0x00]), (ucs4be_entry, [0x00, 0x00, 0xd8, 0x00]), (ucs4le_entry, [0x00, 0xd8, 0x00, 0x00]),
   (ucs4internal_entry, [0x00, 0xd8, 0x00, 0x00]), (ucs4swapped_entry, [0x00, 0x00, 0xd8, 0x00]),
   (utf7_entry, [0x2b, 0x33, 0x41, 0x41, 0x2d]),                                -- "+3AA-"
   (c99_entry, [0x5c, 0x55, 0x30, 0x30, 0x31, 0x31, 0x30, 0x30, 0x30, 0x30])]   -- "\U00110000"

/-- The numbers of these encodings. -/
def beyondIdx : List Nat := [ei_ucs4, ei_ucs4be, ei_ucs4le, ei_ucs4internal, ei_ucs4swapped, ei_utf7, ei_c99]

theorem beyond_idx : beyond.map (·.1.idx) = beyondIdx := by decide +kernel

/-! ## Proofs -/

/-- The text has a character that is not a scalar value. -/
def Entry.leaves (A : Entry) (inp : List Byte) : Bool :=
  match charsOf A.atom 32 IState.init inp with
  | none => false
  | some (cs0, is) => (cs0 ++ A.dec.kept is).any fun c => !decide (Scalar c)

theorem Entry.leaves_sound {A : Entry} {inp : List Byte} (h : A.leaves inp = true) :
    ∃ cs, A.Text inp cs ∧ ∃ c ∈ cs, ¬ Scalar c := by
  unfold Entry.leaves at h
  split at h
  · cases h
  · next cs0 is h1 =>
    obtain ⟨c, hc, hn⟩ := List.any_eq_true.1 h
    exact ⟨_, ⟨cs0, is, charsOf_sound h1, rfl⟩, c, hc, by simpa using hn⟩

theorem beyond_leaves : ∀ x ∈ beyond, x.1.leaves x.2 = true := by decide +kernel

theorem beyond_sources : ∀ x ∈ beyond, x.1 ∈ sources :=
  all_cons (List.mem_of_getElem? (i := 6) rfl) <| all_cons (List.mem_of_getElem? (i := 7) rfl) <|
  all_cons (List.mem_of_getElem? (i := 8) rfl) <| all_cons (List.mem_of_getElem? (i := 18) rfl) <|
  all_cons (List.mem_of_getElem? (i := 19) rfl) <| all_cons (List.mem_of_getElem? (i := 15) rfl) <|
  all_cons (List.mem_of_getElem? (i := 20) rfl) all_nil

/-- An invariant of the state under which items are scalar values. -/
theorem Entry.scalars_of {A : Entry} (J : IState → Prop) (h0 : J IState.init)
    (hchar : ∀ is s wc n is', J is → A.atom is s = .char wc n is' → Scalar wc ∧ J is')
    (hshift : ∀ is s n is', J is → A.atom is s = .shift n is' → J is')
    (hkept : ∀ is, J is → ∀ c ∈ A.dec.kept is, Scalar c) : A.Scalars := by
  have key : ∀ {is inp w is'}, Chars A.atom is inp w is' → J is → (∀ c ∈ w, Scalar c) ∧ J is' := by
    intro is inp w is' h
    induction h with
    | nil => exact fun h => ⟨by simp, h⟩
    | char _ ha _ ih =>
      intro hj
      obtain ⟨h1, h2⟩ := hchar _ _ _ _ _ hj ha
      obtain ⟨h3, h4⟩ := ih h2
      exact ⟨fun c hc => (List.mem_cons.1 hc).elim (fun e => e ▸ h1) (h3 c), h4⟩
    | shift _ ha _ ih => exact fun hj => ih (hshift _ _ _ _ hj ha)
  rintro inp cs ⟨cs0, is, h1, rfl⟩ c hc
  obtain ⟨h2, h3⟩ := key h1 h0
  exact (List.mem_append.1 hc).elim (h2 c) (hkept is h3 c)

theorem m_scalars {m : M MbRet} (h : M.Gives M.RetS m) (idx : Nat) (hu : unitOf idx = 1) (hg : M.Good M.RetOK 1 m) {E : Encoder}
    (e : SimpleEnc E) : (simpleEntry idx 1 hu (M.simple m hg) e).Scalars := by
  refine Entry.scalars_of (fun _ => True) trivial ?_ (fun _ _ _ _ _ _ => trivial) ?_
  · intro is s wc n is' _ ha
    have ha : atomOf m.val is s = .char wc n is' := ha
    unfold atomOf M.val at ha
    cases hr : m.run s with
    | ok o =>
      rw [hr] at ha
      cases o with
      | some r =>
        have := M.gives_run m s r h hr
        cases r with
        | char v k => cases ha; exact ⟨this, trivial⟩
        | ilseq k => cases ha
        | toofew k => cases ha
      | none => cases ha
    | ub => rw [hr] at ha; cases ha
    | abort => rw [hr] at ha; cases ha
    | diverge => rw [hr] at ha; cases ha
  · intro is _ c hc
    rw [simple_kept] at hc
    cases hc

theorem st_scalars {D : Decoder} {E : Encoder} {d : StDec D} {e : StEnc E} (idx : Nat) (hu : unitOf idx = 1) (J : Nat → Prop)
    (h0 : J 0) (h : ∀ st, J st → M.Gives (M.ItemS J) (d.item st))
    (hf : ∀ f, D.flushwc = some f → ∀ is c, J is.st → (f is).1 = some c → Scalar c) : (stEntry idx hu d e).Scalars := by
  refine Entry.scalars_of (fun is => J is.st) h0 ?_ ?_ ?_
  · intro is s wc n is' hj ha
    obtain ⟨st, h1, rfl⟩ := satom_char ha
    have := M.gives_run _ _ _ (h is.st hj) h1
    exact this
  · intro is s n is' hj ha
    obtain ⟨st, h1, rfl⟩ := satom_shift ha
    have := M.gives_run _ _ _ (h is.st hj) h1
    exact this
  · intro is hj c hc
    unfold Decoder.kept at hc
    split at hc
    · cases hc
    · next f he => exact hf f he is c hj (by simpa using hc)

/-! ### Pairs -/

theorem pair_scalars {body : M SItem} (h : M.Gives (M.ItemS Scalar) body) (idx : Nat) (hu : unitOf idx = 1)
    (hd : M.Good PairItemOK 1 body) {I : Nat → Prop} {comp : Nat → Nat → Option (List Nat)} {last : Nat → List Nat}
    {base : Nat → Nat → BW} (he : PairGood I comp last base) : (pairEntry idx hu hd he).Scalars := by
  refine st_scalars idx hu Scalar (by decide) ?_ ?_
  · intro st hs
    show M.Gives (M.ItemS Scalar) (pairItem body st)
    unfold pairItem
    exact M.gives_ite (fun _ => ⟨hs, by decide⟩) fun _ => h
  · intro f hf is c hj hc
    cases hf
    unfold normal_flushwc at hc
    split at hc
    · cases hc; exact hj
    · cases hc

theorem hk_tail_gives : M.Gives (M.ItemS Scalar) hk_tail := by
  unfold hk_tail
  refine M.gives_byte fun c _ => M.gives_ite (fun _ => ?_) fun _ => trivial
  refine M.gives_need (M.gives_byte fun c2 _ => M.gives_ite (fun h => ?_) fun _ => trivial)
  rcases h with rfl | rfl | rfl | rfl <;> exact ⟨by decide, by decide⟩

theorem hk_body_gives {l : List (M MbRet)} (h : ∀ m ∈ l, M.Gives M.RetS m) : M.Gives (M.ItemS Scalar) (hk_body l) := by
  refine M.gives_andThen _ (hk_gives h) fun r hr => ?_
  cases r with
  | char wc n => exact ⟨hr, by decide⟩
  | ilseq n => exact hk_tail_gives
  | toofew n => exact hk_tail_gives

theorem jxBody_gives {m : M JxRes} (h : M.Gives JxS m) : M.Gives (M.ItemS Scalar) (jxBody m) := by
  refine M.gives_andThen _ h fun r hr => ?_
  cases r with
  | char wc n => exact ⟨hr, by decide⟩
  | pair v n => exact jxPair_scal v hr
  | ilseq => trivial

/-! ### Combining characters -/

/-- The tables have scalar values only. -/
def CompDec.scal (d : CompDec) : Bool :=
  ((List.range 256).all fun c => match d.byte c with
    | none => true
    | some wc => decide (Scalar wc)) && d.data.all fun r => decide (Scalar r.2)

theorem CompDec.comb_data {d : CompDec} {last wc w : Nat} (h : d.comb last wc = some w) : ∃ r ∈ d.data, w = r.2 := by
  unfold CompDec.comb at h
  split at h
  · next x hx =>
    subst h
    unfold CompDec.combine at hx
    split at hx
    · split at hx
      · split at hx <;> cases hx
      · simp only [bind, Outcome.bind] at hx
        split at hx <;> try cases hx
        split at hx <;> try cases hx
        split at hx
        · cases hx
        · split at hx <;> try cases hx
          next r hr =>
          unfold rowAt at hr
          split at hr
          · next y hy => cases hr; exact ⟨_, List.mem_of_getElem? hy, rfl⟩
          · cases hr
    · cases hx
  · cases h

theorem comp_scalars {d : CompDec} (h : d.scal = true) (idx : Nat) (hu : unitOf idx = 1) (hd : d.Ok) (e : CompEnc) (he : e.Ok) :
    (compEntry idx hu d hd e he).Scalars := by
  unfold CompDec.scal at h
  rw [Bool.and_eq_true] at h
  have hb : ∀ (b : Byte) wc, d.byte b.toNat = some wc → Scalar wc := by
    intro b wc hx
    have := List.all_eq_true.1 h.1 b.toNat (List.mem_range.2 (by have := b.toNat_lt; omega))
    rw [hx] at this
    simpa using this
  have hc : ∀ a b w, d.comb a b = some w → Scalar w := by
    intro a b w hx
    obtain ⟨r, hr, rfl⟩ := CompDec.comb_data hx
    simpa using List.all_eq_true.1 h.2 r hr
  have z : Scalar 0 := by decide
  refine Entry.scalars_of (fun is => Scalar is.st) z ?_ ?_ ?_
  · intro is s wc n is' hj ha
    have ha : d.atom is s = .char wc n is' := ha
    unfold CompDec.atom at ha
    split at ha
    · cases ha
    · split at ha
      · cases ha
      · next w hw =>
        split at ha
        · split at ha
          · next v hv =>
            split at ha <;> cases ha
            exact ⟨hc _ _ _ hv, z⟩
          · cases ha; exact ⟨hj, z⟩
        · split at ha <;> cases ha
          exact ⟨hb _ _ hw, hj⟩
  · intro is s n is' hj ha
    have ha : d.atom is s = .shift n is' := ha
    unfold CompDec.atom at ha
    split at ha
    · cases ha
    · split at ha
      · cases ha
      · next w hw =>
        split at ha
        · split at ha
          · next v hv =>
            split at ha <;> cases ha
            exact hc _ _ _ hv
          · cases ha
        · split at ha <;> cases ha
          exact hb _ _ hw
  · intro is hj c hc
    have hc : c ∈ (normal_flushwc is).1.toList := hc
    unfold normal_flushwc at hc
    split at hc
    · rw [Option.mem_toList] at hc; cases hc; exact hj
    · cases hc

/-! ### JAVA -/

theorem loose_lt {ds : List Byte} {v : Nat} (h : Loose ds v) : ds.length ≤ 4 → v < 2 ^ 18 := by
  induction h with
  | nil => intro _; decide
  | @cons d ds v w h1 _ ih =>
    intro hl
    simp only [List.length_cons] at hl
    refine Nat.or_lt_two_pow ?_ (ih (by omega))
    have h2 : v < 36 := by
      unfold looseVal at h1
      dsimp only at h1
      split at h1
      · cases h1; omega
      · split at h1
        · cases h1; omega
        · split at h1
          · cases h1; omega
          · cases h1
    have h3 : 16 ^ ds.length ≤ 16 ^ 3 := Nat.pow_le_pow_right (by decide) (by omega)
    have h4 : v * 16 ^ ds.length ≤ 36 * 16 ^ 3 := Nat.mul_le_mul (by omega) h3
    exact Nat.lt_of_le_of_lt (Nat.mod_le _ _) (by omega)

theorem java_scalar {a s : List Byte} {c : Nat} (h : JavaItem a s c) : Scalar c := by
  cases h with
  | @plain b _ => have := b.toNat_lt; exact .inl (by omega)
  | bmp h1 h2 => have := loose_lt h1.2 (by rw [h1.1]; omega); unfold Scalar; omega
  | pair _ _ h1 h2 h3 h4 => unfold Scalar; omega
  | backslash => decide
  | low => decide
  | high => decide
  | unpaired => decide

theorem java_scalars : java_entry.Scalars := by
  intro s w h
  rw [C57_java_reads] at h
  induction h with
  | nil => simp
  | cons h1 _ ih => exact fun c hc => (List.mem_cons.1 hc).elim (fun e => e ▸ java_scalar h1) (ih c)

/-! ### The kinds -/

theorem bom_scalars : ∀ S ∈ bomForms, S.entry.idx ∉ beyondIdx → S.entry.Scalars := by
  intro S hS hi inp cs h
  rw [C56_reads S hS] at h
  generalize Order.big = o at h
  have hs : ∀ c, S.has c → Scalar c := by
    simp only [bomForms, List.mem_cons, List.not_mem_nil, or_false] at hS
    rcases hS with rfl | rfl | rfl | rfl
    · exact fun c hc => hc.1
    · exact fun c hc => hc.1
    · intro c hc
      have h1 := hc.1.1
      have h2 := hc.1.2
      unfold Scalar; omega
    · exact absurd (by decide) hi
  induction h with
  | nil => simp
  | char h1 _ ih => exact fun c hc => (List.mem_cons.1 hc).elim (fun e => e ▸ hs _ h1) (ih c)
  | mark _ _ ih => exact ih

theorem other_scalars : ∀ A ∈ otherEntries, A.idx ∉ beyondIdx → A.Scalars :=
  all_cons (bom_scalars _ (List.mem_of_getElem? (i := 2) rfl)) <|
  all_cons (fun h => absurd (by decide) h) <|
  all_cons (bom_scalars _ (List.mem_of_getElem? (i := 0) rfl)) <|
  all_cons (bom_scalars _ (List.mem_of_getElem? (i := 1) rfl)) <|
  all_cons (fun h => absurd (by decide) h) <|
  all_cons (fun _ => java_scalars) <|
  all_cons (fun _ => comp_scalars (by decide +kernel) _ _ _ _ _) <|
  all_cons (fun _ => comp_scalars (by decide +kernel) _ _ _ _ _) <|
  all_cons (fun _ => comp_scalars (by decide +kernel) _ _ _ _ _) all_nil

theorem singleRows_scalar : ∀ r ∈ singleRows, ∀ p ∈ r.table, Scalar p.2 := by
  unfold singleRows plainRows
  simp only [List.cons_append, List.nil_append, List.forall_mem_cons]
  refine ⟨?_, ?_, ?_⟩
  · rintro ⟨b, w⟩ h; rw [mem_identity] at h; exact .inl (by simp only; omega)
  · rintro ⟨b, w⟩ h; rw [mem_identity] at h; exact .inl (by simp only; omega)
  · decide +kernel

theorem pair_row_scalars : ∀ r ∈ pairRows, r.entry.Scalars := by
  have h1 := hkscs1999_gives
  have h2 := hkscs2001_gives
  have h3 := hkscs2004_gives
  have h4 := hkscs2008_gives
  exact all_cons (pair_scalars (hk_body_gives (all_cons h1 all_nil)) _ _ _ _) <|
    all_cons (pair_scalars (hk_body_gives (all_cons h1 <| all_cons h2 all_nil)) _ _ _ _) <|
    all_cons (pair_scalars (hk_body_gives (all_cons h1 <| all_cons h2 <| all_cons h3 all_nil)) _ _ _ _) <|
    all_cons (pair_scalars (hk_body_gives (all_cons h1 <| all_cons h2 <| all_cons h3 <| all_cons h4 all_nil)) _ _ _ _) <|
    all_cons (pair_scalars (jxBody_gives euc_jx_gives) _ _ _ _) <|
    all_cons (pair_scalars (jxBody_gives sjx_gives) _ _ _ _) all_nil

theorem single_scalars : ∀ r ∈ singleRows, r.entry.Scalars := by
  intro r hr inp cs h
  rw [C29_single_byte r hr] at h
  induction h with
  | nil => simp
  | cons h1 _ ih => exact fun c hc => (List.mem_cons.1 hc).elim (fun e => e ▸ singleRows_scalar r hr _ h1) (ih c)

theorem uni_scalars : ∀ A ∈ exactUni, A.idx ∉ beyondIdx → A.Scalars := by
  have hf : ∀ S ∈ fixedForms, (∀ c, S.has c → Scalar c) → S.entry.Scalars := by
    intro S hS h inp cs ht c hc
    exact h c (((C23_fixed_units S hS inp cs).1.1 ht).1 c hc)
  have hu : ∀ c, Ucs2 c → Scalar c := by
    intro c hc
    have h1 := hc.1
    have h2 := hc.2
    unfold Scalar; omega
  exact all_cons (fun _ inp cs h => ((C19_utf8_decoding inp cs).1 h).1) <|
    all_cons (fun _ inp cs h => ((C22_utf16be_le inp cs).1.1 h).1) <|
    all_cons (fun _ inp cs h => ((C22_utf16be_le inp cs).2.2.1.1 h).1) <|
    all_cons (fun _ => hf ⟨utf32be_entry, Scalar, b32⟩ (List.mem_of_getElem? (i := 0) rfl) fun _ h => h) <|
    all_cons (fun _ => hf ⟨utf32le_entry, Scalar, l32⟩ (List.mem_of_getElem? (i := 1) rfl) fun _ h => h) <|
    all_cons (fun _ => hf ⟨ucs2be_entry, Ucs2, b16⟩ (List.mem_of_getElem? (i := 2) rfl) hu) <|
    all_cons (fun _ => hf ⟨ucs2le_entry, Ucs2, l16⟩ (List.mem_of_getElem? (i := 3) rfl) hu) <|
    all_cons (fun _ => hf ⟨ucs2internal_entry, Ucs2, l16⟩ (List.mem_of_getElem? (i := 4) rfl) hu) <|
    all_cons (fun _ => hf ⟨ucs2swapped_entry, Ucs2, b16⟩ (List.mem_of_getElem? (i := 5) rfl) hu) <|
    all_cons (fun h => absurd (by decide) h) <| all_cons (fun h => absurd (by decide) h) <|
    all_cons (fun h => absurd (by decide) h) <| all_cons (fun h => absurd (by decide) h) all_nil

theorem multi_scalars : ∀ r ∈ mbRows, r.entry.Scalars :=
  all_cons (m_scalars euc_kr_gives _ _ _ _) <| all_cons (m_scalars cp949_gives _ _ _ _) <|
  all_cons (m_scalars johab_gives _ _ _ _) <| all_cons (m_scalars euc_jp_gives _ _ _ _) <|
  all_cons (m_scalars sjis_gives _ _ _ _) <| all_cons (m_scalars cp932_gives _ _ _ _) <|
  all_cons (m_scalars cp932_gives _ _ _ _) <| all_cons (m_scalars dec_kanji_gives _ _ _ _) <|
  all_cons (m_scalars euc_cn_gives _ _ _ _) <| all_cons (m_scalars ces_gbk_gives _ _ _ _) <|
  all_cons (m_scalars cp936_gives _ _ _ _) <| all_cons (m_scalars gb18030_2022_gives _ _ _ _) <|
  all_cons (m_scalars ces_big5_gives _ _ _ _) <| all_cons (m_scalars cp950_gives _ _ _ _) <|
  all_cons (m_scalars big5_2003_gives _ _ _ _) <| all_cons (m_scalars dec_hanyu_gives _ _ _ _) <|
  all_cons (m_scalars euc_tw_gives _ _ _ _) <| all_cons (m_scalars isoir165_gives _ _ _ _) <|
  all_cons (m_scalars gb2312_gives _ _ _ _) <| all_cons (m_scalars ksc5601_gives _ _ _ _) <|
  all_cons (m_scalars jisx0208_gives _ _ _ _) <| all_cons (m_scalars jisx0212_gives _ _ _ _) all_nil

theorem shift_scalars : ∀ r ∈ shiftRows, r.entry.idx ∉ beyondIdx → r.entry.Scalars :=
  all_cons (fun _ => st_scalars _ _ anyState trivial (fun st _ => hz_gives st) (fun _ h => nomatch h)) <|
  all_cons (fun _ => st_scalars _ _ anyState trivial (fun st _ => iso2022_kr_gives st) (fun _ h => nomatch h)) <|
  all_cons (fun _ => st_scalars _ _ anyState trivial (fun st _ => iso2022_cn_gives st) (fun _ h => nomatch h)) <|
  all_cons (fun _ => st_scalars _ _ anyState trivial (fun st _ => iso2022_cn_ext_gives st) (fun _ h => nomatch h)) <|
  all_cons (fun _ => st_scalars _ _ anyState trivial (fun st _ => iso2022_jp_gives st) (fun _ h => nomatch h)) <|
  all_cons (fun _ => st_scalars _ _ anyState trivial (fun st _ => iso2022_jp1_gives st) (fun _ h => nomatch h)) <|
  all_cons (fun _ => st_scalars _ _ anyState trivial (fun st _ => iso2022_jp2_gives st) (fun _ h => nomatch h)) <|
  all_cons (fun _ => st_scalars _ _ jp3Keeps (jp3Keeps_small (by decide)) (fun st h => iso2022_jp3_gives st h) (by
    intro f hf is c hj hc
    cases hf
    unfold iso2022_jp3_flushwc at hc
    split at hc
    · cases hc; exact hj
    · cases hc)) <|
  all_cons (fun _ => st_scalars _ _ anyState trivial (fun st _ => iso2022_jpms_gives st) (fun _ h => nomatch h)) <|
  all_cons (fun h => absurd (by decide) h) all_nil

/-! ## C58 -/

/-- C58 for every registered source: all characters of all texts in the encoding are Unicode scalar values, exactly if the
encoding is not one of the seven in `beyondIdx`. -/
theorem C58_registered : ∀ A ∈ sources, A.Scalars ↔ A.idx ∉ beyondIdx := by
  intro A hA
  constructor
  · intro hs hi
    rw [← beyond_idx] at hi
    obtain ⟨x, hx, he⟩ := List.mem_map.1 hi
    have hxA : x.1 = A := sources_unique x.1 (beyond_sources x hx) A hA he
    obtain ⟨cs, h1, c, h2, h3⟩ := Entry.leaves_sound (beyond_leaves x hx)
    exact h3 (hs x.2 cs (hxA ▸ h1) c h2)
  · intro hi
    rcases List.mem_cons.1 hA with rfl | hA
    · exact m_scalars gb18030_2005_gives _ _ _ _
    · cases targets_kinds A hA with
      | single r hr e => subst e; exact single_scalars r hr
      | multi r hr e => subst e; exact multi_scalars r hr
      | uni h => exact uni_scalars A h hi
      | pair r hr e => subst e; exact pair_row_scalars r hr
      | shift r hr e => subst e; exact shift_scalars r hr hi
      | other h => exact other_scalars A h hi

/-- C58 at the API, for every registered source but these seven and the four with byte order marks. Input is either a text of
Unicode characters, and `reiconv_convert` to UTF-8 succeeds with exactly the UTF-8 forms of its characters, or
`reiconv_convert` fails with `EILSEQ` whatever the target. -/
theorem C58_utf8 : ∀ A ∈ sources, A.idx ∉ beyondIdx → A.idx ∉ markedIdx → ∀ (inp : List Byte) (alloc : Nat → List Byte),
    (∀ n, (alloc n).length = n) →
    (∃ cs, A.Text inp cs ∧ (∀ c ∈ cs, Scalar c) ∧ ∀ discard, ∃ r,
      convert (A.conv utf8_entry discard) St.init inp true true (fun n => some (alloc n)) = .ok r ∧ r.ret = .ok () ∧
      r.outLen = some (cs.flatMap utf8Enc).length ∧ r.data = some (cs.flatMap utf8Enc)) ∨
    ((¬ ∃ cs, A.Text inp cs) ∧ ∀ B : Entry, ∃ s,
      convert (A.conv B false) St.init inp true true (fun n => some (alloc n)) = .ok ⟨.error .EILSEQ, s, none, none⟩) := by
  intro A hA hb hm inp alloc hal
  have hf := sources_fixed A hA hm
  by_cases h : ∃ cs, A.Text inp cs
  · obtain ⟨cs, h⟩ := h
    have hs := (C58_registered A hA).2 hb inp cs h
    exact .inl ⟨cs, h, hs, fun discard => convert_text discard hf h (utf8_encodes.2 ⟨hs, rfl⟩) alloc hal⟩
  · refine .inr ⟨h, fun B => ?_⟩
    obtain ⟨s, _, h2⟩ := (decode_api hf inp alloc hal).2 h B
    exact ⟨s, h2⟩

/-- Both cases occur: "é" and an unassigned byte in ISO-8859-3. -/
example : iso8859_3_entry ∈ sources ∧ iso8859_3_entry.idx ∉ beyondIdx ∧ iso8859_3_entry.idx ∉ markedIdx ∧
    iso8859_3_entry.leaves [0xe9] = false ∧ charsOf iso8859_3_entry.atom 4 IState.init [0xe9] = some ([0xe9], IState.init) ∧
    charsOf iso8859_3_entry.atom 4 IState.init [0xa5] = none :=
  ⟨List.mem_of_getElem? (i := 51) rfl, by decide +kernel, by decide +kernel, by decide +kernel, by decide +kernel,
    by decide +kernel⟩

/-- C58, there and back: a text in any target encoding but the 36 in which several texts have the same characters, these
seven and the four with byte order marks is converted to UTF-8, and converting the result back gives the text. There is no
condition on the characters. -/
theorem C58_round_trip : ∀ A ∈ targets, A.idx ∉ beyondIdx → A.idx ∉ markedIdx → A.idx ∉ rewrittenIdx →
    ∀ (discard discard' : Bool) (inp : List Byte) (alloc : Nat → List Byte), (∀ n, (alloc n).length = n) →
    (∃ cs, A.Text inp cs) → ∃ r u r',
      convert (A.conv utf8_entry discard) St.init inp true true (fun n => some (alloc n)) = .ok r ∧ r.ret = .ok () ∧
      r.data = some u ∧
      convert (utf8_entry.conv A discard') St.init u true true (fun n => some (alloc n)) = .ok r' ∧ r'.ret = .ok () ∧
      r'.data = some inp := by
  rintro A hA hb hm hr discard discard' inp alloc hal ⟨cs, h⟩
  have hA' := List.mem_cons_of_mem gb18030_2005_source hA
  have hs := (C58_registered A hA').2 hb inp cs h
  have he : utf8_entry.Encodes cs (cs.flatMap utf8Enc) := utf8_encodes.2 ⟨hs, rfl⟩
  obtain ⟨r, h1, h2, _, h3⟩ := convert_text discard (sources_fixed A hA' hm) h he alloc hal
  obtain ⟨r', g1, g2, _, g3⟩ := convert_text (A := utf8_entry) (B := A) discard' simple_fixed
    ((C19_utf8_decoding _ _).2 ⟨hs, rfl⟩) ((C30_registered A hA).2 hr inp cs h) alloc hal
  exact ⟨r, _, r', h1, h2, h3, g1, g2, g3⟩

/-- "가", U+00A1 in EUC-KR. -/
example : euc_kr_entry ∈ targets ∧ euc_kr_entry.idx ∉ beyondIdx ∧ euc_kr_entry.idx ∉ markedIdx ∧ euc_kr_entry.idx ∉ rewrittenIdx ∧
    charsOf euc_kr_entry.atom 4 IState.init [0xb0, 0xa1, 0xa2, 0xae] = some ([0xac00, 0xa1], IState.init) :=
  ⟨List.mem_of_getElem? (i := 42) rfl, by decide +kernel, by decide +kernel, by decide +kernel, by decide +kernel⟩

/-- C58, UTF-8 as a hub: converting a text to UTF-8 and the result to `B` gives what the direct conversion to `B` gives: the
same return value, the same length, the same data. `A` is any source but these seven, those with byte order marks and those
that hold characters back (`C49_depends_on_source`). -/
theorem C58_hub : ∀ A ∈ sources, A.idx ∉ beyondIdx → A.idx ∉ markedIdx → A.idx ∉ holdingIdx → ∀ B ∈ targets,
    ∀ (discard discard' : Bool) (inp : List Byte) (alloc : Nat → List Byte), (∀ n, (alloc n).length = n) →
    (∃ cs, A.Text inp cs) → ∃ m u r r',
      convert (A.conv utf8_entry discard') St.init inp true true (fun n => some (alloc n)) = .ok m ∧ m.ret = .ok () ∧
      m.data = some u ∧
      convert (utf8_entry.conv B discard) St.init u true true (fun n => some (alloc n)) = .ok r ∧
      convert (A.conv B discard) St.init inp true true (fun n => some (alloc n)) = .ok r' ∧
      r.ret = r'.ret ∧ r.outLen = r'.outLen ∧ r.data = r'.data := by
  rintro A hA hb hm hh B hB discard discard' inp alloc hal ⟨cs, h⟩
  have hs := (C58_registered A hA).2 hb inp cs h
  obtain ⟨m, h1, h2, _, h3⟩ := convert_text discard' (sources_fixed A hA hm) h
    (utf8_encodes.2 ⟨hs, rfl⟩ : utf8_entry.Encodes cs _) alloc hal
  obtain ⟨r, r', h4⟩ := C49_registered_partial utf8_entry (List.mem_of_getElem? (i := 2) rfl) A hA B hB (by decide) hm
    (by decide) hh discard _ inp cs ((C19_utf8_decoding _ _).2 ⟨hs, rfl⟩) h alloc hal
  exact ⟨m, _, r, r', h1, h2, h3, h4⟩

example : euc_kr_entry.idx ∉ holdingIdx := by decide +kernel

/-- C53 without the condition that the characters are scalar values: `A` is any encoding but the 36 of `rewrittenIdx` and the
seven of `beyondIdx`. Missing: tag characters. -/
theorem C58_round_trip_any_partial : ∀ A ∈ targets, A.idx ∉ rewrittenIdx → A.idx ∉ beyondIdx → ∀ B ∈ targets, B.idx ∉ changedIdx →
    ∀ (inp room room2 : List Byte) (r r2 : CallRes),
    iconv (A.conv B false) St.init (some inp) (some ⟨false, [], room⟩) = .ok r → r.ret = .ok 0 →
    iconv (A.conv B false) r.st none (some ⟨false, [], room2⟩) = .ok r2 → r2.ret = .ok 0 →
    (∀ cs, A.Text inp cs → ∀ c ∈ cs, isTag c = false) →
    ∀ (discard : Bool) (alloc : Nat → List Byte), (∀ n, (alloc n).length = n) →
    ∃ x, convert (B.conv A discard) St.init (r.buf.out ++ r2.buf.out) true true
        (fun n => some (alloc n)) = .ok x ∧ x.ret = .ok () ∧ x.data = some inp :=
  fun A hA ha hb B hB hc inp room room2 r r2 h1 h2 h3 h4 h5 =>
    C53_round_trip A hA ha B hB hc inp room room2 r r2 h1 h2 h3 h4 fun cs ht c hcs =>
      ⟨(C58_registered A (List.mem_cons_of_mem _ hA)).2 hb inp cs ht c hcs, h5 cs ht c hcs⟩

/-- C58 is violated for the seven: `reiconv_convert` reads these texts without an error and writes U+FFFD in UTF-8. -/
theorem C58_beyond_violation : ∀ x ∈ beyond,
    (∃ cs, x.1.Text x.2 cs ∧ ∃ c ∈ cs, ¬ Scalar c) ∧
    ∃ r, convert (x.1.conv utf8_entry false) St.init x.2 true true (fun n => some (List.replicate n 0)) = .ok r ∧
      r.ret = .ok () ∧ r.data = some [0xef, 0xbf, 0xbd] := by
  have h : ∀ x ∈ beyond, (match convert (x.1.conv utf8_entry false) St.init x.2 true true (fun n => some (List.replicate n 0)) with
      | .ok r => r.ret == .ok () && r.data == some [0xef, 0xbf, 0xbd]
      | _ => false) = true := by decide +kernel
  intro x hx
  refine ⟨Entry.leaves_sound (beyond_leaves x hx), ?_⟩
  have := h x hx
  split at this
  · next r hr =>
    rw [Bool.and_eq_true] at this
    exact ⟨r, hr, by simpa using this.1, by simpa using this.2⟩
  · cases this

end Reiconv
