import Verif.Props.Kinds
import Verif.Props.Comp

/-!
# Which registered encodings read back what they write (C42), and which write what they read (C30)

Both are settled for each of the 197 registered targets: for the encodings not listed it is proved for all texts,
for each listed one there is a text for which it fails.
-/

namespace Reiconv

/-- What is written in `B` for a text of Unicode characters is read as this text. -/
def Entry.ReadsBack (B : Entry) : Prop :=
  ∀ (cs : List Nat) (out : List Byte), (∀ c ∈ cs, Scalar c) → B.Encodes cs out → B.Text out cs

/-- A text of `A` is what is written for its characters. -/
def Entry.WritesBack (A : Entry) : Prop :=
  ∀ (inp : List Byte) (cs : List Nat), A.Text inp cs → A.Encodes cs inp

/-! ## Positive -/

theorem Entry.Exact.readsBack {A : Entry} (h : A.Exact) : A.ReadsBack := by
  intro cs out hs he
  refine h.encRev cs out (fun c hc => ?_) he
  have := hs c hc
  unfold Scalar at this
  omega

theorem Entry.Exact.writesBack {A : Entry} (h : A.Exact) : A.WritesBack := fun inp cs ht => (h.decRev inp cs ht).1

theorem single_readsBack {r : SbRow} (hr : r ∈ singleRows) (hi : ∀ p ∈ r.irr, p ∈ r.table) : r.entry.ReadsBack := by
  obtain ⟨dec, enc, h⟩ := singleRows_ok r hr
  intro cs out _ he
  rw [h.map.encodes] at he
  rw [h.map.text]
  refine he.flip.imp fun b w hb => ?_
  rw [h.dec_iff _ _ b.toNat_lt]
  rcases (h.enc_iff _ _ b.toNat_lt).1 hb with h1 | h1
  · exact h1.1
  · exact hi _ h1.2

theorem single_writesBack {r : SbRow} (hr : r ∈ singleRows) (hi : ∀ p ∈ r.irr, p ∉ r.table) : r.entry.WritesBack := by
  obtain ⟨dec, enc, h⟩ := singleRows_ok r hr
  intro inp cs ht
  rw [h.map.text] at ht
  rw [h.map.encodes]
  refine ht.flip.imp fun w b hb => ?_
  have hb := (h.dec_iff _ _ b.toNat_lt).1 hb
  exact (h.enc_iff _ _ b.toNat_lt).2 (.inl ⟨hb, fun hx => hi _ hx hb⟩)

theorem MbRow.OK.readsBack {r : MbRow} (h : r.OK) (hi : ∀ p ∈ r.irr, p ∈ r.table) : r.entry.ReadsBack := by
  intro cs out _ he
  rw [h.encodes] at he
  rw [h.text]
  refine he.imp fun b w _ hb => ?_
  rcases hb with hb | hb
  · exact hb.1
  · exact hi _ hb.2

theorem MbRow.OK.writesBack {r : MbRow} (h : r.OK) (hi : ∀ p ∈ r.irr, p ∉ r.table) : r.entry.WritesBack := by
  intro inp cs ht
  rw [h.text] at ht
  rw [h.encodes]
  exact ht.imp fun b w _ hb => .inl ⟨hb, fun hx => hi _ hx hb⟩

/-- The rows that the encoder does not produce are rows. -/
theorem dups_mem {w : Nat → W} {ds : List (Tab × Tab)} (h : ∀ p ∈ ds, chkRows w p.1 p.2 = true) :
    ∀ p ∈ tableOf (ds.map (·.2)), p ∈ tableOf (ds.map (·.1)) := by
  intro p hp
  obtain ⟨x, hx, rfl⟩ := List.mem_map.1 hp
  rw [← chkRows_sound ds h] at hx
  exact List.mem_map.2 ⟨x, (List.mem_filter.1 hx).1, rfl⟩

/-! ## Negative -/

/-- What is written for the text is read as another one. -/
def Entry.changes (B : Entry) (cs : List Nat) : Bool :=
  match B.enc.text 0 cs with
  | none => false
  | some (bs, os) =>
    match charsOf B.atom 32 IState.init (bs ++ B.enc.tail os) with
    | none => false
    | some (cs0, is) => cs0 ++ B.dec.kept is != cs

theorem Entry.changes_sound {B : Entry} {cs : List Nat} (h : B.changes cs = true) :
    ∃ out ds, B.Encodes cs out ∧ B.Text out ds ∧ ds ≠ cs := by
  unfold Entry.changes at h
  split at h
  · cases h
  · next bs os h1 =>
    split at h
    · cases h
    · next cs0 is h2 => exact ⟨_, _, ⟨bs, os, h1, rfl⟩, ⟨cs0, is, charsOf_sound h2, rfl⟩, by simpa using h⟩

theorem Entry.not_readsBack {B : Entry} (cs : List Nat) (hs : ∀ c ∈ cs, Scalar c) (h : B.changes cs = true) :
    ¬ B.ReadsBack := by
  intro hr
  obtain ⟨out, ds, h1, h2, h3⟩ := B.changes_sound h
  exact h3 (h2.det (hr cs out hs h1))

/-- What is written for the characters of the text is not the text. -/
def Entry.rewrites (A : Entry) (inp : List Byte) : Bool :=
  match charsOf A.atom 32 IState.init inp with
  | none => false
  | some (cs0, is) =>
    match A.enc.text 0 (cs0 ++ A.dec.kept is) with
    | none => true
    | some (bs, os) => bs ++ A.enc.tail os != inp

theorem Entry.not_writesBack {A : Entry} (inp : List Byte) (h : A.rewrites inp = true) : ¬ A.WritesBack := by
  intro hw
  unfold Entry.rewrites at h
  split at h
  · cases h
  · next cs0 is h1 =>
    obtain ⟨bs, os, h2, h3⟩ := hw inp _ ⟨cs0, is, charsOf_sound h1, rfl⟩
    rw [h2] at h
    simp [← h3] at h

/-! ## C42: what is written is read back -/

/-- Encodings with texts that are written and read as other texts, and such a text for each: a byte order mark; characters
that form an escape; the characters of a control sequence; a letter and a mark that are read as one letter; a character
written like another one. -/
noncomputable def changed : List (Entry × List Nat) :=
  [(ucs2_entry, [0xfeff]), (ucs4_entry, [0xfeff]), (utf16_entry, [0xfeff]), (utf32_entry, [0xfeff]),
   (c99_entry, [0x5c, 0x75, 0x30, 0x30, 0x63, 0x30]), (java_entry, [0x5c, 0x75, 0x30, 0x30, 0x63, 0x30]),
   (iso2022_jp_entry, [0x1b, 0x28, 0x42]), (iso2022_jp1_entry, [0x1b, 0x28, 0x42]), (iso2022_jp2_entry, [0x1b, 0x28, 0x42]),
   (iso2022_jp3_entry, [0x1b, 0x28, 0x42]), (iso2022_jpms_entry, [0x1b, 0x28, 0x42]), (iso2022_cn_entry, [0x0f]),
   (iso2022_cn_ext_entry, [0x0f]), (iso2022_kr_entry, [0x0f]), (hz_entry, [0x7e, 0x7e]),
   (cp1255_entry, [0x5d9, 0x5b4]), (cp1258_entry, [0x41, 0x301]), (tcvn_entry, [0x41, 0x301]),
   (euc_jp_entry, [0xa5]), (cp932_entry, [0xff5e]), (cp943_entry, [0xff5e]), (cp950_entry, [0xa5]), (cp1163_entry, [0x203e])]

/-- The numbers of these encodings. -/
def changedIdx : List Nat := [ei_ucs2, ei_ucs4, ei_utf16, ei_utf32, ei_c99, ei_java, ei_iso2022_jp, ei_iso2022_jp1, ei_iso2022_jp2,
  ei_iso2022_jp3, ei_iso2022_jpms, ei_iso2022_cn, ei_iso2022_cn_ext, ei_iso2022_kr, ei_hz, ei_cp1255, ei_cp1258, ei_tcvn,
  ei_euc_jp, ei_cp932, ei_cp943, ei_cp950, ei_cp1163]

theorem changed_idx : changed.map (·.1.idx) = changedIdx := by decide +kernel
theorem changed_scalar : ∀ x ∈ changed, ∀ c ∈ x.2, Scalar c := by decide +kernel
theorem changed_changes : ∀ x ∈ changed, x.1.changes x.2 = true := by decide +kernel

theorem single_irr_back : ∀ r ∈ singleRows, r.entry.idx ∉ changedIdx → ∀ p ∈ r.irr, p ∈ r.table := by
  unfold singleRows plainRows
  simp only [List.cons_append, List.nil_append, List.forall_mem_cons]
  refine ⟨by simp, by simp, ?_⟩
  decide +kernel

theorem irrOf_nil : irrOf [] = [] := rfl

theorem dups_back {w : Nat → W} {ds : List (Tab × Tab)} {T : List Tab} (h : ∀ p ∈ ds, chkRows w p.1 p.2 = true)
    (ht : ds.map (·.1) = T) : ∀ p ∈ tableOf (ds.map (·.2)) ++ irrOf [], p ∈ tableOf T := by
  intro p hp
  rw [irrOf_nil, List.append_nil] at hp
  rw [← ht]
  exact dups_mem h p hp

theorem big5_2003_back : ∀ p ∈ big5_2003_irr, p ∈ tableOf (pieceTabs big5_2003_pieces) :=
  dups_back (T := pieceTabs big5_2003_pieces) big5_2003_allRows rfl
theorem dec_hanyu_back : ∀ p ∈ dec_hanyu_irr, p ∈ tableOf (pieceTabs dec_hanyu_pieces) :=
  dups_back (T := pieceTabs dec_hanyu_pieces) dec_hanyu_allRows rfl
theorem euc_tw_back : ∀ p ∈ euc_tw_irr, p ∈ tableOf (pieceTabs euc_tw_pieces) :=
  dups_back (T := pieceTabs euc_tw_pieces) euc_tw_allRows rfl
theorem isoir165_dup_back : ∀ p ∈ isoir165_irr, p ∈ tableOf (pieceTabs isoir165_pieces) :=
  dups_back (T := pieceTabs isoir165_pieces) isoir165_allRows rfl

theorem mb_back_row {name : String} {A : Entry} {T irr : List (List Byte × Nat)} (h : ∀ p ∈ irr, p ∈ T) :
    (MbRow.mk name A T irr).entry.idx ∉ changedIdx → ∀ p ∈ (MbRow.mk name A T irr).irr, p ∈ (MbRow.mk name A T irr).table :=
  fun _ => h

theorem mb_irr_back : ∀ r ∈ mbRows, r.entry.idx ∉ changedIdx → ∀ p ∈ r.irr, p ∈ r.table := by
  have hx : ∀ {r : MbRow}, r.irr = [] → r.entry.idx ∉ changedIdx → ∀ p ∈ r.irr, p ∈ r.table := by
    intro r h _ p hp
    rw [h] at hp
    cases hp
  have h := mbRows_plain
  simp only [List.forall_mem_cons] at h
  obtain ⟨h1, h2, h3, h4, h5, h6, h7, h8, h9, h10, h11, h12, h13, h14, _⟩ := h
  exact all_cons (hx h1.2) <| all_cons (hx h2.2) <| all_cons (hx h3.2) <|
    all_cons (fun h => absurd (by decide +kernel) h) <| all_cons (hx h4.2) <|
    all_cons (fun h => absurd (by decide +kernel) h) <| all_cons (fun h => absurd (by decide +kernel) h) <|
    all_cons (hx h5.2) <| all_cons (hx h6.2) <| all_cons (hx h7.2) <| all_cons (hx h8.2) <| all_cons (hx h9.2) <|
    all_cons (hx h10.2) <| all_cons (fun h => absurd (by decide +kernel) h) <|
    all_cons (mb_back_row big5_2003_back) <| all_cons (mb_back_row dec_hanyu_back) <|
    all_cons (mb_back_row euc_tw_back) <| all_cons (mb_back_row isoir165_dup_back) <|
    all_cons (hx h11.2) <| all_cons (hx h12.2) <| all_cons (hx h13.2) <| all_cons (hx h14.2) all_nil

theorem shift_back : ∀ r ∈ shiftRows, r.entry.idx ∉ changedIdx → r.entry.ReadsBack := by
  intro r hr hi
  have h : ∀ r ∈ shiftRows, r.entry.idx ∉ changedIdx → r.ctl = List.range' 0xd800 0x400 :=
    all_cons (fun h => absurd (by decide +kernel) h) <| all_cons (fun h => absurd (by decide +kernel) h) <|
    all_cons (fun h => absurd (by decide +kernel) h) <| all_cons (fun h => absurd (by decide +kernel) h) <|
    all_cons (fun h => absurd (by decide +kernel) h) <| all_cons (fun h => absurd (by decide +kernel) h) <|
    all_cons (fun h => absurd (by decide +kernel) h) <| all_cons (fun h => absurd (by decide +kernel) h) <|
    all_cons (fun h => absurd (by decide +kernel) h) <| all_cons (fun _ => rfl) all_nil
  intro cs out hs he
  refine C42_shift r hr cs out (fun c hc => ?_) he
  rw [h r hr hi, List.mem_range'_1]
  have := hs c hc
  unfold Scalar at this
  omega

theorem other_back : ∀ B ∈ otherEntries, B.idx ∈ changedIdx := by decide +kernel

theorem changed_sources : ∀ x ∈ changed, x.1 ∈ sources :=
  all_cons (List.mem_of_getElem? (i := 3) rfl) <|
  all_cons (List.mem_of_getElem? (i := 6) rfl) <|
  all_cons (List.mem_of_getElem? (i := 9) rfl) <|
  all_cons (List.mem_of_getElem? (i := 12) rfl) <|
  all_cons (List.mem_of_getElem? (i := 20) rfl) <|
  all_cons (List.mem_of_getElem? (i := 21) rfl) <|
  all_cons (List.mem_of_getElem? (i := 25) rfl) <|
  all_cons (List.mem_of_getElem? (i := 26) rfl) <|
  all_cons (List.mem_of_getElem? (i := 27) rfl) <|
  all_cons (List.mem_of_getElem? (i := 193) rfl) <|
  all_cons (List.mem_of_getElem? (i := 28) rfl) <|
  all_cons (List.mem_of_getElem? (i := 33) rfl) <|
  all_cons (List.mem_of_getElem? (i := 34) rfl) <|
  all_cons (List.mem_of_getElem? (i := 46) rfl) <|
  all_cons (List.mem_of_getElem? (i := 35) rfl) <|
  all_cons (List.mem_of_getElem? (i := 72) rfl) <|
  all_cons (List.mem_of_getElem? (i := 75) rfl) <|
  all_cons (List.mem_of_getElem? (i := 105) rfl) <|
  all_cons (List.mem_of_getElem? (i := 22) rfl) <|
  all_cons (List.mem_of_getElem? (i := 24) rfl) <|
  all_cons (List.mem_of_getElem? (i := 116) rfl) <|
  all_cons (List.mem_of_getElem? (i := 38) rfl) <|
  all_cons (List.mem_of_getElem? (i := 122) rfl) all_nil

/-- C42 for every registered target: whatever text of Unicode characters is written in the encoding, it is read as this text,
exactly if the encoding is not one of the 23 in `changedIdx`. -/
theorem C42_registered : ∀ B ∈ targets, B.ReadsBack ↔ B.idx ∉ changedIdx := by
  intro B hB
  constructor
  · intro hr hi
    rw [← changed_idx] at hi
    obtain ⟨x, hx, he⟩ := List.mem_map.1 hi
    have hxB : x.1 = B := sources_unique x.1 (changed_sources x hx) B (List.mem_cons_of_mem _ hB) he
    exact Entry.not_readsBack x.2 (changed_scalar x hx) (changed_changes x hx) (hxB ▸ hr)
  · intro hi
    cases targets_kinds B hB with
    | single r hr e => subst e; exact single_readsBack hr (single_irr_back r hr hi)
    | multi r hr e => subst e; exact (mbRows_ok r hr).readsBack (mb_irr_back r hr hi)
    | uni h => exact (exactUni_ok B h).1.readsBack
    | pair r hr e => subst e; exact fun cs out _ h => C42_pairs r hr cs out h
    | shift r hr e => subst e; exact shift_back r hr hi
    | other h => exact absurd (other_back B h) hi

/-! ## C30: what is read is written back -/

/-- Encodings with several texts for the same characters, and for each a text that is not the one that is written. -/
noncomputable def rewritten : List (Entry × List Byte) :=
  [(ucs2_entry, [0xfe, 0xff]), (ucs4_entry, [0x00, 0x00, 0xfe, 0xff]),
   (utf16_entry, [0xfe, 0xff, 0x00, 0x41, 0xfe, 0xff]),
   (utf32_entry, [0x00, 0x00, 0xfe, 0xff, 0x00, 0x00, 0xfe, 0xff]),
   (c99_entry, [0x5c, 0x75, 0x30, 0x30, 0x43, 0x30]), (java_entry, [0x5c, 0x75, 0x30, 0x30, 0x34, 0x31]),
   (iso2022_jp_entry, [0x1b, 0x28, 0x42]), (iso2022_jp1_entry, [0x1b, 0x28, 0x42]),
   (iso2022_jp2_entry, [0x1b, 0x28, 0x42]), (iso2022_jp3_entry, [0x1b, 0x28, 0x42]),
   (iso2022_jpms_entry, [0x1b, 0x28, 0x42]), (iso2022_cn_entry, [0x0f]), (iso2022_cn_ext_entry, [0x0f]),
   (iso2022_kr_entry, [0x0f]), (hz_entry, [0x7e, 0x7e]), (utf7_entry, [0x2b, 0x41, 0x45, 0x45, 0x2d]),
   (cp1255_entry, [0xf9, 0xd1, 0xcc]), (cp1258_entry, [0x45, 0xec]), (tcvn_entry, [0x41, 0xb3]),
   (cp932_entry, [0x87, 0x90]), (cp943_entry, [0x87, 0x90]), (cp950_entry, [0xa2, 0xcc]),
   (big5_2003_entry, [0xf9, 0xfa]), (dec_hanyu_entry, [0xc2, 0xcb, 0xa1, 0xb8]),
   (euc_tw_entry, [0x8e, 0xa1, 0xa1, 0xa1]), (isoir165_entry, [0x28, 0x21]), (armscii_8_entry, [0x28]),
   (cp1161_entry, [0xa0]), (ebcdic1160_entry, [0x51]), (ebcdic838_entry, [0x51]),
   (big5hkscs1999_entry, [0xf9, 0xe9]), (big5hkscs2001_entry, [0xf9, 0xe9]), (big5hkscs2004_entry, [0xf9, 0xe9]),
   (big5hkscs2008_entry, [0xf9, 0xe9]), (euc_jisx0213_entry, [0xab, 0xe0, 0xab, 0xe4]),
   (shift_jisx0213_entry, [0x86, 0x80, 0x86, 0x84])]

/-- The numbers of these encodings. -/
def rewrittenIdx : List Nat :=
  [ei_ucs2, ei_ucs4, ei_utf16, ei_utf32, ei_c99, ei_java, ei_iso2022_jp, ei_iso2022_jp1, ei_iso2022_jp2,
   ei_iso2022_jp3, ei_iso2022_jpms, ei_iso2022_cn, ei_iso2022_cn_ext, ei_iso2022_kr, ei_hz, ei_utf7, ei_cp1255,
   ei_cp1258, ei_tcvn, ei_cp932, ei_cp943, ei_cp950, ei_big5_2003, ei_dec_hanyu, ei_euc_tw, ei_isoir165,
   ei_armscii_8, ei_cp1161, ei_ebcdic1160, ei_ebcdic838, ei_big5hkscs1999, ei_big5hkscs2001, ei_big5hkscs2004,
   ei_big5hkscs2008, ei_euc_jisx0213, ei_shift_jisx0213]

theorem rewritten_idx : rewritten.map (·.1.idx) = rewrittenIdx := by decide +kernel
theorem rewritten_rewrites : ∀ x ∈ rewritten, x.1.rewrites x.2 = true := by decide +kernel
theorem rewritten_sources : ∀ x ∈ rewritten, x.1 ∈ sources :=
  all_cons (List.mem_of_getElem? (i := 3) rfl) <|
  all_cons (List.mem_of_getElem? (i := 6) rfl) <|
  all_cons (List.mem_of_getElem? (i := 9) rfl) <|
  all_cons (List.mem_of_getElem? (i := 12) rfl) <|
  all_cons (List.mem_of_getElem? (i := 20) rfl) <|
  all_cons (List.mem_of_getElem? (i := 21) rfl) <|
  all_cons (List.mem_of_getElem? (i := 25) rfl) <|
  all_cons (List.mem_of_getElem? (i := 26) rfl) <|
  all_cons (List.mem_of_getElem? (i := 27) rfl) <|
  all_cons (List.mem_of_getElem? (i := 193) rfl) <|
  all_cons (List.mem_of_getElem? (i := 28) rfl) <|
  all_cons (List.mem_of_getElem? (i := 33) rfl) <|
  all_cons (List.mem_of_getElem? (i := 34) rfl) <|
  all_cons (List.mem_of_getElem? (i := 46) rfl) <|
  all_cons (List.mem_of_getElem? (i := 35) rfl) <|
  all_cons (List.mem_of_getElem? (i := 15) rfl) <|
  all_cons (List.mem_of_getElem? (i := 72) rfl) <|
  all_cons (List.mem_of_getElem? (i := 75) rfl) <|
  all_cons (List.mem_of_getElem? (i := 105) rfl) <|
  all_cons (List.mem_of_getElem? (i := 24) rfl) <|
  all_cons (List.mem_of_getElem? (i := 116) rfl) <|
  all_cons (List.mem_of_getElem? (i := 38) rfl) <|
  all_cons (List.mem_of_getElem? (i := 194) rfl) <|
  all_cons (List.mem_of_getElem? (i := 48) rfl) <|
  all_cons (List.mem_of_getElem? (i := 36) rfl) <|
  all_cons (List.mem_of_getElem? (i := 112) rfl) <|
  all_cons (List.mem_of_getElem? (i := 94) rfl) <|
  all_cons (List.mem_of_getElem? (i := 120) rfl) <|
  all_cons (List.mem_of_getElem? (i := 184) rfl) <|
  all_cons (List.mem_of_getElem? (i := 151) rfl) <|
  all_cons (List.mem_of_getElem? (i := 39) rfl) <|
  all_cons (List.mem_of_getElem? (i := 40) rfl) <|
  all_cons (List.mem_of_getElem? (i := 41) rfl) <|
  all_cons (List.mem_of_getElem? (i := 42) rfl) <|
  all_cons (List.mem_of_getElem? (i := 191) rfl) <|
  all_cons (List.mem_of_getElem? (i := 192) rfl) all_nil

theorem single_irr_fresh : ∀ r ∈ singleRows, r.entry.idx ∉ rewrittenIdx → ∀ p ∈ r.irr, p ∉ r.table := by
  unfold singleRows plainRows
  simp only [List.cons_append, List.nil_append, List.forall_mem_cons]
  refine ⟨by simp, by simp, ?_⟩
  decide +kernel

theorem euc_jp_irr_eq : euc_jp_irr = [([0x5c], 0xa5), ([0x7e], 0x203e)] := by decide +kernel

theorem euc_jp_fresh : ∀ p ∈ euc_jp_irr, p ∉ tableOf (pieceTabs euc_jp_pieces) := by
  rw [euc_jp_irr_eq]
  simp only [List.forall_mem_cons, List.not_mem_nil, false_implies, implies_true, and_true]
  refine ⟨fun h => ?_, fun h => ?_⟩
  · have h1 := (euc_jp_table.dec_iff [0x5c] 0xa5 1 (by simp)).2 ⟨by simp, h⟩
    exact absurd h1 (by decide +kernel)
  · have h1 := (euc_jp_table.dec_iff [0x7e] 0x203e 1 (by simp)).2 ⟨by simp, h⟩
    exact absurd h1 (by decide +kernel)

theorem mb_fresh_row {name : String} {A : Entry} {T irr : List (List Byte × Nat)} (h : ∀ p ∈ irr, p ∉ T) :
    (MbRow.mk name A T irr).entry.idx ∉ rewrittenIdx → ∀ p ∈ (MbRow.mk name A T irr).irr, p ∉ (MbRow.mk name A T irr).table :=
  fun _ => h

theorem mb_irr_fresh : ∀ r ∈ mbRows, r.entry.idx ∉ rewrittenIdx → ∀ p ∈ r.irr, p ∉ r.table := by
  have hx : ∀ {r : MbRow}, r.irr = [] → r.entry.idx ∉ rewrittenIdx → ∀ p ∈ r.irr, p ∉ r.table := by
    intro r h _ p hp
    rw [h] at hp
    cases hp
  have h := mbRows_plain
  simp only [List.forall_mem_cons] at h
  obtain ⟨h1, h2, h3, h4, h5, h6, h7, h8, h9, h10, h11, h12, h13, h14, _⟩ := h
  exact all_cons (hx h1.2) <| all_cons (hx h2.2) <| all_cons (hx h3.2) <|
    all_cons (mb_fresh_row euc_jp_fresh) <| all_cons (hx h4.2) <|
    all_cons (fun h => absurd (by decide +kernel) h) <| all_cons (fun h => absurd (by decide +kernel) h) <|
    all_cons (hx h5.2) <| all_cons (hx h6.2) <| all_cons (hx h7.2) <| all_cons (hx h8.2) <| all_cons (hx h9.2) <|
    all_cons (hx h10.2) <| all_cons (fun h => absurd (by decide +kernel) h) <|
    all_cons (fun h => absurd (by decide +kernel) h) <| all_cons (fun h => absurd (by decide +kernel) h) <|
    all_cons (fun h => absurd (by decide +kernel) h) <| all_cons (fun h => absurd (by decide +kernel) h) <|
    all_cons (hx h11.2) <| all_cons (hx h12.2) <| all_cons (hx h13.2) <| all_cons (hx h14.2) all_nil

theorem pair_rewritten : ∀ r ∈ pairRows, r.entry.idx ∈ rewrittenIdx := by decide +kernel
theorem shift_rewritten : ∀ r ∈ shiftRows, r.entry.idx ∈ rewrittenIdx := by decide +kernel
theorem other_rewritten : ∀ B ∈ otherEntries, B.idx ∈ rewrittenIdx := by decide +kernel

/-- For every registered target: a text in the encoding is always what is written for its characters, exactly if the
encoding is not one of the 36 in `rewrittenIdx`. -/
theorem C30_registered : ∀ A ∈ targets, A.WritesBack ↔ A.idx ∉ rewrittenIdx := by
  intro A hA
  constructor
  · intro hr hi
    rw [← rewritten_idx] at hi
    obtain ⟨x, hx, he⟩ := List.mem_map.1 hi
    have hxB : x.1 = A := sources_unique x.1 (rewritten_sources x hx) A (List.mem_cons_of_mem _ hA) he
    exact Entry.not_writesBack x.2 (rewritten_rewrites x hx) (hxB ▸ hr)
  · intro hi
    cases targets_kinds A hA with
    | single r hr e => subst e; exact single_writesBack hr (single_irr_fresh r hr hi)
    | multi r hr e => subst e; exact (mbRows_ok r hr).writesBack (mb_irr_fresh r hr hi)
    | uni h => exact (exactUni_ok A h).1.writesBack
    | pair r hr e => subst e; exact absurd (pair_rewritten r hr) hi
    | shift r hr e => subst e; exact absurd (shift_rewritten r hr) hi
    | other h => exact absurd (other_rewritten A h) hi

/-! ## In terms of the API -/

theorem marked_changed : ∀ i ∈ markedIdx, i ∈ changedIdx := by decide

/-- C42 in terms of the API: `inp` is a text of Unicode characters in a source `A` without byte order marks, `out` is what is
written for its characters in `B`, `z` what is written for them in `C`. Converting `inp` to `B` gives `out`, and converting
`out` to `C` gives `z`: nothing is lost in `B`. `B` is any registered target except the 23 for which this is false. -/
theorem C42_registered_convert : ∀ A ∈ sources, A.idx ∉ markedIdx → ∀ B ∈ targets, B.idx ∉ changedIdx → ∀ C ∈ targets,
    ∀ (discard discard' : Bool) (inp out z : List Byte) (cs : List Nat) (alloc : Nat → List Byte),
    (∀ n, (alloc n).length = n) → A.Text inp cs → (∀ c ∈ cs, Scalar c) → B.Encodes cs out → C.Encodes cs z →
    (∃ x, convert (A.conv B discard) St.init inp true true (fun n => some (alloc n)) = .ok x ∧
      x.ret = .ok () ∧ x.outLen = some out.length ∧ x.data = some out) ∧
    ∃ x, convert (B.conv C discard') St.init out true true (fun n => some (alloc n)) = .ok x ∧
      x.ret = .ok () ∧ x.outLen = some z.length ∧ x.data = some z := by
  intro A hA hm B hB hc C _ discard discard' inp out z cs alloc hal h1 hs h2 h3
  refine ⟨convert_text discard (sources_fixed A hA hm) h1 h2 alloc hal, ?_⟩
  exact convert_text discard' (targets_fixed B hB fun h => hc (marked_changed _ h))
    ((C42_registered B hB).2 hc cs out hs h2) h3 alloc hal

/-- C30 for every registered encoding: `A` is any but the 36 in which several texts have the same characters, `B` any but the
23 that do not read back what they write. If converting the text `inp` of Unicode characters, none of them a tag character,
from `A` to `B` with one call of `reiconv_iconv` and the flush call returns 0 both times, converting all that was written
from `B` back to `A` gives `inp`. Missing: tag characters and the discard flag, for which it is false (`C30_tags_lost`,
`C30_discard_lost`). -/
theorem C53_round_trip : ∀ A ∈ targets, A.idx ∉ rewrittenIdx → ∀ B ∈ targets, B.idx ∉ changedIdx →
    ∀ (inp room room2 : List Byte) (r r2 : CallRes),
    iconv (A.conv B false) St.init (some inp) (some ⟨false, [], room⟩) = .ok r → r.ret = .ok 0 →
    iconv (A.conv B false) r.st none (some ⟨false, [], room2⟩) = .ok r2 → r2.ret = .ok 0 →
    (∀ cs, A.Text inp cs → ∀ c ∈ cs, Scalar c ∧ isTag c = false) →
    ∀ (discard : Bool) (alloc : Nat → List Byte), (∀ n, (alloc n).length = n) →
    ∃ x, convert (B.conv A discard) St.init (r.buf.out ++ r2.buf.out) true true
        (fun n => some (alloc n)) = .ok x ∧ x.ret = .ok () ∧ x.data = some inp := by
  intro A hA ha B hB hb inp room room2 r r2 h1 h2 h3 h4 h5 discard alloc hal
  exact round_trip_text A B (targets_fixed B hB fun h => hb (marked_changed _ h)) inp room room2
    (fun cs h => (C30_registered A hA).2 ha inp cs h)
    (fun cs out ht he => (C42_registered B hB).2 hb cs out (fun c hc => (h5 cs ht c hc).1) he)
    h1 h2 h3 h4 (fun cs ht c hc => (h5 cs ht c hc).2) discard alloc hal

/-- The hypotheses are met: "가" from EUC-KR to UTF-7, where the flush call ends the Base64 section. -/
example : euc_kr_entry.idx ∉ rewrittenIdx ∧ utf7_entry.idx ∉ changedIdx ∧ euc_kr_entry ∈ targets ∧ utf7_entry ∈ targets :=
  ⟨by decide +kernel, by decide +kernel, List.mem_of_getElem? (i := 42) rfl, List.mem_of_getElem? (i := 14) rfl⟩
example : ∃ r r2, iconv (euc_kr_entry.conv utf7_entry false) St.init (some [0xB0, 0xA1])
    (some ⟨false, [], List.replicate 8 0⟩) = .ok r ∧ r.ret = .ok 0 ∧
    iconv (euc_kr_entry.conv utf7_entry false) r.st none (some ⟨false, [], [0, 0, 0]⟩) = .ok r2 ∧
    r2.ret = .ok 0 ∧ r.buf.out ++ r2.buf.out = [0x2b, 0x72, 0x41, 0x41, 0x2d] := ⟨_, _, rfl, by decide +kernel, rfl, by decide +kernel, by decide +kernel⟩
example : euc_kr_entry.Text [0xB0, 0xA1] [0xAC00] ∧ utf7_entry.Encodes [0xAC00] [0x2b, 0x72, 0x41, 0x41, 0x2d] ∧
    utf8_entry.Encodes [0xAC00] [0xea, 0xb0, 0x80] := by
  refine ⟨?_, ⟨_, _, rfl, by decide +kernel⟩, ⟨_, _, rfl, by decide +kernel⟩⟩
  have : charsOf euc_kr_entry.atom 4 IState.init [0xB0, 0xA1] = some ([0xAC00], IState.init) := by decide +kernel
  exact ⟨_, _, charsOf_sound this, rfl⟩

end Reiconv
