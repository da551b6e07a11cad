import Verif.Props.Exact
import Verif.Props.Comp

/-!
# C43 for every registered target: outputs put one after the other
-/

namespace Reiconv

/-! ## Specification -/

/-- Texts of Unicode scalar values `x.1` are written in the encoding, with the return to the initial state at the end, as `x.2.1`,
and each of the outputs alone is read as `x.2.2`. Then all the outputs one after the other are read as all these texts one after
the other. -/
def Entry.Joins (B : Entry) : Prop := ∀ l : List (List Nat × List Byte × List Nat),
  (∀ x ∈ l, (∀ c ∈ x.1, Scalar c) ∧ B.Encodes x.1 x.2.1 ∧ B.Text x.2.1 x.2.2) →
  B.Text (l.map (·.2.1)).flatten (l.map (·.2.2)).flatten

/-- The encodings for which this is false: those with escape sequences, which write the control characters of these as they are,
and those in which an accent at the beginning of a text is combined with the letter before. -/
def joinLost : List Nat := [ei_hz, ei_iso2022_kr, ei_iso2022_cn, ei_iso2022_cn_ext, ei_iso2022_jp, ei_iso2022_jp1, ei_iso2022_jp2,
  ei_iso2022_jp3, ei_iso2022_jpms, ei_cp1255, ei_cp1258, ei_tcvn]

/-! ## Proofs -/

/-- If each output leaves the decoder in the initial state. -/
theorem joins_chars {B : Entry} (h : ∀ cs out, (∀ c ∈ cs, Scalar c) → B.Encodes cs out → ∀ ds is,
    Chars B.atom IState.init out ds is → is = IState.init) (hk : B.dec.kept IState.init = []) (l : List (List Nat × List Byte × List Nat))
    (hl : ∀ x ∈ l, (∀ c ∈ x.1, Scalar c) ∧ B.Encodes x.1 x.2.1 ∧ B.Text x.2.1 x.2.2) :
    Chars B.atom IState.init (l.map (·.2.1)).flatten (l.map (·.2.2)).flatten IState.init := by
  induction l with
  | nil => exact .nil _
  | cons x l ih =>
    simp only [List.forall_mem_cons] at hl
    obtain ⟨⟨h1, h2, cs, is, h3, h4⟩, h5⟩ := hl
    have := h _ _ h1 h2 _ _ h3
    subst this
    rw [hk, List.append_nil] at h4
    simp only [List.map_cons, List.flatten_cons]
    rw [h4]
    exact Chars.append B.decOK.inv_init h3 (ih h5)

theorem joins_of {B : Entry} (h : ∀ cs out, (∀ c ∈ cs, Scalar c) → B.Encodes cs out → ∀ ds is,
    Chars B.atom IState.init out ds is → is = IState.init) (hk : B.dec.kept IState.init = []) : B.Joins :=
  fun l hl => ⟨_, _, joins_chars h hk l hl, by rw [hk, List.append_nil]⟩

theorem joins_pair : ∀ r ∈ pairRows, r.entry.Joins := by
  intro r hr l hl
  rw [C29_pairs r hr]
  induction l with
  | nil => exact .nil
  | cons x l ih =>
    simp only [List.forall_mem_cons] at hl
    simp only [List.map_cons, List.flatten_cons]
    exact ((C29_pairs r hr _ _).1 hl.1.2.2).append (ih hl.2)

theorem joins_utf7 : utf7_entry.Joins := by
  intro l hl
  have hs : ∀ x ∈ l, ∀ c ∈ x.1, c ∉ List.range' 0xd800 0x400 := by
    intro x hx c hc
    have := (hl x hx).1 c hc
    unfold Scalar at this
    simp only [List.mem_range'_1]
    omega
  have hr : (⟨"UTF-7", utf7_entry, List.range' 0xd800 0x400⟩ : ShiftRow) ∈ shiftRows := List.mem_of_getElem? (i := 9) rfl
  have h1 : l.map (·.2.2) = l.map (·.1) := List.map_congr_left fun x hx =>
    (hl x hx).2.2.det (C42_shift _ hr _ _ (hs x hx) (hl x hx).2.1)
  have := C43_concat_partial _ hr (l.map fun x => (x.1, x.2.1)) (by
    intro y hy
    obtain ⟨x, hx, rfl⟩ := List.mem_map.1 hy
    exact ⟨(hl x hx).2.1, hs x hx⟩)
  rw [List.map_map, List.map_map] at this
  rw [h1]; exact this

/-- The output in big endian order leaves the decoder in big endian order. -/
theorem BomOK.be_init {S : BomForm} (h : BomOK S) (hm : S.be 0xFEFF = S.bomBE) {cs : List Nat} (hcs : ∀ c ∈ cs, S.has c ∨ c = 0xFEFF) :
    ∃ ds, Chars S.entry.atom ⟨0, 0⟩ (cs.flatMap S.be) ds ⟨0, 0⟩ := by
  induction cs with
  | nil => exact ⟨_, .nil _⟩
  | cons c cs ih =>
    simp only [List.forall_mem_cons] at hcs
    obtain ⟨ds, hd⟩ := ih hcs.2
    simp only [List.flatMap_cons]
    rcases hcs.1 with hc | rfl
    · obtain ⟨h1, h2⟩ := h.be c (cs.flatMap S.be) hc
      exact ⟨_, .char (by simp [h1]) h2 (by simpa using hd)⟩
    · rw [hm]
      obtain ⟨h1, h2⟩ := h.be0 (cs.flatMap S.be)
      exact ⟨_, .shift (by simp [h1]) h2 (by simpa using hd)⟩

theorem BomOK.mark_init {S : BomForm} (h : BomOK S) {s : List Byte} (hs : ∃ ds, Chars S.entry.atom ⟨0, 0⟩ s ds ⟨0, 0⟩) :
    ∃ ds, Chars S.entry.atom ⟨0, 0⟩ (S.bomBE ++ s) ds ⟨0, 0⟩ := by
  obtain ⟨ds, hd⟩ := hs
  obtain ⟨h1, h2⟩ := h.be0 s
  exact ⟨_, .shift (by simp [h1]) h2 (by simpa using hd)⟩

theorem utf16_init : ∀ cs out, (∀ c ∈ cs, Scalar c) → utf16_entry.Encodes cs out → ∀ ds is,
    Chars utf16_entry.atom IState.init out ds is → is = IState.init := by
  intro cs out _ he ds is hc
  obtain ⟨h1, rfl⟩ := (C22_utf16_partial.1 _ _).1 he
  suffices ∃ ds, Chars utf16_entry.atom ⟨0, 0⟩ (if cs = [] then [] else [0xFE, 0xFF] ++ cs.flatMap (utf16Enc b16)) ds ⟨0, 0⟩ by
    obtain ⟨_, hd⟩ := this
    exact (Chars.det hc hd).2
  split
  · exact ⟨_, .nil _⟩
  · exact utf16_bomOK.mark_init (utf16_bomOK.be_init (by decide) (fun c hc => by
      have := h1 c hc
      by_cases h : c = 0xFEFF
      · exact .inr h
      · exact .inl ⟨this.1, h, this.2⟩))

theorem utf32_init : ∀ cs out, (∀ c ∈ cs, Scalar c) → utf32_entry.Encodes cs out → ∀ ds is,
    Chars utf32_entry.atom IState.init out ds is → is = IState.init := by
  intro cs out _ he ds is hc
  obtain ⟨h1, rfl⟩ := (C23_marked_partial.1 _ _).1 he
  suffices ∃ ds, Chars utf32_entry.atom ⟨0, 0⟩ (if cs = [] then [] else [0, 0, 0xFE, 0xFF] ++ cs.flatMap b32) ds ⟨0, 0⟩ by
    obtain ⟨_, hd⟩ := this
    exact (Chars.det hc hd).2
  split
  · exact ⟨_, .nil _⟩
  · exact utf32_bomOK.mark_init (utf32_bomOK.be_init (by decide) (fun c hc => by
      have := h1 c hc
      by_cases h : c = 0xFEFF
      · exact .inr h
      · exact .inl ⟨this, h⟩))

theorem ucs2_init : ∀ cs out, (∀ c ∈ cs, Scalar c) → ucs2_entry.Encodes cs out → ∀ ds is,
    Chars ucs2_entry.atom IState.init out ds is → is = IState.init := by
  intro cs out _ he ds is hc
  obtain ⟨h1, rfl⟩ := (C23_marked_partial.2.1 _ _).1 he
  obtain ⟨_, hd⟩ := ucs2_bomOK.be_init (cs := cs) (by decide) (fun c hc => by
      have := h1 c hc
      by_cases h : c = 0xFEFF
      · exact .inr h
      · exact .inl ⟨this.1, h, this.2⟩)
  exact (Chars.det hc hd).2

theorem ucs4_init : ∀ cs out, (∀ c ∈ cs, Scalar c) → ucs4_entry.Encodes cs out → ∀ ds is,
    Chars ucs4_entry.atom IState.init out ds is → is = IState.init := by
  intro cs out _ he ds is hc
  obtain ⟨h1, rfl⟩ := (C23_marked_partial.2.2.1 _ _).1 he
  obtain ⟨_, hd⟩ := ucs4_bomOK.be_init (cs := cs) (by decide) (fun c hc => by
      have := h1 c hc
      by_cases h : c = 0xFEFF
      · exact .inr h
      · exact .inl ⟨this, h⟩)
  exact (Chars.det hc hd).2

/-- The characters of a text, computed. -/
def Entry.readOf (A : Entry) (inp : List Byte) : Option (List Nat) :=
  (charsOf A.atom 64 IState.init inp).map fun x => x.1 ++ A.dec.kept x.2

theorem Entry.readOf_sound {A : Entry} {inp : List Byte} {cs : List Nat} (h : A.readOf inp = some cs) : A.Text inp cs := by
  obtain ⟨x, h1, h2⟩ := Option.map_eq_some_iff.1 h
  exact ⟨x.1, x.2, charsOf_sound h1, h2.symm⟩

/-- What is written for a text, computed. -/
def Entry.writeOf (B : Entry) (cs : List Nat) : Option (List Byte) :=
  (B.enc.text 0 cs).map fun x => x.1 ++ B.enc.tail x.2

theorem Entry.writeOf_sound {B : Entry} {cs : List Nat} {out : List Byte} (h : B.writeOf cs = some out) : B.Encodes cs out := by
  obtain ⟨x, h1, h2⟩ := Option.map_eq_some_iff.1 h
  exact ⟨x.1, x.2, h1, h2.symm⟩

/-- Two texts, written one after the other, are read as another text. -/
def Entry.clash (B : Entry) (c1 c2 : List Nat) : Bool :=
  c1.all (fun c => decide (Scalar c)) && c2.all (fun c => decide (Scalar c)) &&
  match B.writeOf c1, B.writeOf c2 with
  | some o1, some o2 =>
    match B.readOf o1, B.readOf o2, B.readOf (o1 ++ o2) with
    | some d1, some d2, some d => d != d1 ++ d2
    | _, _, _ => false
  | _, _ => false

theorem Entry.clash_sound {B : Entry} {c1 c2 : List Nat} (h : B.clash c1 c2 = true) : ¬ B.Joins := by
  intro hj
  unfold Entry.clash at h
  simp only [Bool.and_eq_true, List.all_eq_true, decide_eq_true_eq] at h
  obtain ⟨⟨hs1, hs2⟩, h⟩ := h
  split at h
  · next o1 o2 h1 h2 =>
    split at h
    · next d1 d2 d h3 h4 h5 =>
      have := hj [(c1, o1, d1), (c2, o2, d2)] (by
        simp only [List.forall_mem_cons, List.not_mem_nil, false_implies, implies_true, and_true]
        exact ⟨⟨hs1, writeOf_sound h1, readOf_sound h3⟩, hs2, writeOf_sound h2, readOf_sound h4⟩)
      simp only [List.map_cons, List.map_nil, List.flatten_cons, List.flatten_nil, List.append_nil] at this
      have := (readOf_sound h5).det this
      rw [this] at h
      simp at h
    · cases h
  · cases h

/-- Two texts for each encoding in `joinLost`. The first ends with the characters of an escape sequence or is a letter; the second
is "!!" or an accent. -/
noncomputable def clashes : List (Entry × List Nat × List Nat) :=
  [(hz_entry, [0x7e, 0x7b], [0x21, 0x21]),
   (iso2022_kr_entry, [0x1b, 0x24, 0x29, 0x43, 0x0e], [0x21, 0x21]),
   (iso2022_cn_entry, [0x1b, 0x24, 0x29, 0x41, 0x0e], [0x21, 0x21]),
   (iso2022_cn_ext_entry, [0x1b, 0x24, 0x29, 0x41, 0x0e], [0x21, 0x21]),
   (iso2022_jp_entry, [0x1b, 0x24, 0x42], [0x21, 0x21]),
   (iso2022_jp1_entry, [0x1b, 0x24, 0x42], [0x21, 0x21]),
   (iso2022_jp2_entry, [0x1b, 0x24, 0x42], [0x21, 0x21]),
   (iso2022_jp3_entry, [0x1b, 0x24, 0x42], [0x21, 0x21]),
   (iso2022_jpms_entry, [0x1b, 0x24, 0x42], [0x21, 0x21]),
   (cp1255_entry, [0x5e9], [0x5bc]),
   (cp1258_entry, [0x41], [0x300]),
   (tcvn_entry, [0x41], [0x300])]

theorem clashes_idx : clashes.map (·.1.idx) = joinLost := by decide +kernel
theorem clashes_ok : ∀ x ∈ clashes, x.1.clash x.2.1 x.2.2 = true := by decide +kernel
theorem clashes_entries : ∀ x ∈ clashes, ∃ k : Nat, sources[k]? = some x.1 :=
  all_cons ⟨35, rfl⟩ <| all_cons ⟨46, rfl⟩ <| all_cons ⟨33, rfl⟩ <| all_cons ⟨34, rfl⟩ <| all_cons ⟨25, rfl⟩ <|
  all_cons ⟨26, rfl⟩ <| all_cons ⟨27, rfl⟩ <| all_cons ⟨193, rfl⟩ <| all_cons ⟨28, rfl⟩ <| all_cons ⟨72, rfl⟩ <|
  all_cons ⟨75, rfl⟩ <| all_cons ⟨105, rfl⟩ all_nil

/-! ## Property -/

/-- **C43** exactly, for every registered target: outputs can be put one after the other if and only if the encoding is not in
`joinLost`. -/
theorem C43_registered : ∀ B ∈ targets, B.Joins ↔ B.idx ∉ joinLost := by
  intro B hB
  constructor
  · intro h hi
    rw [← clashes_idx] at hi
    obtain ⟨x, hx, he⟩ := List.mem_map.1 hi
    obtain ⟨k, h1⟩ := clashes_entries x hx
    have e := sources_unique B (List.mem_cons_of_mem _ hB) x.1 (List.mem_of_getElem? h1) he.symm
    subst e
    exact Entry.clash_sound (clashes_ok x hx) h
  · intro hi
    by_cases hs : B.idx ∈ statefulIdx
    · have hB' : B ∈ sources := List.mem_cons_of_mem _ hB
      have uniq : ∀ (A : Entry) (k : Nat), sources[k]? = some A → B.idx = A.idx → A.Joins → B.Joins := fun A k hk he hj => by
        rw [sources_unique B hB' A (List.mem_of_getElem? hk) he]; exact hj
      simp only [statefulIdx, markedIdx, holdingIdx, List.mem_append, List.mem_cons, List.not_mem_nil, or_false] at hs
      simp only [joinLost, List.mem_cons, List.not_mem_nil, or_false, not_or] at hi
      rcases hs with ((h | h | h | h) | (h | h | h | h | h | h | h | h | h | h)) | (h | h | h | h | h | h | h | h | h)
      · exact uniq ucs2_entry 3 rfl h (joins_of ucs2_init rfl)
      · exact uniq ucs4_entry 6 rfl h (joins_of ucs4_init rfl)
      · exact uniq utf16_entry 9 rfl h (joins_of utf16_init rfl)
      · exact uniq utf32_entry 12 rfl h (joins_of utf32_init rfl)
      · exact uniq big5hkscs1999_entry 39 rfl h (joins_pair _ (List.mem_of_getElem? (i := 0) rfl))
      · exact uniq big5hkscs2001_entry 40 rfl h (joins_pair _ (List.mem_of_getElem? (i := 1) rfl))
      · exact uniq big5hkscs2004_entry 41 rfl h (joins_pair _ (List.mem_of_getElem? (i := 2) rfl))
      · exact uniq big5hkscs2008_entry 42 rfl h (joins_pair _ (List.mem_of_getElem? (i := 3) rfl))
      · exact absurd h (by simp [hi])
      · exact absurd h (by simp [hi])
      · exact absurd h (by simp [hi])
      · exact uniq euc_jisx0213_entry 191 rfl h (joins_pair _ (List.mem_of_getElem? (i := 4) rfl))
      · exact uniq shift_jisx0213_entry 192 rfl h (joins_pair _ (List.mem_of_getElem? (i := 5) rfl))
      · exact absurd h (by simp [hi])
      · exact uniq utf7_entry 15 rfl h joins_utf7
      all_goals exact absurd h (by simp [hi])
    · have h1 := sources_dec_stateless B (List.mem_cons_of_mem _ hB) hs
      have hh : B.idx ∉ holdingIdx := fun h => hs (by simp [statefulIdx, h])
      have hf := sources_no_flush B (List.mem_cons_of_mem _ hB) hh
      exact joins_of (fun _ _ _ _ ds is hc => h1 is (Chars.inv B.decOK.inv_init hc)) (by simp [Decoder.kept, hf])

/-- C43 in terms of the API: `reiconv_convert` is called for several texts `x.1` in an encoding `A` without byte order marks, the
results are put one after the other, and this is converted to an encoding `C`. The result is that for the texts one after the
other. -/
theorem C43_registered_convert : ∀ B ∈ targets, B.idx ∉ joinLost → ∀ A ∈ sources, A.idx ∉ markedIdx →
    ∀ (C : Entry) (discard discard' : Bool) (l : List (List Byte × List Nat × List Byte × List Nat)) (z : List Byte)
      (alloc : Nat → List Byte), (∀ n, (alloc n).length = n) →
    (∀ x ∈ l, (∀ c ∈ x.2.1, Scalar c) ∧ A.Text x.1 x.2.1 ∧ B.Encodes x.2.1 x.2.2.1 ∧ B.Text x.2.2.1 x.2.2.2) →
    C.Encodes (l.map (·.2.2.2)).flatten z →
    (∀ x ∈ l, ∃ y, convert (A.conv B discard) St.init x.1 true true (fun n => some (alloc n)) = .ok y ∧
      y.ret = .ok () ∧ y.outLen = some x.2.2.1.length ∧ y.data = some x.2.2.1) ∧
    ∃ y, convert (B.conv C discard') St.init (l.map (·.2.2.1)).flatten true true (fun n => some (alloc n)) = .ok y ∧
      y.ret = .ok () ∧ y.outLen = some z.length ∧ y.data = some z := by
  intro B hB hi A hA hm C discard discard' l z alloc hal h hz
  refine ⟨fun x hx => ?_, ?_⟩
  · obtain ⟨_, h1, h2, _⟩ := h x hx
    exact convert_text discard (sources_fixed A hA hm) h1 h2 alloc hal
  · have hl : ∀ x ∈ l.map (·.2), (∀ c ∈ x.1, Scalar c) ∧ B.Encodes x.1 x.2.1 ∧ B.Text x.2.1 x.2.2 := by
      intro y hy
      obtain ⟨x, hx, rfl⟩ := List.mem_map.1 hy
      exact ⟨(h x hx).1, (h x hx).2.2⟩
    by_cases hmB : B.idx ∈ markedIdx
    · have hB' : B ∈ sources := List.mem_cons_of_mem _ hB
      have fin : ∀ A : Entry, A.dec.flushwc = none → (∀ cs out, (∀ c ∈ cs, Scalar c) → A.Encodes cs out → ∀ ds is,
          Chars A.atom IState.init out ds is → is = IState.init) → B = A →
          ∃ y, convert (B.conv C discard') St.init (l.map (·.2.2.1)).flatten true true (fun n => some (alloc n)) = .ok y ∧
            y.ret = .ok () ∧ y.outLen = some z.length ∧ y.data = some z := by
        rintro A hf hinit rfl
        have := joins_chars hinit (by simp [Decoder.kept, hf]) _ hl
        rw [List.map_map, List.map_map] at this
        exact ⟨_, convert_twice discard' B.decOK.inv_init this this hf hz alloc hal, rfl, rfl, rfl⟩
      simp only [markedIdx, List.mem_cons, List.not_mem_nil, or_false] at hmB
      rcases hmB with e | e | e | e
      · exact fin ucs2_entry rfl ucs2_init (sources_unique B hB' _ (List.mem_of_getElem? (i := 3) rfl) e)
      · exact fin ucs4_entry rfl ucs4_init (sources_unique B hB' _ (List.mem_of_getElem? (i := 6) rfl) e)
      · exact fin utf16_entry rfl utf16_init (sources_unique B hB' _ (List.mem_of_getElem? (i := 9) rfl) e)
      · exact fin utf32_entry rfl utf32_init (sources_unique B hB' _ (List.mem_of_getElem? (i := 12) rfl) e)
    · have := (C43_registered B hB).2 hi _ hl
      rw [List.map_map, List.map_map] at this
      exact convert_text discard' (sources_fixed B (List.mem_cons_of_mem _ hB) hmB) this hz alloc hal

/-- The hypotheses are met: "a" and "b" to UTF-16, each with a mark of its own. Put one after the other they are "ab". -/
example : utf16_entry.idx ∉ joinLost ∧ utf8_entry.idx ∉ markedIdx ∧
    utf8_entry.Text [0x61] [0x61] ∧ utf16_entry.Encodes [0x61] [0xfe, 0xff, 0, 0x61] ∧ utf16_entry.Text [0xfe, 0xff, 0, 0x61] [0x61] ∧
    utf8_entry.Text [0x62] [0x62] ∧ utf16_entry.Encodes [0x62] [0xfe, 0xff, 0, 0x62] ∧ utf16_entry.Text [0xfe, 0xff, 0, 0x62] [0x62] ∧
    convert (utf16_entry.conv utf8_entry false) St.init [0xfe, 0xff, 0, 0x61, 0xfe, 0xff, 0, 0x62] true true zeros =
      .ok ⟨.ok (), St.init, some 2, some [0x61, 0x62]⟩ :=
  ⟨by decide +kernel, by decide +kernel, Entry.readOf_sound (by decide +kernel), Entry.writeOf_sound (by decide +kernel),
    Entry.readOf_sound (by decide +kernel), Entry.readOf_sound (by decide +kernel), Entry.writeOf_sound (by decide +kernel),
    Entry.readOf_sound (by decide +kernel), by decide +kernel⟩

/-- C43 is violated for ISO-2022-JP: "ESC $ B" and "!!" are written as they are, and one after the other are read as U+3000. -/
theorem C43_join_violation :
    convert (utf8_entry.conv iso2022_jp_entry false) St.init [0x1b, 0x24, 0x42] true true zeros =
      .ok ⟨.ok (), St.init, some 3, some [0x1b, 0x24, 0x42]⟩ ∧
    convert (utf8_entry.conv iso2022_jp_entry false) St.init [0x21, 0x21] true true zeros =
      .ok ⟨.ok (), St.init, some 2, some [0x21, 0x21]⟩ ∧
    convert (iso2022_jp_entry.conv utf8_entry false) St.init [0x1b, 0x24, 0x42, 0x21, 0x21] true true zeros =
      .ok ⟨.ok (), St.init, some 3, some [0xe3, 0x80, 0x80]⟩ := by
  decide +kernel

end Reiconv
