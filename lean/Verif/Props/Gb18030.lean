import Verif.Props.MultiRows
import Verif.Gen.TabGb2005

/-!
# C45: GB18030

The 2022 version of GB18030 encodes every Unicode scalar value, one to one. The 2005 version does not, and
its encoder stores more bytes than it checked for.
-/

namespace Reiconv

/-- The characters of a pair of `gb18030_2022_rows` are the scalar values. -/
theorem gb18030_2022_scalar (c : Nat) : Scalar c ↔ ∃ b, (b, c) ∈ gb18030_2022_rows := by
  constructor
  · intro h
    by_cases hc : c < 0x10000
    · have h1 := gb18030_2022_bmp_all.2 c (by
        unfold gbScalars
        rw [List.mem_append, List.mem_append, List.mem_range'_1, List.mem_range'_1]
        unfold Scalar at h
        omega)
      cases hr : (gb18030_2022_wbmp c).res with
      | none => exact absurd hr h1
      | some b =>
        have h2 := (gb18030_2022_table.enc_iff c b).1 (W.orElse_res_some hr)
        exact ⟨b, h2.elim (·.1) fun h => absurd h.2 (by rw [show gb18030_2022_irr = [] from rfl]; simp)⟩
    · refine ⟨gbB 0x90 (c - 0x10000), ?_⟩
      unfold gb18030_2022_rows
      refine List.mem_append.2 (.inr ?_)
      simp only [gbSup, List.mem_map, List.mem_range]
      unfold Scalar at h
      have he : 0x10000 + (c - 0x10000) = c := by omega
      exact ⟨c - 0x10000, by omega, by rw [he]⟩
  · rintro ⟨b, hb⟩
    have h1 := (gb18030_2022_table.enc_iff c b).2 (.inl ⟨hb, by rw [show gb18030_2022_irr = [] from rfl]; simp⟩)
    have h2 : ((gb18030_2022_wbmp c).orElse (gb_wsup c)).res = some b := h1
    cases hr : (gb18030_2022_wbmp c).res with
    | none =>
      rw [W.orElse_res_none (gb18030_2022_wbmp_good c).fit.plain hr] at h2
      unfold gb_wsup at h2
      unfold Scalar
      split at h2
      · omega
      · cases h2
    | some b =>
      have h3 := gb_scalars (more := gb18030_2022_more) gb18030_2022_outside (by decide) gb18030_2022_sweep0
        gb18030_2022_sweep1 gb18030_2022_sweep2 gb18030_2022_sweep3 c (by rw [hr]; simp)
      unfold gbScalars gb18030_2022_more at h3
      rw [List.mem_append, List.mem_append, List.mem_range'_1, List.mem_range'_1] at h3
      unfold Scalar
      simp only [List.not_mem_nil, or_false] at h3
      omega

/-- C45 for GB18030:2022. Exactly the texts of Unicode scalar values can be encoded; the result decodes to
the same text, and only one text has it as its encoding. -/
theorem C45_gb18030 (cs : List Nat) :
    ((∃ out, gb18030_2022_entry.Encodes cs out) ↔ ∀ c ∈ cs, Scalar c) ∧
    (∀ out, gb18030_2022_entry.Encodes cs out → gb18030_2022_entry.Text out cs) ∧
    (∀ ds out, gb18030_2022_entry.Encodes cs out → gb18030_2022_entry.Encodes ds out → cs = ds) := by
  have hr : gb18030_2022_row ∈ mbRows := by simp [mbRows]
  have hex : ∀ cs s, gb18030_2022_entry.Encodes cs s ↔ gb18030_2022_entry.Text s cs :=
    C42_exact gb18030_2022_row (by simp)
  have htx : ∀ cs s, gb18030_2022_entry.Text s cs ↔ Pieces (fun b w => (b, w) ∈ gb18030_2022_rows) s cs :=
    fun cs s => C29_multibyte _ hr s cs
  refine ⟨⟨?_, ?_⟩, fun out => (hex cs out).1, ?_⟩
  · rintro ⟨out, h⟩ c hc
    obtain ⟨b, hb⟩ := ((htx _ _).1 ((hex _ _).1 h)).all c hc
    exact (gb18030_2022_scalar c).2 ⟨b, hb⟩
  · intro h
    suffices h : ∃ out, Pieces (fun b w => (b, w) ∈ gb18030_2022_rows) out cs by
      obtain ⟨out, h⟩ := h
      exact ⟨out, (hex _ _).2 ((htx _ _).2 h)⟩
    induction cs with
    | nil => exact ⟨[], .nil⟩
    | cons c cs ih =>
      simp only [List.forall_mem_cons] at h
      obtain ⟨out, h1⟩ := ih h.2
      obtain ⟨b, h2⟩ := (gb18030_2022_scalar c).1 h.1
      exact ⟨b ++ out, .cons h2 h1⟩
  · intro ds out h1 h2
    obtain ⟨is1, h3⟩ := chars_of_text ((hex _ _).1 h1) rfl
    obtain ⟨is2, h4⟩ := chars_of_text ((hex _ _).1 h2) rfl
    exact (Chars.det h3 h4).1

/-- C45 in terms of the API: converting a text of scalar values from UCS-4BE to GB18030:2022 succeeds, and
converting the result back gives the text. -/
theorem C45_gb18030_convert (cs : List Nat) (h : ∀ c ∈ cs, Scalar c) (alloc : Nat → List Byte)
    (hal : ∀ n, (alloc n).length = n) : ∃ x y out,
    convert (ucs4be_entry.conv gb18030_2022_entry false) St.init (cs.flatMap b32) true true
      (fun n => some (alloc n)) = .ok x ∧ x.ret = .ok () ∧ x.data = some out ∧
    convert (gb18030_2022_entry.conv ucs4be_entry false) St.init out true true
      (fun n => some (alloc n)) = .ok y ∧ y.ret = .ok () ∧ y.data = some (cs.flatMap b32) := by
  obtain ⟨h1, h2, _⟩ := C45_gb18030 cs
  obtain ⟨out, h3⟩ := h1.2 h
  have h4 : ucs4be_entry.Text (cs.flatMap b32) cs := (ucs4be_exact _ _).2
    ⟨ucs4be_encodes, fun c hc => by have := h c hc; unfold Scalar at this; omega⟩
  obtain ⟨x, h5, h6, _, h7⟩ := convert_text false simple_fixed h4 h3 alloc hal
  obtain ⟨y, h8, h9, _, h10⟩ := convert_text false simple_fixed (h2 out h3) (ucs4be_encodes (cs := cs)) alloc hal
  exact ⟨x, y, out, h5, h6, h7, h8, h9, h10⟩

/-- "中", U+E816, U+10FFFF. -/
example : ∀ c ∈ [0x4E2D, 0xE816, 0x10FFFF], Scalar c := by decide
example : gb18030_2022_entry.Encodes [0x4E2D, 0xE816, 0x10FFFF]
    [0xD6, 0xD0, 0xFE, 0x51, 0xE3, 0x32, 0x9A, 0x35] :=
  ⟨[0xD6, 0xD0, 0xFE, 0x51, 0xE3, 0x32, 0x9A, 0x35], 0, by decide +kernel, by decide +kernel⟩

/-! ## The 2005 version -/

/-- A descriptor for conversion from `A` to GB18030:2005. (There is no `Entry` for GB18030:2005, because
its encoder violates the contract of an `Entry`.) -/
def toGb18030_2005 (A : Entry) (discard : Bool) : Conv := ⟨A.dec, W.enc gb18030_2005_wctomb, A.unit, discard⟩

/-- The decoder of GB18030:2005, with the encoder of GB18030:2022 in place of its own. All theorems on
conversions from `A` to `B` hold for conversions from GB18030:2005 to `B`, since only the decoder of `A`
is part of such a descriptor. -/
def gb18030_2005_source : Entry :=
  simpleEntry ei_gb18030_2005 1 (by decide) (M.simple _ gb18030_2005_good) (W.senc _ gb18030_2022_wgood)

example (B : Entry) (discard : Bool) :
    gb18030_2005_source.conv B discard = ⟨M.dec gb18030_2005_mbtowc, B.enc, 1, discard⟩ := rfl

/-- C01 is violated: for U+E816 (and five more characters) `gb18030_2005_wctomb` makes sure that there is
room for two bytes and stores four. Converting that character from UTF-8 with `reiconv_iconv` or
`reiconv_convert_static_size` into a buffer of two or three bytes stores behind the end of the buffer. -/
theorem C01_gb18030_2005_overflow :
    (∀ c ∈ [0xE816, 0xE817, 0xE818, 0xE831, 0xE83B, 0xE855], ∀ room ∈ [[0, 0], [0, 0, 0]],
      iconv (toGb18030_2005 utf8_entry false) St.init (some (utf8Enc c)) (some ⟨false, [], room⟩) = .ub) ∧
    convertStatic (toGb18030_2005 utf8_entry false) St.init (utf8Enc 0xE816) ⟨false, [], [0, 0]⟩ = .ub ∧
    resultSize (toGb18030_2005 utf8_entry false) St.init (utf8Enc 0xE816) = .ok (.ok 4, St.init) := by
  refine ⟨by decide +kernel, by decide +kernel, by decide +kernel⟩

/-- The characters that GB18030:2005 maps to the code of another character: 24 characters of the private
use area. -/
def gb2005Lost : List Nat :=
  [0xE78D, 0xE78E, 0xE78F, 0xE790, 0xE791, 0xE792, 0xE793, 0xE794, 0xE795, 0xE796, 0xE816, 0xE817, 0xE818,
    0xE81E, 0xE826, 0xE82B, 0xE82C, 0xE831, 0xE832, 0xE83B, 0xE843, 0xE854, 0xE855, 0xE864]

/-- C29 for the decoder of GB18030:2005. -/
theorem C29_gb18030_2005_decode (inp : List Byte) (cs : List Nat) :
    gb18030_2005_source.Text inp cs ↔ Pieces (fun b w => (b, w) ∈ gb18030_2005_rows) inp cs :=
  mb_text gb18030_2005_table _ _ _ _ _ inp cs

/-- C29 for the encoder of GB18030:2005, with unlimited room: a character is written as a byte sequence that
is listed with it either in the table or in the list of irreversible pairs, but not in both. -/
theorem C29_gb18030_2005_encode_partial (A : Entry) (discard : Bool) (c : Nat) (b : List Byte) :
    (toGb18030_2005 A discard).enc.full 0 c = some (b, 0) ↔
      ((b, c) ∈ gb18030_2005_rows ∧ (b, c) ∉ gb18030_2005_irr) ∨
      ((b, c) ∉ gb18030_2005_rows ∧ (b, c) ∈ gb18030_2005_irr) := by
  rw [← gb18030_2005_table.enc_iff]
  show (W.enc gb18030_2005_wctomb).full 0 c = _ ↔ _
  rw [W.Fit.full (gb18030_2005_fit c)]
  cases (gb18030_2005_wctomb c).res <;> simp

/-- C45 for GB18030:2005, partial: every scalar value has an encoding, and it decodes to the same character
except for the 24 characters in `gb2005Lost`. Missing: those characters, see `C45_gb18030_2005_lost`. -/
theorem C45_gb18030_2005_partial (A : Entry) (discard : Bool) (c : Nat) (h : Scalar c) :
    ∃ b, (toGb18030_2005 A discard).enc.full 0 c = some (b, 0) ∧
      (c ∉ gb2005Lost → gb18030_2005_source.Text b [c]) := by
  have h1 : ∃ b, (gb18030_2005_wctomb c).res = some b := by
    by_cases hc : c < 0x10000
    · have h1 := gb18030_2005_bmp_all.2 c (by
        unfold gbScalars
        rw [List.mem_append, List.mem_append, List.mem_range'_1, List.mem_range'_1]
        unfold Scalar at h
        omega)
      cases hr : (gb18030_2005_wbmp c).res with
      | none => exact absurd hr h1
      | some b => exact ⟨b, W.orElse_res_some hr⟩
    · cases hr : (gb18030_2005_wbmp c).res with
      | some b => exact ⟨b, W.orElse_res_some hr⟩
      | none =>
        show ∃ b, ((gb18030_2005_wbmp c).orElse (gb_wsup c)).res = some b
        rw [W.orElse_res_none (gb18030_2005_wbmp_fit c).plain hr]
        unfold Scalar at h
        unfold gb_wsup
        rw [if_pos (by omega)]
        exact ⟨_, rfl⟩
  obtain ⟨b, hb⟩ := h1
  have hf : (toGb18030_2005 A discard).enc.full 0 c = some (b, 0) := by
    show (W.enc gb18030_2005_wctomb).full 0 c = _
    rw [W.Fit.full (gb18030_2005_fit c), hb]; rfl
  refine ⟨b, hf, fun hl => ?_⟩
  rw [C29_gb18030_2005_decode]
  have h2 : (b, c) ∈ gb18030_2005_rows := by
    rcases (gb18030_2005_table.enc_iff c b).1 hb with h2 | h2
    · exact h2.1
    · exfalso
      have h3 : ∀ p ∈ irrOf gb18030_2005_ex1, p.2 ∈ gb2005Lost := by decide +kernel
      have h4 := h2.2
      unfold gb18030_2005_irr at h4
      rcases List.mem_append.1 h4 with h4 | h4
      · have h5 : ∀ p ∈ tableOf (gb18030_2005_dups.map (·.2)), 0x10000 ≤ p.2 := by decide +kernel
        have h6 := h5 _ h4
        have h7 : (b, c) ∈ tableOf (pieceTabs gb18030_2005_pieces) := by
          have h8 := chkRows_sound gb18030_2005_dups gb18030_2005_allRows
          unfold tableOf at h4 ⊢
          obtain ⟨x, hx, he⟩ := List.mem_map.1 h4
          rw [← h8] at hx
          exact List.mem_map.2 ⟨x, (List.mem_filter.1 hx).1, he⟩
        exact h2.1 (List.mem_append.2 (.inl (List.mem_append.2 (.inl h7))))
      · rcases List.mem_append.1 h4 with h4 | h4
        · exact h2.1 (List.mem_append.2 (.inl (List.mem_append.2 (.inr ((mem_linRows ..).2 (.inl h4))))))
        · exact hl (h3 _ h4)
  have := Pieces.cons (R := fun b w => (b, w) ∈ gb18030_2005_rows) h2 .nil
  rwa [List.append_nil] at this

example : Scalar 0x4E2D ∧ 0x4E2D ∉ gb2005Lost := by decide

/-- C45 is violated for GB18030:2005: each of these 24 characters is converted without an error to a byte
sequence that is converted back to another character. -/
theorem C45_gb18030_2005_lost : ∀ c ∈ gb2005Lost, ∃ b d, d ≠ c ∧
    (toGb18030_2005 utf8_entry false).enc.full 0 c = some (b, 0) ∧
    iconv (toGb18030_2005 utf8_entry false) St.init (some (utf8Enc c)) (some ⟨false, [], [0, 0, 0, 0]⟩) =
      .ok ⟨.ok 0, St.init, [], ⟨false, b, List.replicate (4 - b.length) 0⟩⟩ ∧
    iconv (gb18030_2005_source.conv utf8_entry false) St.init (some b) (some ⟨false, [], [0, 0, 0, 0]⟩) =
      .ok ⟨.ok 0, St.init, [], ⟨false, utf8Enc d, List.replicate (4 - (utf8Enc d).length) 0⟩⟩ := by
  simp only [gb2005Lost, List.forall_mem_cons, List.not_mem_nil, false_implies, implies_true, and_true]
  refine ⟨⟨[0xa6, 0xd9], 0xfe10, ?_⟩,
    ⟨[0xa6, 0xda], 0xfe12, ?_⟩,
    ⟨[0xa6, 0xdb], 0xfe11, ?_⟩,
    ⟨[0xa6, 0xdc], 0xfe13, ?_⟩,
    ⟨[0xa6, 0xdd], 0xfe14, ?_⟩,
    ⟨[0xa6, 0xde], 0xfe15, ?_⟩,
    ⟨[0xa6, 0xdf], 0xfe16, ?_⟩,
    ⟨[0xa6, 0xec], 0xfe17, ?_⟩,
    ⟨[0xa6, 0xed], 0xfe18, ?_⟩,
    ⟨[0xa6, 0xf3], 0xfe19, ?_⟩,
    ⟨[0x95, 0x32, 0x90, 0x31], 0x20087, ?_⟩,
    ⟨[0x95, 0x32, 0x90, 0x33], 0x20089, ?_⟩,
    ⟨[0x95, 0x32, 0x97, 0x30], 0x200cc, ?_⟩,
    ⟨[0xfe, 0x59], 0x9fb4, ?_⟩,
    ⟨[0xfe, 0x61], 0x9fb5, ?_⟩,
    ⟨[0xfe, 0x66], 0x9fb6, ?_⟩,
    ⟨[0xfe, 0x67], 0x9fb7, ?_⟩,
    ⟨[0x95, 0x36, 0xb9, 0x37], 0x215d7, ?_⟩,
    ⟨[0xfe, 0x6d], 0x9fb8, ?_⟩,
    ⟨[0x96, 0x30, 0xba, 0x35], 0x2298f, ?_⟩,
    ⟨[0xfe, 0x7e], 0x9fb9, ?_⟩,
    ⟨[0xfe, 0x90], 0x9fba, ?_⟩,
    ⟨[0x96, 0x35, 0xb6, 0x30], 0x241fe, ?_⟩,
    ⟨[0xfe, 0xa0], 0x9fbb, ?_⟩⟩ <;> decide +kernel

/-- For example, U+E816 and U+20087 have the same encoding. -/
theorem C45_gb18030_2005_collision : (toGb18030_2005 utf8_entry false).enc.full 0 0xE816 =
    (toGb18030_2005 utf8_entry false).enc.full 0 0x20087 := by decide +kernel

end Reiconv
