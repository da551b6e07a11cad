import Verif.Codec.IsoFollow3
import Verif.Props.Shift

/-!
# C47: the ISO-2022 encodings and HZ are read as their definitions say

`Verif/Iso2022.lean` is the specification: registers, designations, shifts, and the published character set tables.
-/

namespace Reiconv

open Iso (Regs Profile Reads HzStep)

/-- An ISO-2022 encoding and its definition. -/
structure IsoRow where
  name : String
  entry : Entry
  profile : Profile

def isoRows : List IsoRow :=
  [⟨"ISO-2022-KR", iso2022_kr_entry, Iso.kr⟩, ⟨"ISO-2022-CN", iso2022_cn_entry, Iso.cn⟩,
   ⟨"ISO-2022-CN-EXT", iso2022_cn_ext_entry, Iso.cnExt⟩, ⟨"ISO-2022-JP", iso2022_jp_entry, Iso.jp⟩,
   ⟨"ISO-2022-JP-1", iso2022_jp1_entry, Iso.jp1⟩, ⟨"ISO-2022-JP-3", iso2022_jp3_entry, Iso.jp3⟩]

/-- C47: the bytes are read as the characters exactly if the definition of the encoding says so. -/
theorem C47_reads : ∀ r ∈ isoRows, ∀ (s : List Byte) (w : List Nat),
    r.entry.Text s w ↔ Reads r.profile.Step Regs.init s w := by
  simp only [isoRows, List.forall_mem_cons]
  exact ⟨fun s w => Iso.kr_follows.text _ s w, fun s w => Iso.cn_follows.text _ s w, fun s w => Iso.cnext_follows.text _ s w,
    fun s w => Iso.jp_follows.text _ s w, fun s w => Iso.jp1_follows.text _ s w, fun s w => Iso.jp3_follows.text _ s w,
    fun _ h => nomatch h⟩

theorem isoRows_fixed : ∀ r ∈ isoRows, r.entry.FixedOrder := by
  simp only [isoRows, List.forall_mem_cons]
  exact ⟨st_fixed _ _, st_fixed _ _, st_fixed _ _, st_fixed _ _, st_fixed _ _, st_fixed _ _, fun _ h => nomatch h⟩

/-- C47 at the API: converting to UCS-4BE gives the characters the definition gives; input that is no text by the
definition makes every conversion fail with `EILSEQ`. -/
theorem C47_convert : ∀ r ∈ isoRows, ∀ (inp : List Byte) (alloc : Nat → List Byte), (∀ n, (alloc n).length = n) →
    (∀ w, Reads r.profile.Step Regs.init inp w → ∃ y, convert (r.entry.conv ucs4be_entry false) St.init inp true true
      (fun n => some (alloc n)) = .ok y ∧ y.ret = .ok () ∧ y.data = some (w.flatMap b32)) ∧
    ((¬ ∃ w, Reads r.profile.Step Regs.init inp w) → ∀ B : Entry,
      ∃ s1, resultSize (r.entry.conv B false) St.init inp = .ok (.error .EILSEQ, s1) ∧
        convert (r.entry.conv B false) St.init inp true true (fun n => some (alloc n)) = .ok ⟨.error .EILSEQ, s1, none, none⟩) := by
  intro r hr inp alloc hal
  obtain ⟨h1, h2⟩ := decode_api (isoRows_fixed r hr) inp alloc hal
  refine ⟨fun w hw => h1 w ((C47_reads r hr inp w).2 hw), fun hn => h2 ?_⟩
  rintro ⟨w, hw⟩
  exact hn ⟨w, (C47_reads r hr inp w).1 hw⟩

/-- The hypotheses are met: in ISO-2022-JP, `ESC $ B`, the bytes of あ, `ESC ( B`, a newline. -/
theorem iso_jp_example : Reads Iso.jp.Step Regs.init [0x1b, 0x24, 0x42, 0x24, 0x22, 0x1b, 0x28, 0x42, 0x0a] [0x3042, 0x0a] := by
  have h : Iso.Set.jisx0208.Chars [0x24, 0x22] [0x3042] :=
    (Iso.jisx0208_two.chars _ _).2 ⟨_, _, _, rfl, rfl, by decide +kernel⟩
  exact .step (b := [0x1b, 0x24, 0x42]) (w := []) (.desig _ _ .G0 .jisx0208 (by simp [Iso.jp]))
    (.step (b := [0x24, 0x22]) (w := [0x3042]) (.char _ .jisx0208 _ _ rfl h (by decide))
      (.step (b := [0x1b, 0x28, 0x42]) (w := []) (.desig _ _ .G0 .ascii (by simp [Iso.jp]))
        (.step (b := [0x0a]) (w := [0x0a]) (.char _ .ascii _ _ rfl ⟨0x0a, by decide, rfl, rfl⟩ (by decide)) (.nil _))))

example : iso2022_jp_entry.Text [0x1b, 0x24, 0x42, 0x24, 0x22, 0x1b, 0x28, 0x42, 0x0a] [0x3042, 0x0a] :=
  (C47_reads ⟨"ISO-2022-JP", iso2022_jp_entry, Iso.jp⟩ (by simp [isoRows]) _ _).2 iso_jp_example

/-- C47, writing: what is written for characters other than the escape and shift characters is a text of these
characters by the definition of the encoding. -/
theorem C47_writes : ∀ r ∈ isoRows, ∀ (w : List Nat) (s : List Byte), (∀ c ∈ w, c ≠ 0x1b ∧ c ≠ 0x0e ∧ c ≠ 0x0f) →
    r.entry.Encodes w s → Reads r.profile.Step Regs.init s w := by
  intro r hr w s hw hs
  have h : ∃ q ∈ shiftRows, q.entry = r.entry ∧ ∀ c ∈ q.ctl, c = 0x1b ∨ c = 0x0e ∨ c = 0x0f := by
    clear hs
    revert r
    simp only [isoRows, List.forall_mem_cons]
    refine ⟨⟨⟨"ISO-2022-KR", iso2022_kr_entry, [0x1b, 0x0e, 0x0f]⟩, by simp [shiftRows], rfl, by decide⟩,
      ⟨⟨"ISO-2022-CN", iso2022_cn_entry, [0x1b, 0x0e, 0x0f]⟩, by simp [shiftRows], rfl, by decide⟩,
      ⟨⟨"ISO-2022-CN-EXT", iso2022_cn_ext_entry, [0x1b, 0x0e, 0x0f]⟩, by simp [shiftRows], rfl, by decide⟩,
      ⟨⟨"ISO-2022-JP", iso2022_jp_entry, [0x1b]⟩, by simp [shiftRows], rfl, by decide⟩,
      ⟨⟨"ISO-2022-JP-1", iso2022_jp1_entry, [0x1b]⟩, by simp [shiftRows], rfl, by decide⟩,
      ⟨⟨"ISO-2022-JP-3", iso2022_jp3_entry, [0x1b]⟩, by simp [shiftRows], rfl, by decide⟩, fun _ h => nomatch h⟩
  obtain ⟨q, hq, hqr, hc⟩ := h
  rw [← hqr] at hs
  have ht := C42_shift q hq w s (fun c h h' => by
    obtain ⟨h1, h2, h3⟩ := hw c h
    rcases hc c h' with h4 | h4 | h4
    · exact h1 h4
    · exact h2 h4
    · exact h3 h4) hs
  rw [hqr] at ht
  exact (C47_reads r hr s w).1 ht

/-! ## ISO-2022-JP-2 -/

/-- C47 for ISO-2022-JP-2. The converter also reads JIS X 0201 Kana, and bytes from 0x00 on after `ESC N`; RFC 1554 has
neither. -/
theorem C47_jp2_reads : ∀ (s : List Byte) (w : List Nat),
    iso2022_jp2_entry.Text s w ↔ Reads (Iso.jp2 0 true).Step Regs.init s w :=
  fun s w => Iso.jp2_follows.text _ s w

/-- No text of RFC 1554 is rejected or read differently. -/
theorem C47_jp2_accepts : ∀ (s : List Byte) (w : List Nat), Reads (Iso.jp2 0x20 false).Step Regs.init s w →
    iso2022_jp2_entry.Text s w :=
  fun s w h => (C47_jp2_reads s w).2 (Iso.jp2_relo (fun _ => rfl) h (.inl rfl))

/-- C47 for texts without C1 control characters: exactly the texts of RFC 1554 extended by JIS X 0201 Kana. Missing:
input with C1 controls after `ESC N` must be rejected, and is not (`C47_jp2_violation`); nor is Kana
(`C47_jp2_kana_violation`). -/
theorem C47_jp2_partial : ∀ (s : List Byte) (w : List Nat), (∀ c ∈ w, ¬ (0x80 ≤ c ∧ c < 0xa0)) →
    (iso2022_jp2_entry.Text s w ↔ Reads (Iso.jp2 0x20 true).Step Regs.init s w) :=
  fun s w hw => ⟨fun h => Iso.jp2_relo id ((C47_jp2_reads s w).1 h) (.inr ⟨Nat.le_refl _, hw⟩),
    fun h => (C47_jp2_reads s w).2 (Iso.jp2_relo id h (.inl rfl))⟩

/-- C47, writing. -/
theorem C47_jp2_writes : ∀ (w : List Nat) (s : List Byte), (∀ c ∈ w, c ≠ 0x1b ∧ ¬ (0x80 ≤ c ∧ c < 0xa0)) →
    iso2022_jp2_entry.Encodes w s → Reads (Iso.jp2 0x20 true).Step Regs.init s w := by
  intro w s hw hs
  refine (C47_jp2_partial s w fun c hc => (hw c hc).2).1 (C42_shift ⟨"ISO-2022-JP-2", iso2022_jp2_entry, [0x1b]⟩
    (by simp [shiftRows]) w s (fun c hc h => ?_) hs)
  rw [List.mem_singleton] at h
  exact (hw c hc).1 h

/-- The hypotheses are met. -/
example : ∃ w s, (∀ c ∈ w, c ≠ 0x1b ∧ ¬ (0x80 ≤ c ∧ c < 0xa0)) ∧ iso2022_jp2_entry.Encodes w s ∧ w.length = 4 :=
  ⟨_, _, by decide, jp2_example, rfl⟩

/-- The violation: U+008A is written as `ESC . A ESC N` and a line feed, and this is read as U+008A; it is no text of
RFC 1554. -/
theorem C47_jp2_violation : iso2022_jp2_entry.Encodes [0x8a] [0x1b, 0x2e, 0x41, 0x1b, 0x4e, 0x0a] ∧
    iso2022_jp2_entry.Text [0x1b, 0x2e, 0x41, 0x1b, 0x4e, 0x0a] [0x8a] ∧
    ∀ (k : Bool) (w : List Nat), ¬ Reads (Iso.jp2 0x20 k).Step Regs.init [0x1b, 0x2e, 0x41, 0x1b, 0x4e, 0x0a] w := by
  have h : iso2022_jp2_entry.Encodes [0x8a] [0x1b, 0x2e, 0x41, 0x1b, 0x4e, 0x0a] :=
    ⟨_, _, show _ = some ([0x1b, 0x2e, 0x41, 0x1b, 0x4e, 0x0a], 0x100) by decide +kernel, by decide +kernel⟩
  exact ⟨h, C42_shift ⟨"ISO-2022-JP-2", iso2022_jp2_entry, [0x1b]⟩ (by simp [shiftRows]) _ _ (by decide) h,
    fun k w => Iso.jp2_no_low (.inl rfl) (by decide)⟩

/-- JIS X 0201 Kana is read, though RFC 1554 does not have it. -/
theorem C47_jp2_kana_violation : iso2022_jp2_entry.Text [0x1b, 0x28, 0x49, 0x31] [0xff71] ∧
    ∀ w, ¬ Reads (Iso.jp2 0x20 false).Step Regs.init [0x1b, 0x28, 0x49, 0x31] w := by
  constructor
  · exact (C47_jp2_reads _ _).2 (.step (b := [0x1b, 0x28, 0x49]) (w := []) (.desig _ _ .G0 .kana (by simp [Iso.jp2]))
      (.step (b := [0x31]) (w := [0xff71]) (.char _ .kana _ _ rfl ⟨0x31, by decide, by decide, rfl, rfl⟩ (by decide)) (.nil _)))
  · intro w h
    rcases h.inv with ⟨h, _⟩ | ⟨b, w1, g1, s1, w2, h1, h2, hb, _⟩
    · cases h
    rcases Iso.jp2_esc_step h1 hb with ⟨r, x, hm, _, _⟩ | ⟨x, d, hx, _, _⟩
    · simp only [Iso.jp2, Iso.jp1, Iso.jp, List.mem_append, List.mem_cons, Prod.mk.injEq, List.not_mem_nil, or_false] at hm
      rcases hm with (((hm | hm | hm | hm) | hm) | hm | hm | hm | hm) | hm
      all_goals try (obtain ⟨rfl, rfl, rfl⟩ := hm; simp at hb)
      cases hm
    · rcases hx with ⟨rfl, _⟩ | ⟨rfl, _⟩ <;> simp at hb

/-! ## HZ -/

/-- C47 for HZ. The converter also reads bytes outside of ASCII, as themselves; RFC 1843 does not have them. -/
theorem C47_hz_reads : ∀ (s : List Byte) (w : List Nat), hz_entry.Text s w ↔ Reads (HzStep true) false s w :=
  fun s w => Iso.hz_follows.text _ s w

/-- C47 for HZ on seven-bit input: exactly the texts of RFC 1843. Missing: input with bytes from 0x80 must be
rejected, and is not (`C12_hz_eight_bit`). -/
theorem C47_hz_partial : ∀ (s : List Byte) (w : List Nat), (∀ c ∈ s, c.toNat < 0x80) →
    (hz_entry.Text s w ↔ Reads (HzStep false) false s w) :=
  fun s w hs => ⟨fun h => Iso.hz_seven ((C47_hz_reads s w).1 h) hs, fun h => (C47_hz_reads s w).2 (Iso.hz_eight h)⟩

/-- No text of RFC 1843 is rejected or read differently. -/
theorem C47_hz_accepts : ∀ (s : List Byte) (w : List Nat), Reads (HzStep false) false s w → hz_entry.Text s w :=
  fun s w h => (C47_hz_partial s w (Iso.hz_low h)).2 h

/-- The violation: the byte 0x80 is read as a character, though no text of RFC 1843 contains it. -/
theorem C47_hz_violation : hz_entry.Text [0x80] [0x80] ∧ ∀ w, ¬ Reads (HzStep false) false [0x80] w := by
  refine ⟨(C47_hz_reads _ _).2 (.step (b := [0x80]) (w := [0x80]) (.char 0x80 (by decide) (.inl rfl)) (.nil _)), ?_⟩
  intro w h
  have := Iso.hz_low h 0x80 (by simp)
  exact absurd this (by decide)

/-- The hypotheses are met: `~{`, the bytes of 啊, `~}`, `~~`. -/
example : Reads (HzStep false) false [0x7e, 0x7b, 0x30, 0x21, 0x7e, 0x7d, 0x7e, 0x7e] [0x554a, 0x7e] :=
  .step (b := [0x7e, 0x7b]) (w := []) .enter
    (.step (b := [0x30, 0x21]) (w := [0x554a])
      (.gb _ _ ((Iso.gb2312_two.chars _ _).2 ⟨_, _, _, rfl, rfl, by decide +kernel⟩))
      (.step (b := [0x7e, 0x7d]) (w := []) .leave (.step (b := [0x7e, 0x7e]) (w := [0x7e]) .tilde (.nil _))))

end Reiconv
