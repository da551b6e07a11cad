import Verif.Codec.SimIso
import Verif.Codec.SimCnExt
import Verif.Codec.SimJpms
import Verif.Codec.SimJp3
import Verif.Codec.SimJp2
import Verif.Props.Utf7

/-!
# Encodings with shift states: C42, C43
-/

namespace Reiconv

/-- An encoding with shift states. `ctl`: the characters that are written as they are although the decoder
takes their codes for the beginning of a control sequence (in UTF-7: of a surrogate pair); in CP50221 also
the characters that are written like another one. -/
structure ShiftRow where
  name : String
  entry : Entry
  ctl : List Nat

/-- What is proved of each row. -/
structure ShiftRow.OK (r : ShiftRow) : Prop where
  fixed : r.entry.FixedOrder
  sim : Nonempty (Sim r.entry (· ∉ r.ctl))

def Sim.weaken {B : Entry} {P Q : Nat → Prop} (S : Sim B P) (h : ∀ c, Q c → P c) : Sim B Q :=
  { S with step := fun os is u k wc bs os' hR hQ => S.step os is u k wc bs os' hR (h wc hQ) }

theorem st_fixed {idx : Nat} {hu : unitOf idx = 1} {D : Decoder} {E : Encoder} (d : StDec D) (e : StEnc E) :
    (stEntry idx hu d e).FixedOrder := fun _ h => h.1

/-- The encodings whose converters keep a shift state. -/
def shiftRows : List ShiftRow := [
  ⟨"HZ", hz_entry, [0x7e]⟩,
  ⟨"ISO-2022-KR", iso2022_kr_entry, [0x1b, 0x0e, 0x0f]⟩,
  ⟨"ISO-2022-CN", iso2022_cn_entry, [0x1b, 0x0e, 0x0f]⟩,
  ⟨"ISO-2022-CN-EXT", iso2022_cn_ext_entry, [0x1b, 0x0e, 0x0f]⟩,
  ⟨"ISO-2022-JP", iso2022_jp_entry, [0x1b]⟩,
  ⟨"ISO-2022-JP-1", iso2022_jp1_entry, [0x1b]⟩,
  ⟨"ISO-2022-JP-2", iso2022_jp2_entry, [0x1b]⟩,
  ⟨"ISO-2022-JP-3", iso2022_jp3_entry, [0x1b]⟩,
  ⟨"CP50221", iso2022_jpms_entry, [0x1b, 0x0e, 0x0f] ++ jpmsLost⟩,
  ⟨"UTF-7", utf7_entry, List.range' 0xd800 0x400⟩]

theorem shiftRows_ok : ∀ r ∈ shiftRows, r.OK := by
  simp only [shiftRows, List.forall_mem_cons]
  refine ⟨⟨st_fixed _ _, ⟨hz_sim.weaken ?_⟩⟩, ⟨st_fixed _ _, ⟨iso2022_kr_sim.weaken ?_⟩⟩,
    ⟨st_fixed _ _, ⟨iso2022_cn_sim.weaken ?_⟩⟩, ⟨st_fixed _ _, ⟨iso2022_cn_ext_sim.weaken ?_⟩⟩, ⟨st_fixed _ _, ⟨iso2022_jp_sim.weaken ?_⟩⟩,
    ⟨st_fixed _ _, ⟨iso2022_jp1_sim.weaken ?_⟩⟩, ⟨st_fixed _ _, ⟨iso2022_jp2_sim.weaken ?_⟩⟩, ⟨st_fixed _ _, ⟨iso2022_jp3_sim.weaken ?_⟩⟩,
    ⟨st_fixed _ _, ⟨iso2022_jpms_sim.weaken ?_⟩⟩,
    ⟨st_fixed _ _, ⟨utf7_sim.weaken ?_⟩⟩, by simp⟩
  · intro c h; simpa [NotTilde] using h
  · intro c h; simpa [NotShift] using h
  · intro c h; simpa [NotShift] using h
  · intro c h; simpa [NotShift] using h
  · intro c h; simpa [NotEsc] using h
  · intro c h; simpa [NotEsc] using h
  · intro c h; simpa [NotEsc] using h
  · intro c h; simpa [NotEsc] using h
  · intro c h
    simp only [List.mem_append, not_or] at h
    exact ⟨by simpa [NotShift] using h.1, h.2⟩
  · intro c h
    simp only [List.mem_range'_1] at h
    unfold NotHigh
    omega

/-! ## C42 -/

/-- C42 for these encodings: what is written for a text without control characters is read as this text. -/
theorem C42_shift : ∀ r ∈ shiftRows, ∀ (cs : List Nat) (out : List Byte),
    (∀ c ∈ cs, c ∉ r.ctl) → r.entry.Encodes cs out → r.entry.Text out cs := by
  intro r hr cs out hc h
  obtain ⟨S⟩ := (shiftRows_ok r hr).sim
  exact S.back hc h

/-- "あA" in ISO-2022-JP. -/
theorem jp_example : iso2022_jp_entry.Encodes [0x3042, 0x41] [0x1b, 0x24, 0x42, 0x24, 0x22, 0x1b, 0x28, 0x42, 0x41] :=
  ⟨_, _, show _ = some ([0x1b, 0x24, 0x42, 0x24, 0x22, 0x1b, 0x28, 0x42, 0x41], 0) by decide +kernel, by decide +kernel⟩

/-- "アA国" in HZ. -/
theorem hz_example : hz_entry.Encodes [0x30a2, 0x41, 0x56fd]
    [0x7e, 0x7b, 0x25, 0x22, 0x7e, 0x7d, 0x41, 0x7e, 0x7b, 0x39, 0x7a, 0x7e, 0x7d] :=
  ⟨_, _, show _ = some ([0x7e, 0x7b, 0x25, 0x22, 0x7e, 0x7d, 0x41, 0x7e, 0x7b, 0x39, 0x7a], 1) by decide +kernel, by decide +kernel⟩

example : iso2022_jp_entry.Text [0x1b, 0x24, 0x42, 0x24, 0x22, 0x1b, 0x28, 0x42, 0x41] [0x3042, 0x41] :=
  C42_shift ⟨"ISO-2022-JP", iso2022_jp_entry, [0x1b]⟩ (by simp [shiftRows]) _ _ (by decide) jp_example

/-- U+304B U+309A, written as one character of JIS X 0213, and "A", in ISO-2022-JP-3. -/
theorem jp3_example : iso2022_jp3_entry.Encodes [0x304b, 0x309a, 0x41]
    [0x1b, 0x24, 0x28, 0x51, 0x24, 0x77, 0x1b, 0x28, 0x42, 0x41] :=
  ⟨_, _, show _ = some ([0x1b, 0x24, 0x28, 0x51, 0x24, 0x77, 0x1b, 0x28, 0x42, 0x41], 0) by decide +kernel, by decide +kernel⟩

example : iso2022_jp3_entry.Text [0x1b, 0x24, 0x28, 0x51, 0x24, 0x77, 0x1b, 0x28, 0x42, 0x41] [0x304b, 0x309a, 0x41] :=
  C42_shift ⟨"ISO-2022-JP-3", iso2022_jp3_entry, [0x1b]⟩ (by simp [shiftRows]) _ _ (by decide) jp3_example

/-- "é", U+00A0, "あ", "한" in ISO-2022-JP-2: JIS X 0212, ISO-8859-1 in G2, JIS X 0208, KS C 5601. -/
theorem jp2_example : iso2022_jp2_entry.Encodes [0xe9, 0xa0, 0x3042, 0xd55c]
    [0x1b, 0x24, 0x28, 0x44, 0x2b, 0x31, 0x1b, 0x2e, 0x41, 0x1b, 0x4e, 0x20, 0x1b, 0x24, 0x42, 0x24, 0x22,
      0x1b, 0x24, 0x28, 0x43, 0x47, 0x51, 0x1b, 0x28, 0x42] :=
  ⟨_, _, show _ = some ([0x1b, 0x24, 0x28, 0x44, 0x2b, 0x31, 0x1b, 0x2e, 0x41, 0x1b, 0x4e, 0x20, 0x1b, 0x24, 0x42, 0x24, 0x22,
      0x1b, 0x24, 0x28, 0x43, 0x47, 0x51], 0x106) by decide +kernel, by decide +kernel⟩

/-- CP50221 writes 374 private characters and U+301D without an error and reads back another character: the
exceptions for it in `shiftRows` cannot be dropped. -/
theorem C42_cp50221_lost : ∀ c ∈ jpmsLost, ∃ out c', c' ≠ c ∧
    iso2022_jpms_entry.Encodes [c] out ∧ iso2022_jpms_entry.Text out [c'] := fun _ hc => jpmsLost_text hc

/-- U+E178 by way of CP50221 comes back as U+7E8A. -/
theorem C42_cp50221_witness :
    convert (utf8_entry.conv iso2022_jpms_entry false) St.init [0xee, 0x85, 0xb8] true true (fun n => some (List.replicate n 0)) =
      .ok ⟨.ok (), St.init, some 8, some [0x1b, 0x24, 0x42, 0x79, 0x21, 0x1b, 0x28, 0x42]⟩ ∧
    convert (iso2022_jpms_entry.conv utf8_entry false) St.init [0x1b, 0x24, 0x42, 0x79, 0x21, 0x1b, 0x28, 0x42] true true
      (fun n => some (List.replicate n 0)) =
      .ok ⟨.ok (), St.init, some 3, some [0xe7, 0xba, 0x8a]⟩ := by
  decide +kernel

/-! ## C43 -/

/-- Outputs of several conversions to an encoding with shift states, one after the other, are the text of
the inputs one after the other. -/
theorem C43_concat_partial : ∀ r ∈ shiftRows, ∀ (l : List (List Nat × List Byte)),
    (∀ x ∈ l, r.entry.Encodes x.1 x.2 ∧ ∀ c ∈ x.1, c ∉ r.ctl) →
    r.entry.Text (l.map (·.2)).flatten (l.map (·.1)).flatten := by
  intro r hr l h
  obtain ⟨S⟩ := (shiftRows_ok r hr).sim
  exact S.concat l h

/-- C43: `reiconv_convert` is called for several texts `x.1` in an encoding `A`, the results (with the return
to the initial state) are put one after the other, and this is converted to an encoding `C`. The result is
the same as for the texts one after the other in `C`. Missing: encodings with shift states not in
`shiftRows`, and texts with the characters `r.ctl`, for which it is false (`C43_hz_tilde`,
`C43_jp_escape`). -/
theorem C43_self_contained_partial : ∀ r ∈ shiftRows, ∀ (A C : Entry) (discard discard' : Bool), A.FixedOrder →
    ∀ (l : List (List Byte × List Nat × List Byte)) (z : List Byte) (alloc : Nat → List Byte),
    (∀ n, (alloc n).length = n) →
    (∀ x ∈ l, A.Text x.1 x.2.1 ∧ r.entry.Encodes x.2.1 x.2.2 ∧ ∀ c ∈ x.2.1, c ∉ r.ctl) →
    C.Encodes (l.map (·.2.1)).flatten z →
    (∀ x ∈ l, ∃ y, convert (A.conv r.entry discard) St.init x.1 true true (fun n => some (alloc n)) = .ok y ∧
      y.ret = .ok () ∧ y.outLen = some x.2.2.length ∧ y.data = some x.2.2) ∧
    ∃ y, convert (r.entry.conv C discard') St.init (l.map (·.2.2)).flatten true true
        (fun n => some (alloc n)) = .ok y ∧
      y.ret = .ok () ∧ y.outLen = some z.length ∧ y.data = some z := by
  intro r hr A C discard discard' hA l z alloc hal h hz
  refine ⟨fun x hx => ?_, ?_⟩
  · obtain ⟨h1, h2, _⟩ := h x hx
    exact convert_text discard hA h1 h2 alloc hal
  · have := C43_concat_partial r hr (l.map fun x => (x.2.1, x.2.2)) (by
      intro y hy
      obtain ⟨x, hx, rfl⟩ := List.mem_map.1 hy
      exact (h x hx).2)
    rw [List.map_map, List.map_map] at this
    exact convert_text discard' (shiftRows_ok r hr).fixed this hz alloc hal

/-- The hypotheses are met: "あA" and "あA" in ISO-2022-JP. -/
example : ∀ x ∈ [([0xe3, 0x81, 0x82, 0x41], [0x3042, 0x41], [0x1b, 0x24, 0x42, 0x24, 0x22, 0x1b, 0x28, 0x42, 0x41]),
      ([0xe3, 0x81, 0x82, 0x41], [0x3042, 0x41], [0x1b, 0x24, 0x42, 0x24, 0x22, 0x1b, 0x28, 0x42, 0x41])],
    utf8_entry.Text x.1 x.2.1 ∧ iso2022_jp_entry.Encodes x.2.1 x.2.2 ∧ ∀ c ∈ x.2.1, c ∉ [0x1b] := by
  have h1 : utf8_entry.Text [0xe3, 0x81, 0x82, 0x41] [0x3042, 0x41] := (C19_utf8_decoding _ _).2 (by decide)
  simp only [List.forall_mem_cons]
  exact ⟨⟨h1, jp_example, by decide⟩, ⟨h1, jp_example, by decide⟩, by simp⟩

/-- In HZ a tilde has to be written as two tildes. The converter writes one: "~{" from UTF-8 to HZ gives
"~{", and this is read as the change to GB 2312, an empty text. "~~" comes back as "~". -/
theorem C43_hz_tilde :
    convert (utf8_entry.conv hz_entry false) St.init [0x7e, 0x7b] true true (fun n => some (List.replicate n 0)) =
      .ok ⟨.ok (), St.init, some 2, some [0x7e, 0x7b]⟩ ∧
    convert (hz_entry.conv utf8_entry false) St.init [0x7e, 0x7b] true true (fun n => some (List.replicate n 0)) =
      .ok ⟨.ok (), St.init, some 0, some []⟩ ∧
    convert (utf8_entry.conv hz_entry false) St.init [0x7e, 0x7e] true true (fun n => some (List.replicate n 0)) =
      .ok ⟨.ok (), St.init, some 2, some [0x7e, 0x7e]⟩ ∧
    convert (hz_entry.conv utf8_entry false) St.init [0x7e, 0x7e] true true (fun n => some (List.replicate n 0)) =
      .ok ⟨.ok (), St.init, some 1, some [0x7e]⟩ := by
  decide +kernel

/-- The text "~{" in HZ as written by the converter, followed by the output "A" of another conversion, is
not read as the two texts: it is invalid (and the failed call leaves the descriptor in the GB 2312 state). -/
theorem C43_hz_tilde_concat :
    hz_entry.Encodes [0x7e, 0x7b] [0x7e, 0x7b] ∧ hz_entry.Encodes [0x41] [0x41] ∧
    convert (hz_entry.conv utf8_entry false) St.init [0x7e, 0x7b, 0x41] true true (fun n => some (List.replicate n 0)) =
      .ok ⟨.error .EILSEQ, ⟨⟨0, 1⟩, 0⟩, none, none⟩ :=
  ⟨⟨_, _, show _ = some ([0x7e, 0x7b], 0) by decide +kernel, by decide +kernel⟩,
   ⟨_, _, show _ = some ([0x41], 0) by decide +kernel, by decide +kernel⟩, by decide +kernel⟩

/-- The character U+001B is written as it is to ISO-2022-JP: ESC `$B!!` comes back as U+3000, without an
error. -/
theorem C43_jp_escape :
    convert (utf8_entry.conv iso2022_jp_entry false) St.init [0x1b, 0x24, 0x42, 0x21, 0x21] true true
      (fun n => some (List.replicate n 0)) =
      .ok ⟨.ok (), St.init, some 5, some [0x1b, 0x24, 0x42, 0x21, 0x21]⟩ ∧
    convert (iso2022_jp_entry.conv utf8_entry false) St.init [0x1b, 0x24, 0x42, 0x21, 0x21] true true
      (fun n => some (List.replicate n 0)) =
      .ok ⟨.ok (), St.init, some 3, some [0xe3, 0x80, 0x80]⟩ := by
  decide +kernel

/-- HZ is a 7-bit encoding; the decoder takes bytes from 0x80 on for the characters U+0080 to U+00FF. -/
theorem C12_hz_eight_bit (b : Byte) (h : 0x80 ≤ b.toNat) : hz_entry.Text [b] [b.toNat] :=
  ⟨[b.toNat], ⟨0, 0⟩, chars_char1 (item := hz_item) (bo := 0) (s := [b]) (by simp) (hz_asc rfl (by omega)), rfl⟩

end Reiconv
