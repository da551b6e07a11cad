import Verif.Props.Keep
import Verif.Props.PivotExact

/-!
# C70: which encodings can write every Unicode text, and which of them nothing is lost in

An encoding that can write every text of Unicode characters and reads back what it writes is a hub: it does not matter
whether a text is converted directly or by the hub.
-/

namespace Reiconv

/-- Every text of Unicode characters can be written in `B`. -/
def Entry.Universal (B : Entry) : Prop := ∀ cs : List Nat, (∀ c ∈ cs, Scalar c) → ∃ out, B.Encodes cs out

/-- Every text of Unicode characters can be written in `B` and is read back. -/
def Entry.Hub (B : Entry) : Prop := ∀ cs : List Nat, (∀ c ∈ cs, Scalar c) → ∃ out, B.Encodes cs out ∧ B.Text out cs

/-- The encodings in which every Unicode text can be written. -/
def universalIdx : List Nat := [ei_utf8, ei_ucs4, ei_ucs4be, ei_ucs4le, ei_utf16be, ei_utf16le, ei_utf32, ei_utf32be, ei_utf32le,
  ei_utf7, ei_ucs4internal, ei_ucs4swapped, ei_c99, ei_java, ei_gb18030_2022]

/-- Those in which nothing is lost: not UCS-4 and UTF-32 (a byte order mark is lost), C99 and JAVA (characters that form an
escape are read as one). -/
def hubIdx : List Nat := [ei_utf8, ei_ucs4be, ei_ucs4le, ei_utf16be, ei_utf16le, ei_utf32be, ei_utf32le, ei_utf7, ei_ucs4internal,
  ei_ucs4swapped, ei_gb18030_2022]

namespace Hub

/-- A character that cannot be written: U+FFFE in UTF-16, otherwise U+10FFFF. -/
theorem missing : ∀ B ∈ targets, B.idx ∈ universalIdx ∨ B.enc.rep 0 0x10ffff = none ∨ B.enc.rep 0 0xfffe = none := by
  decide +kernel

theorem not_universal {B : Entry} {c : Nat} (hc : Scalar c) (h : B.enc.rep 0 c = none) : ¬ B.Universal := by
  intro hu
  obtain ⟨out, bs, os, h1, _⟩ := hu [c] (by intro d hd; rw [List.mem_singleton.1 hd]; exact hc)
  rw [Encoder.text, h] at h1
  cases h1

noncomputable def universal : List Entry := [utf8_entry, ucs4_entry, ucs4be_entry, ucs4le_entry, utf16be_entry, utf16le_entry,
  utf32_entry, utf32be_entry, utf32le_entry, utf7_entry, ucs4internal_entry, ucs4swapped_entry, c99_entry, java_entry, gb18030_2022_entry]

theorem universal_idx : universal.map (·.idx) = universalIdx := by decide +kernel

theorem scalar_lt {c : Nat} (h : Scalar c) : c < 0x110000 := h.lt

theorem fixed_universal {S : FixedForm} (hS : S ∈ fixedForms) (h : ∀ c, Scalar c → S.has c) : S.entry.Universal := fun cs hs =>
  ⟨_, ((C23_fixed_units S hS _ cs).2 fun c hc => by have := (hs c hc).lt; omega).2 ⟨fun c hc => h c (hs c hc), rfl⟩⟩

theorem utf7_universal : utf7_entry.Universal := by
  intro cs hs
  obtain ⟨bs, os, h, _⟩ := u7_text cs 0 (.inl rfl) fun c hc => (hs c hc).lt
  exact ⟨_, bs, os, h, rfl⟩

theorem universal_ok : ∀ B ∈ universal, B.Universal :=
  have lt : ∀ c, Scalar c → c < 4294967296 := fun c h => by have := h.lt; omega
  all_cons (fun _ hs => ⟨_, utf8_encodes.2 ⟨hs, rfl⟩⟩) <|
  all_cons (fun cs hs => ⟨_, (C23_marked_partial.2.2.1 cs _).2 ⟨fun c hc => by have := (hs c hc).lt; omega, rfl⟩⟩) <|
  all_cons (fun _ _ => ⟨_, ucs4be_encodes⟩) <|
  all_cons (fixed_universal (List.mem_of_getElem? (i := 7) rfl) lt) <|
  all_cons (fun cs hs => ⟨_, (C22_utf16be_le _ cs).2.1.2 ⟨hs, rfl⟩⟩) <|
  all_cons (fun cs hs => ⟨_, (C22_utf16be_le _ cs).2.2.2.2 ⟨hs, rfl⟩⟩) <|
  all_cons (fun cs hs => ⟨_, (C23_marked_partial.1 cs _).2 ⟨hs, rfl⟩⟩) <|
  all_cons (fixed_universal (List.mem_of_getElem? (i := 0) rfl) fun _ h => h) <|
  all_cons (fixed_universal (List.mem_of_getElem? (i := 1) rfl) fun _ h => h) <|
  all_cons utf7_universal <|
  all_cons (fixed_universal (List.mem_of_getElem? (i := 8) rfl) lt) <|
  all_cons (fixed_universal (List.mem_of_getElem? (i := 9) rfl) lt) <|
  all_cons (fun _ _ => ⟨_, c99_encodes⟩) <|
  all_cons (fun _ hs => ⟨_, java_encodes hs⟩) <|
  all_cons (fun cs hs => (C45_gb18030 cs).1.2 hs) all_nil

theorem universal_sources : ∀ B ∈ universal, B ∈ sources := by
  have h : ∀ B ∈ universal, ∃ k, sources[k]? = some B :=
    all_cons ⟨2, rfl⟩ <| all_cons ⟨6, rfl⟩ <| all_cons ⟨7, rfl⟩ <| all_cons ⟨8, rfl⟩ <| all_cons ⟨10, rfl⟩ <| all_cons ⟨11, rfl⟩ <|
    all_cons ⟨12, rfl⟩ <| all_cons ⟨13, rfl⟩ <| all_cons ⟨14, rfl⟩ <| all_cons ⟨15, rfl⟩ <| all_cons ⟨18, rfl⟩ <|
    all_cons ⟨19, rfl⟩ <| all_cons ⟨20, rfl⟩ <| all_cons ⟨21, rfl⟩ <| all_cons ⟨32, rfl⟩ all_nil
  intro B hB
  obtain ⟨k, hk⟩ := h B hB
  exact List.mem_of_getElem? hk

theorem hub_idx : ∀ i, i ∈ hubIdx ↔ i ∈ universalIdx ∧ i ∉ changedIdx := by
  have h1 : ∀ i ∈ hubIdx, i ∈ universalIdx ∧ i ∉ changedIdx := by decide +kernel
  have h2 : ∀ i ∈ universalIdx, i ∉ changedIdx → i ∈ hubIdx := by decide +kernel
  exact fun i => ⟨h1 i, fun h => h2 i h.1 h.2⟩

theorem hub_plain : ∀ i ∈ hubIdx, i ∉ markedIdx ∧ i ∉ holdingIdx := by decide +kernel

end Hub

/-- C70 for every registered target: every text of Unicode characters can be written in it exactly if it is one of the 15. -/
theorem C70_universal : ∀ B ∈ targets, B.Universal ↔ B.idx ∈ universalIdx := by
  intro B hB
  constructor
  · intro hu
    rcases Hub.missing B hB with h | h | h
    · exact h
    · exact absurd hu (Hub.not_universal (by unfold Scalar; omega) h)
    · exact absurd hu (Hub.not_universal (by unfold Scalar; omega) h)
  · intro hi
    rw [← Hub.universal_idx] at hi
    obtain ⟨A, hA, he⟩ := List.mem_map.1 hi
    have : A = B := sources_unique A (Hub.universal_sources A hA) B (List.mem_cons_of_mem _ hB) he
    exact this ▸ Hub.universal_ok A hA

/-- C70 for every registered target: every text of Unicode characters can be written in it and is read back exactly if it is one
of the 11. -/
theorem C70_hubs : ∀ B ∈ targets, B.Hub ↔ B.idx ∈ hubIdx := by
  intro B hB
  rw [Hub.hub_idx, ← C70_universal B hB, ← C42_registered B hB]
  constructor
  · refine fun h => ⟨fun cs hs => ?_, fun cs out hs he => ?_⟩
    · obtain ⟨out, h1, _⟩ := h cs hs
      exact ⟨out, h1⟩
    · obtain ⟨out', h1, h2⟩ := h cs hs
      exact Keep.encodes_det h1 he ▸ h2
  · rintro ⟨h1, h2⟩ cs hs
    obtain ⟨out, h3⟩ := h1 cs hs
    exact ⟨out, h3, h2 cs out hs h3⟩

/-- C70 in terms of the API: a text of Unicode characters, in any source encoding without byte order marks, is converted to one
of the 15 without loss: with either flag the conversion succeeds, and it gives what stands for the characters. -/
theorem C70_convert : ∀ A ∈ sources, A.idx ∉ markedIdx → ∀ B ∈ targets, B.idx ∈ universalIdx →
    ∀ (discard : Bool) (inp : List Byte) (cs : List Nat) (alloc : Nat → List Byte), (∀ n, (alloc n).length = n) →
    A.Text inp cs → (∀ c ∈ cs, Scalar c) → ∃ out, B.Encodes cs out ∧
      ∃ x, convert (A.conv B discard) St.init inp true true (fun n => some (alloc n)) = .ok x ∧
        x.ret = .ok () ∧ x.outLen = some out.length ∧ x.data = some out := by
  intro A hA hm B hB hi discard inp cs alloc hal ht hs
  obtain ⟨out, ho⟩ := (C70_universal B hB).2 hi cs hs
  exact ⟨out, ho, convert_text discard (sources_fixed A hA hm) ht ho alloc hal⟩

/-- C70, the way by a hub: `A` is any source without byte order marks that holds no characters back, `H` one of the 11, `B` any
target. Converting a text of Unicode characters to `H` and the result to `B` gives what the direct conversion to `B` gives: the same
return value, the same length and the same data, also where characters are replaced, dropped or rejected. -/
theorem C70_by_hub : ∀ A ∈ sources, A.idx ∉ markedIdx → A.idx ∉ holdingIdx → ∀ H ∈ targets, H.idx ∈ hubIdx → ∀ B ∈ targets,
    ∀ (discard discard' : Bool) (inp : List Byte) (cs : List Nat) (alloc : Nat → List Byte), (∀ n, (alloc n).length = n) →
    A.Text inp cs → (∀ c ∈ cs, Scalar c) → ∃ m u r r',
      convert (A.conv H discard') St.init inp true true (fun n => some (alloc n)) = .ok m ∧ m.ret = .ok () ∧ m.data = some u ∧
      convert (H.conv B discard) St.init u true true (fun n => some (alloc n)) = .ok r ∧
      convert (A.conv B discard) St.init inp true true (fun n => some (alloc n)) = .ok r' ∧
      r.ret = r'.ret ∧ r.outLen = r'.outLen ∧ r.data = r'.data := by
  intro A hA hm hh H hH hi B hB discard discard' inp cs alloc hal ht hs
  obtain ⟨out, h1, h2⟩ := (C70_hubs H hH).2 hi cs hs
  obtain ⟨m, h3, h4, _, h5⟩ := convert_text discard' (sources_fixed A hA hm) ht h1 alloc hal
  obtain ⟨h6, h7⟩ := Hub.hub_plain _ hi
  obtain ⟨r, r', h8⟩ := C49_registered_partial H (List.mem_cons_of_mem _ hH) A hA B hB h6 hm h7 hh discard out inp cs h2 ht alloc hal
  exact ⟨m, out, r, r', h3, h4, h5, h8⟩

/-- The hypotheses are met: "é😀" in UTF-8, by GB18030 to ISO-8859-1, where 😀 cannot be written. -/
example : utf8_entry ∈ sources ∧ utf8_entry.idx ∉ markedIdx ∧ utf8_entry.idx ∉ holdingIdx ∧ gb18030_2022_entry.idx ∈ hubIdx ∧
    utf8_entry.Text [0xC3, 0xA9, 0xF0, 0x9F, 0x98, 0x80] [0xE9, 0x1F600] ∧ iso8859_1_entry.enc.rep 0 0x1F600 = none :=
  ⟨List.mem_of_getElem? (i := 2) rfl, by decide +kernel, by decide +kernel, by decide +kernel,
    (C19_utf8_decoding _ _).2 (by decide), by decide +kernel⟩

/-- UTF-16 is not among the 15: the converter rejects U+FFFE, which UTF-16BE has. -/
theorem C70_utf16_violation :
    convert (utf8_entry.conv utf16_entry false) St.init [0xEF, 0xBF, 0xBE] true true zeros = .ok ⟨.ok (), St.init, some 4,
      some [0xFE, 0xFF, 0xFF, 0xFD]⟩ ∧
    convert (utf8_entry.conv utf16be_entry false) St.init [0xEF, 0xBF, 0xBE] true true zeros = .ok ⟨.ok (), St.init, some 2,
      some [0xFF, 0xFE]⟩ := by
  refine ⟨?_, ?_⟩ <;> decide +kernel

end Reiconv
