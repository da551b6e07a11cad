import Verif.Registry
import Verif.Codec.Covers
import Verif.Props.OneShot

/-!
# The registered encodings and the restrictions of the properties

`targets` and `sources` (`Verif/Registry.lean`) are all encodings the library registers. Here are the encodings to
which the restrictions of C03, C08, C09, C10, C11, C16, C17 refer, by number.
-/

namespace Reiconv

/-- The encodings whose decoder keeps a byte order. -/
def markedIdx : List Nat := [ei_ucs2, ei_ucs4, ei_utf16, ei_utf32]

theorem st_clean {idx : Nat} {hu : unitOf idx = 1} {D : Decoder} {E : Encoder} (d : StDec D) (e : StEnc E)
    (h : ∀ os wc n, e.junk os wc n = []) : (stEntry idx hu d e).encOK.Clean := by
  intro os wc n r hI h1 h2
  have hI : e.I os := hI
  have h1 : E.wctomb os wc n = .ok r := h1
  rw [e.eq os wc n hI] at h1
  cases h1
  split at h2
  · next hx =>
    rw [if_pos hx]
    cases he : e.enc os wc with
    | some x => rw [he] at h2; cases h2
    | none => exact h os wc n
  · cases h2

theorem comp_fixed {idx hu d hd e he} : (compEntry idx hu d hd e he).FixedOrder := fun _ h => h.1

theorem comp_clean {idx hu d hd e he} : (compEntry idx hu d hd e he).encOK.Clean :=
  fun _ _ _ _ _ h1 h2 => (e.senc he).clean_at h1 h2

/-- Carries out a proof for each member of `targets`. -/
macro "each_target" t:tacticSeq : tactic => `(tactic| (
  unfold targets
  repeat' (first | exact List.forall_mem_nil _ | refine List.forall_mem_cons.2 ⟨?_, ?_⟩)
  all_goals ($t)))

theorem targets_fixed : ∀ A ∈ targets, A.idx ∉ markedIdx → A.FixedOrder := by
  each_target (intro h; first | exact absurd (by decide) h | exact simple_fixed | exact comp_fixed | exact st_fixed _ _)

theorem sources_fixed : ∀ A ∈ sources, A.idx ∉ markedIdx → A.FixedOrder := by
  intro A hA h
  rcases List.mem_cons.1 hA with rfl | hA
  · exact simple_fixed
  · exact targets_fixed A hA h

/-- The encodings whose decoder holds characters back. -/
def holdingIdx : List Nat := [ei_big5hkscs1999, ei_big5hkscs2001, ei_big5hkscs2004, ei_big5hkscs2008, ei_cp1255, ei_cp1258,
  ei_tcvn, ei_euc_jisx0213, ei_shift_jisx0213, ei_iso2022_jp3]

theorem sources_flush : (sources.filter (fun A => A.dec.flushwc.isSome)).map (·.idx) = holdingIdx := by decide +kernel

theorem sources_no_flush : ∀ A ∈ sources, A.idx ∉ holdingIdx → A.dec.flushwc = none := by
  intro A hA h
  cases hf : A.dec.flushwc with
  | none => rfl
  | some f =>
    refine absurd ?_ h
    rw [← sources_flush]
    exact List.mem_map_of_mem (List.mem_filter.2 ⟨hA, by rw [hf]; rfl⟩)

/-- The encodings whose encoder may store bytes before it rejects a character, and these bytes are no part of the
result. -/
def storingIdx : List Nat := [ei_utf16, ei_utf7]

theorem utf32_clean : utf32_entry.encOK.Clean := by
  intro os wc n r _ h1 h2
  have h1 : utf32_wctomb os wc n = .ok r := h1
  unfold utf32_wctomb at h1
  split at h1
  · next hw =>
    split at h1
    · cases h1; cases h2
    · simp only [if_pos hw.1] at h1
      (repeat' split at h1) <;> (cases h1; cases h2)
  · cases h1; rfl

theorem targets_covers : ∀ B ∈ targets, B.idx ∉ storingIdx → ∃ owed, B.encOK.Covers owed := by
  each_target (intro h; first | exact absurd (by decide) h | exact ⟨_, simple_clean.covers⟩ | exact ⟨_, comp_clean.covers⟩ |
    exact ⟨_, (st_clean _ _ (fun _ _ _ => rfl)).covers⟩ |
    exact ⟨_, EncOK.Clean.covers fun _ _ _ _ _ h1 h2 => ucs2_senc.clean_at h1 h2⟩ |
    exact ⟨_, EncOK.Clean.covers fun _ _ _ _ _ h1 h2 => ucs4_senc.clean_at h1 h2⟩ |
    exact ⟨_, utf32_clean.covers⟩ | exact ⟨_, big5hkscs1999_covers⟩ | exact ⟨_, big5hkscs2001_covers⟩ | exact ⟨_, big5hkscs2004_covers⟩ |
    exact ⟨_, big5hkscs2008_covers⟩ | exact ⟨_, euc_jisx0213_covers⟩ | exact ⟨_, shift_jisx0213_covers⟩ |
    exact ⟨_, iso2022_jp3_covers⟩)

/-- The encodings with state, in the decoder or in the encoder. -/
def statefulIdx : List Nat := markedIdx ++ holdingIdx ++
  [ei_utf7, ei_iso2022_jp, ei_iso2022_jp1, ei_iso2022_jp2, ei_iso2022_jpms, ei_iso2022_cn, ei_iso2022_cn_ext, ei_hz, ei_iso2022_kr]

theorem targets_stateless : ∀ A ∈ targets, A.idx ∉ statefulIdx → A.Stateless := by
  each_target (intro h; first | exact absurd (by decide) h | exact simple_stateless)

/-! ## The properties for registered encodings, by number -/

/-- C01 for encoding numbers: for every source and every target except GB18030:2005, whatever calls were made before, a
conversion call has no undefined behaviour and returns. -/
theorem C01_registered : ∀ i o, i < ei_end → o < ei_end → o ≠ ei_gb18030_2005 →
    ∃ A ∈ sources, ∃ B ∈ targets, A.idx = i ∧ B.idx = o ∧
      ∀ (discard : Bool) (s : St), Reach (A.conv B discard) s → ∀ inp room : List Byte,
        ∃ r, iconv (A.conv B discard) s (some inp) (some ⟨false, [], room⟩) = .ok r := by
  intro i o hi ho h
  obtain ⟨A, hA, rfl⟩ := sources_complete hi
  obtain ⟨B, hB, rfl⟩ := targets_complete ho h
  exact ⟨A, hA, B, hB, rfl, rfl, fun discard s hs inp room => C01_convert_safe_partial A B discard s hs inp room⟩

/-- An encoding number belongs to one encoding. -/
theorem sources_unique : ∀ A ∈ sources, ∀ B ∈ sources, A.idx = B.idx → A = B := by
  have key : ∀ (l : List Entry), (l.map (·.idx)).Nodup → ∀ A ∈ l, ∀ B ∈ l, A.idx = B.idx → A = B := by
    intro l
    induction l with
    | nil => intro _ A hA; cases hA
    | cons x l ih =>
      intro hn A hA B hB h
      rw [List.map_cons, List.nodup_cons] at hn
      rcases List.mem_cons.1 hA with h1 | h1 <;> rcases List.mem_cons.1 hB with h2 | h2
      · rw [h1, h2]
      · exact absurd (List.mem_map.2 ⟨B, h2, by rw [← h, h1]⟩) hn.1
      · exact absurd (List.mem_map.2 ⟨A, h1, by rw [h, h2]⟩) hn.1
      · exact ih hn.2 A h1 B h2 h
  refine key sources ?_
  show (gb18030_2005_source.idx :: targets.map (·.idx)).Nodup
  rw [targets_idx]
  decide +kernel

/-- The output of the first call. -/
def firstOut : Outcome (List Reply) → Option (List Byte)
  | .ok (.iconv _ _ b :: _) => some b.out
  | _ => none

theorem keeps_order (M : Entry) (mark text : List Byte)
    (hs : Call.after (M.conv ucs4be_entry false) St.init (.iconv (some mark) (some ⟨false, [], [0, 0, 0, 0]⟩)) =
      .ok ⟨⟨1, 0⟩, 0⟩)
    (hne : firstOut (replies (M.conv ucs4be_entry false) ⟨⟨1, 0⟩, 0⟩ [.iconv (some text) (some ⟨false, [], [0, 0, 0, 0]⟩)]) ≠
      firstOut (replies (M.conv ucs4be_entry false) St.init [.iconv (some text) (some ⟨false, [], [0, 0, 0, 0]⟩)]))
    (h : ∀ (s : St), Reach (M.conv ucs4be_entry false) s →
      ∃ r, iconv (M.conv ucs4be_entry false) s none none = .ok r ∧ r.ret = .ok 0 ∧
        ∀ ks, replies (M.conv ucs4be_entry false) r.st ks = replies (M.conv ucs4be_entry false) St.init ks) : False := by
  obtain ⟨r, h1, _, h2⟩ := h ⟨⟨1, 0⟩, 0⟩ ⟨[_], by simp only [afterAll]; rw [hs]; rfl⟩
  cases h1
  exact hne (congrArg firstOut (h2 _))

/-- C16 exactly: resetting a descriptor makes it like a new one for all source encodings but UTF-16, UTF-32, UCS-2
and UCS-4, and for these it does not. -/
theorem C16_exact : ∀ A ∈ sources, (∀ B ∈ targets, ∀ (discard : Bool) (s : St), Reach (A.conv B discard) s →
      ∃ r, iconv (A.conv B discard) s none none = .ok r ∧ r.ret = .ok 0 ∧
        ∀ ks, replies (A.conv B discard) r.st ks = replies (A.conv B discard) St.init ks) ↔
    A.idx ∉ markedIdx := by
  intro A hA
  constructor
  · intro h hm
    have hu : ucs4be_entry ∈ targets := List.mem_of_getElem? (i := 6) rfl
    simp only [markedIdx, List.mem_cons, List.not_mem_nil, or_false] at hm
    rcases hm with hm | hm | hm | hm
    · obtain rfl := sources_unique ucs2_entry (List.mem_of_getElem? (i := 3) rfl) A hA hm.symm
      exact keeps_order _ [0xff, 0xfe] [0x12, 0x34] (by decide +kernel) (by decide +kernel) (h ucs4be_entry hu false)
    · obtain rfl := sources_unique ucs4_entry (List.mem_of_getElem? (i := 6) rfl) A hA hm.symm
      exact keeps_order _ [0xff, 0xfe, 0x00, 0x00] [0x00, 0x01, 0x00, 0x00] (by decide +kernel) (by decide +kernel) (h ucs4be_entry hu false)
    · obtain rfl := sources_unique utf16_entry (List.mem_of_getElem? (i := 9) rfl) A hA hm.symm
      exact keeps_order _ [0xff, 0xfe] [0x12, 0x34] (by decide +kernel) (by decide +kernel) (h ucs4be_entry hu false)
    · obtain rfl := sources_unique utf32_entry (List.mem_of_getElem? (i := 12) rfl) A hA hm.symm
      exact keeps_order _ [0xff, 0xfe, 0x00, 0x00] [0x00, 0x01, 0x00, 0x00] (by decide +kernel) (by decide +kernel) (h ucs4be_entry hu false)
  · intro hm B hB discard s hs
    exact C16_reset_like_new_partial A B discard (sources_fixed A hA hm) s hs

/-- C03 for encoding numbers: a flush with a full buffer is safe for all source encodings but the ten that hold
characters back. -/
theorem C03_registered_partial : ∀ A ∈ sources, ∀ B ∈ targets, A.idx ∉ holdingIdx → ∀ (discard : Bool) (s : St),
    Reach (A.conv B discard) s → ∀ room : List Byte,
      ∃ r, iconv (A.conv B discard) s none (some ⟨false, [], room⟩) = .ok r :=
  fun A hA B _ hi discard s hs room =>
    (C03_flush_safe_partial A B discard s hs room (.inr (sources_no_flush A hA hi))).imp fun _ h => h.1

/-- For six of these ten there is a target encoding for which it is not: a flush with a full buffer writes behind the
end of the buffer. -/
theorem C03_registered_violation : ∀ A ∈ [cp1255_entry, cp1258_entry, tcvn_entry, euc_jisx0213_entry,
      shift_jisx0213_entry, iso2022_jp3_entry],
    ∃ B ∈ targets, ∃ s, Reach (A.conv B false) s ∧ iconv (A.conv B false) s none (some ⟨false, [], []⟩) = .ub := by
  have key : ∀ (A B : Entry) (k : Nat) (inp : List Byte) (st : Nat), targets[k]? = some B →
      afterAll (A.conv B false) St.init [.iconv (some inp) (some ⟨false, [], List.replicate 8 0⟩)] = .ok ⟨⟨0, st⟩, 0⟩ →
      iconv (A.conv B false) ⟨⟨0, st⟩, 0⟩ none (some ⟨false, [], []⟩) = .ub →
      ∃ B ∈ targets, ∃ s, Reach (A.conv B false) s ∧ iconv (A.conv B false) s none (some ⟨false, [], []⟩) = .ub :=
    fun A B k inp st h1 h2 h3 => ⟨B, List.mem_of_getElem? h1, _, ⟨_, h2⟩, h3⟩
  refine List.forall_mem_cons.2 ⟨key _ iso8859_8_entry 55 [0xE0] 0x5d0 rfl (by decide +kernel) (by decide +kernel), ?_⟩
  refine List.forall_mem_cons.2 ⟨key _ ascii_entry 0 [0x41] 0x41 rfl (by decide +kernel) (by decide +kernel), ?_⟩
  refine List.forall_mem_cons.2 ⟨key _ ascii_entry 0 [0x41] 0x41 rfl (by decide +kernel) (by decide +kernel), ?_⟩
  refine List.forall_mem_cons.2 ⟨key _ cp1129_entry 118 [0xab, 0xc4] 768 rfl (by decide +kernel) (by decide +kernel), ?_⟩
  refine List.forall_mem_cons.2 ⟨key _ cp1129_entry 118 [0x86, 0x63] 768 rfl (by decide +kernel) (by decide +kernel), ?_⟩
  refine List.forall_mem_cons.2 ⟨key _ cp1129_entry 118 [0x1b, 0x24, 0x28, 0x51, 0x2b, 0x44] 6148 rfl
    (by decide +kernel) (by decide +kernel), ?_⟩
  exact List.forall_mem_nil _

/-- C10 exactly: `reiconv_convert_static_size` leaves what is behind the result alone for all target encodings but UTF-16
and UTF-7, and for these it does not. -/
theorem C10_exact : ∀ B ∈ targets, (∀ A ∈ sources, ∀ (discard : Bool) (s : St), Reach (A.conv B discard) s →
      ∀ (inp room : List Byte) s2 b, convertStatic (A.conv B discard) s inp ⟨false, [], room⟩ = .ok (.ok (), s2, b) →
        b.room = room.drop b.out.length) ↔
    B.idx ∉ storingIdx := by
  intro B hB
  constructor
  · intro h hm
    have hu : ucs4be_entry ∈ sources := List.mem_of_getElem? (i := 7) rfl
    have bad : ∀ (M : Entry) (out rest : List Byte) (s2 : St), M ∈ sources → M.idx = B.idx →
        convertStatic (ucs4be_entry.conv M true) St.init [0x00, 0x11, 0x00, 0x00] ⟨false, [], [1, 2, 3, 4, 5, 6, 7, 8]⟩ =
          .ok (.ok (), s2, ⟨false, out, rest⟩) → rest ≠ [1, 2, 3, 4, 5, 6, 7, 8].drop out.length → False := by
      intro M out rest s2 hM hi hx hne
      obtain rfl := sources_unique M hM B (List.mem_cons_of_mem _ hB) hi
      exact hne (h ucs4be_entry hu true St.init ⟨[], rfl⟩ _ _ _ _ hx)
    simp only [storingIdx, List.mem_cons, List.not_mem_nil, or_false] at hm
    rcases hm with hm | hm
    · exact bad utf16_entry [] [0xfe, 0xff, 3, 4, 5, 6, 7, 8] St.init (List.mem_of_getElem? (i := 9) rfl) hm.symm
        (by decide +kernel) (by decide)
    · exact bad utf7_entry [] [0x2b, 2, 3, 4, 5, 6, 7, 8] St.init (List.mem_of_getElem? (i := 15) rfl) hm.symm
        (by decide +kernel) (by decide)
  · intro hm A _ discard s hs inp room s2 b hx
    exact (C10_rest_untouched_partial A B discard s hs (targets_covers B hB hm) inp room hx).2

/-- C08, C09 fail for ISO-2022-JP-2: for `a` followed by the language tag U+E0001 `reiconv_result_size` returns 1, but
one byte is not enough for `reiconv_convert`, although nothing is written for the tag. With one more letter it is. -/
theorem C08_jp2_tag_too_small :
    resultSize (utf8_entry.conv iso2022_jp2_entry false) St.init [0x61, 0xf3, 0xa0, 0x80, 0x81] = .ok (.ok 1, St.init) ∧
    convert (utf8_entry.conv iso2022_jp2_entry false) St.init [0x61, 0xf3, 0xa0, 0x80, 0x81] true true zeros =
      .ok ⟨.error .E2BIG, St.init, some 1, none⟩ ∧
    convert (utf8_entry.conv iso2022_jp2_entry false) St.init [0x61, 0xf3, 0xa0, 0x80, 0x81, 0x61] true true zeros =
      .ok ⟨.ok (), St.init, some 2, some [0x61, 0x61]⟩ := by
  refine ⟨by decide +kernel, by decide +kernel, by decide +kernel⟩

end Reiconv
