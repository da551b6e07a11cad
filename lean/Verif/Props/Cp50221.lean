import Verif.Codec.IsoFollow4
import Verif.Props.Iso2022

/-!
# C47 for CP50221

`Verif/Cp50221.lean` is the specification.
-/

namespace Reiconv

open Iso (Reads Listed)

namespace Cp50221

theorem in0208_widen {v : Variant} {x y : Byte} {wc : Nat} (h : In0208 v x y wc) (h1 : wc ≠ v.quote) (v' : Variant) :
    In0208 v' x y wc := by
  unfold In0208 at *
  split at h
  · rw [if_pos (by assumption)]
    obtain ⟨c, h2, h3, h4⟩ := h
    refine ⟨c, h2, h3, ?_⟩
    split at h4
    · exact absurd h4 h1
    · rw [if_neg (by assumption)]; exact h4
  · rw [if_neg (by assumption)]; exact h

theorem chars_widen {v : Variant} {g : Cset} {b : List Byte} {w : List Nat} (h : g.Chars v b w) (h1 : v.quote ∉ w) (v' : Variant) :
    g.Chars v' b w := by
  cases g with
  | jisx0208 =>
    obtain ⟨x, y, wc, h2, h3, rfl, rfl, h4⟩ := h
    exact ⟨x, y, wc, h2, h3, rfl, rfl, in0208_widen h4 (fun h => h1 (by rw [h]; exact List.mem_singleton.2 rfl)) v'⟩
  | _ => exact h

theorem reads_widen {v v' : Variant} {g : Cset} {s : List Byte} {w : List Nat} (h : Reads (Step v) g s w) :
    v.quote ∉ w → (v.shifts = true → v'.shifts = true ∨ (0x0e ∉ s ∧ 0x0f ∉ s)) → Reads (Step v') g s w := by
  induction h with
  | nil g => intro _ _; exact .nil _
  | @step g b w g' s ws h1 _ ih =>
    intro hq hs
    have hr := ih (fun h => hq (List.mem_append_right _ h)) (fun h => (hs h).imp id fun h =>
      ⟨fun h' => h.1 (List.mem_append_right _ h'), fun h' => h.2 (List.mem_append_right _ h')⟩)
    refine .step ?_ hr
    cases h1 with
    | esc _ e x hm => exact .esc _ _ _ hm
    | so => exact .so
    | si => exact .si
    | noSo _ hv hn =>
      rcases hs hv with h | h
      · exact .noSo _ h hn
      · exact absurd (by simp) h.1
    | noSi _ hv hn =>
      rcases hs hv with h | h
      · exact .noSi _ h hn
      · exact absurd (by simp) h.2
    | char _ b w hc hb => exact .char _ _ _ (chars_widen hc (fun h => hq (List.mem_append_left _ h)) v') hb

end Cp50221

open Cp50221 (Cset documented implemented)

/-- C47 for CP50221. The converter ignores SO and SI outside of JIS X 0201, and has U+301E where CP932 has U+301D. -/
theorem C47_cp50221_reads : ∀ (s : List Byte) (w : List Nat),
    iso2022_jpms_entry.Text s w ↔ Reads (Cp50221.Step implemented) .ascii s w :=
  fun s w => Cp50221.follows.text _ s w

/-- C47 for CP50221, input without SO and SI and texts without U+301D and U+301E: exactly the texts of the documented
encoding. Missing: see `C47_cp50221_shift_violation` and `C47_cp50221_quote_violation`. -/
theorem C47_cp50221_partial : ∀ (s : List Byte) (w : List Nat), 0x0e ∉ s → 0x0f ∉ s → 0x301d ∉ w → 0x301e ∉ w →
    (iso2022_jpms_entry.Text s w ↔ Reads (Cp50221.Step documented) .ascii s w) :=
  fun s w h1 h2 h3 h4 => (C47_cp50221_reads s w).trans
    ⟨fun h => Cp50221.reads_widen h h4 fun _ => .inr ⟨h1, h2⟩, fun h => Cp50221.reads_widen h h3 fun _ => .inl rfl⟩

/-- Texts of the documented encoding are read as they should be, unless U+301D is in them. -/
theorem C47_cp50221_accepts : ∀ (s : List Byte) (w : List Nat), Reads (Cp50221.Step documented) .ascii s w → 0x301d ∉ w →
    iso2022_jpms_entry.Text s w :=
  fun s w h hw => (C47_cp50221_reads s w).2 (Cp50221.reads_widen h hw fun _ => .inl rfl)

/-- C47, writing: `jpmsLost` are the characters written as bytes that stand for others (`C42_cp50221_lost`). -/
theorem C47_cp50221_writes : ∀ (w : List Nat) (s : List Byte), (∀ c ∈ w, c ≠ 0x1b ∧ c ≠ 0x0e ∧ c ≠ 0x0f ∧ c ∉ jpmsLost) →
    iso2022_jpms_entry.Encodes w s → Reads (Cp50221.Step implemented) .ascii s w := by
  intro w s hw hs
  refine (C47_cp50221_reads s w).1 (C42_shift ⟨"CP50221", iso2022_jpms_entry, [0x1b, 0x0e, 0x0f] ++ jpmsLost⟩
    (by simp [shiftRows]) w s (fun c hc h => ?_) hs)
  obtain ⟨h1, h2, h3, h4⟩ := hw c hc
  simp only [List.mem_append, List.mem_cons, List.not_mem_nil, or_false] at h
  rcases h with (h | h | h) | h
  · exact h1 h
  · exact h2 h
  · exact h3 h
  · exact h4 h

/-- The violation: row 13 column 64 has U+301D in CP932 and in the documented encoding; the converter reads U+301E. -/
theorem C47_cp50221_quote_violation :
    Reads (Cp50221.Step documented) .ascii [0x1b, 0x24, 0x42, 0x2d, 0x60] [0x301d] ∧
    iso2022_jpms_entry.Text [0x1b, 0x24, 0x42, 0x2d, 0x60] [0x301e] := by
  have key : ∀ v, Reads (Cp50221.Step v) .ascii [0x1b, 0x24, 0x42, 0x2d, 0x60] [v.quote] := fun v =>
    .step (b := [0x1b, 0x24, 0x42]) (w := []) (.esc _ _ .jisx0208 (by simp [Cp50221.escapes]))
      (.step (b := [0x2d, 0x60]) (w := [v.quote]) (.char _ _ _ ⟨0x2d, 0x60, v.quote, ⟨by decide, by decide⟩, ⟨by decide, by decide⟩, rfl, rfl, by
        unfold Cp50221.In0208
        rw [if_pos (by decide)]
        exact ⟨0x301d, Cp50221.at932_iff.1 (by decide +kernel), Cp50221.jisx0208_none.2 (by decide +kernel), rfl⟩⟩ (by decide)) (.nil _))
  exact ⟨key documented, (C47_cp50221_reads _ _).2 (key implemented)⟩

/-- The violation: SO in a text of ASCII characters is accepted. -/
theorem C47_cp50221_shift_violation : iso2022_jpms_entry.Text [0x0e] [] ∧
    ∀ w, ¬ Reads (Cp50221.Step documented) .ascii [0x0e] w := by
  constructor
  · exact (C47_cp50221_reads _ _).2 (.step (b := [0x0e]) (w := []) (.noSo _ rfl (by intro h; cases h)) (.nil _))
  · intro w h
    rcases h.inv with ⟨h, _⟩ | ⟨b, w1, g1, s1, w2, h1, h2, hb, _⟩
    · cases h
    cases h1 with
    | esc _ e x hm =>
      simp only [Cp50221.escapes, List.mem_cons, Prod.mk.injEq, List.not_mem_nil, or_false] at hm
      rcases hm with ⟨rfl, rfl⟩ | ⟨rfl, rfl⟩ | ⟨rfl, rfl⟩ | ⟨rfl, rfl⟩ | ⟨rfl, rfl⟩ | ⟨rfl, rfl⟩ <;> simp at hb
    | noSo _ h => cases h
    | noSi _ h => cases h
    | char _ b w hc hn =>
      obtain ⟨x, _, rfl, _⟩ := hc
      simp only [List.cons_append, List.nil_append, List.cons.injEq] at hb
      exact (hn x (by simp)).2.1 hb.1

/-- C47 at the API for the other encodings of C47: converting to UCS-4BE gives the characters, and input that is no text
makes every conversion fail with `EILSEQ`. -/
theorem C47_convert_more : ∀ p ∈ ([(hz_entry, Reads (Iso.HzStep true) false),
      (iso2022_jp2_entry, Reads (Iso.jp2 0 true).Step Iso.Regs.init),
      (iso2022_jpms_entry, Reads (Cp50221.Step implemented) .ascii)] : List (Entry × (List Byte → List Nat → Prop))),
    ∀ (inp : List Byte) (alloc : Nat → List Byte), (∀ n, (alloc n).length = n) →
    (∀ w, p.2 inp w → ∃ y, convert (p.1.conv ucs4be_entry false) St.init inp true true
      (fun n => some (alloc n)) = .ok y ∧ y.ret = .ok () ∧ y.data = some (w.flatMap b32)) ∧
    ((¬ ∃ w, p.2 inp w) → ∀ B : Entry,
      ∃ s1, resultSize (p.1.conv B false) St.init inp = .ok (.error .EILSEQ, s1) ∧
        convert (p.1.conv B false) St.init inp true true (fun n => some (alloc n)) = .ok ⟨.error .EILSEQ, s1, none, none⟩) := by
  have key : ∀ (A : Entry) (R : List Byte → List Nat → Prop), A.FixedOrder → (∀ s w, A.Text s w ↔ R s w) →
      ∀ (inp : List Byte) (alloc : Nat → List Byte), (∀ n, (alloc n).length = n) →
      (∀ w, R inp w → ∃ y, convert (A.conv ucs4be_entry false) St.init inp true true
        (fun n => some (alloc n)) = .ok y ∧ y.ret = .ok () ∧ y.data = some (w.flatMap b32)) ∧
      ((¬ ∃ w, R inp w) → ∀ B : Entry,
        ∃ s1, resultSize (A.conv B false) St.init inp = .ok (.error .EILSEQ, s1) ∧
          convert (A.conv B false) St.init inp true true (fun n => some (alloc n)) = .ok ⟨.error .EILSEQ, s1, none, none⟩) := by
    intro A R hA hR inp alloc hal
    obtain ⟨h1, h2⟩ := decode_api hA inp alloc hal
    refine ⟨fun w hw => h1 w ((hR inp w).2 hw), fun hn => h2 ?_⟩
    rintro ⟨w, hw⟩
    exact hn ⟨w, (hR inp w).1 hw⟩
  simp only [List.forall_mem_cons]
  exact ⟨key _ _ (st_fixed _ _) C47_hz_reads, key _ _ (st_fixed _ _) C47_jp2_reads, key _ _ (st_fixed _ _) C47_cp50221_reads,
    fun _ h => nomatch h⟩

/-- C47 for HZ, writing. `~` is written as it is, and no text of RFC 1843 has it so (`C47_hz_tilde_violation`). -/
theorem C47_hz_writes : ∀ (w : List Nat) (s : List Byte), (∀ c ∈ w, c ≠ 0x7e) → hz_entry.Encodes w s →
    Reads (Iso.HzStep true) false s w := by
  intro w s hw hs
  refine (C47_hz_reads s w).1 (C42_shift ⟨"HZ", hz_entry, [0x7e]⟩ (by simp [shiftRows]) w s (fun c hc h => ?_) hs)
  rw [List.mem_singleton] at h
  exact hw c hc h

/-- The hypotheses are met. -/
example : hz_entry.Encodes [0x41, 0x554a] [0x41, 0x7e, 0x7b, 0x30, 0x21, 0x7e, 0x7d] :=
  ⟨_, _, show _ = some ([0x41, 0x7e, 0x7b, 0x30, 0x21], 1) by decide +kernel, by decide +kernel⟩

/-- The violation: U+007E is written as one byte 0x7E, which is no text. -/
theorem C47_hz_tilde_violation : hz_entry.Encodes [0x7e] [0x7e] ∧ ∀ e w, ¬ Reads (Iso.HzStep e) false [0x7e] w := by
  refine ⟨⟨_, _, show _ = some ([0x7e], 0) by decide +kernel, by decide +kernel⟩, ?_⟩
  intro e w h
  rcases h.inv with ⟨h, _⟩ | ⟨b, w1, g1, s1, w2, h1, h2, hb, _⟩
  · cases h
  cases h1 with
  | char c hc _ =>
    simp only [List.cons_append, List.nil_append, List.cons.injEq] at hb
    exact hc hb.1
  | tilde => simp at hb
  | enter => simp at hb
  | line => simp at hb

/-- The hypotheses are met: Katakana, a character of row 13, one of rows 89 to 92, one of the private use area, one of
the extension of JIS X 0212. -/
example : Reads (Cp50221.Step documented) .ascii
    [0x1b, 0x28, 0x49, 0x31, 0x1b, 0x24, 0x42, 0x2d, 0x21, 0x79, 0x21, 0x75, 0x21, 0x1b, 0x24, 0x28, 0x44, 0x73, 0x21]
    [0xff71, 0x2460, 0x7e8a, 0xe000, 0x2170] := by
  refine .step (b := [0x1b, 0x28, 0x49]) (w := []) (.esc _ _ .kana (by simp [Cp50221.escapes])) ?_
  refine .step (b := [0x31]) (w := [0xff71]) (.char _ _ _ ⟨0x31, by decide, by decide, rfl, rfl⟩ (by decide)) ?_
  refine .step (b := [0x1b, 0x24, 0x42]) (w := []) (.esc _ _ .jisx0208 (by simp [Cp50221.escapes])) ?_
  refine .step (b := [0x2d, 0x21]) (w := [0x2460]) (.char _ _ _ ⟨0x2d, 0x21, _, ⟨by decide, by decide⟩, ⟨by decide, by decide⟩, rfl, rfl, ?_⟩ (by decide)) ?_
  · unfold Cp50221.In0208
    rw [if_pos (by decide)]
    exact ⟨0x2460, Cp50221.at932_iff.1 (by decide +kernel), Cp50221.jisx0208_none.2 (by decide +kernel), rfl⟩
  refine .step (b := [0x79, 0x21]) (w := [0x7e8a]) (.char _ _ _ ⟨0x79, 0x21, _, ⟨by decide, by decide⟩, ⟨by decide, by decide⟩, rfl, rfl, ?_⟩ (by decide)) ?_
  · unfold Cp50221.In0208
    rw [if_neg (by decide), if_neg (by decide)]
    exact .inl (Cp50221.at932_iff.1 (by decide +kernel))
  refine .step (b := [0x75, 0x21]) (w := [0xe000]) (.char _ _ _ ⟨0x75, 0x21, _, ⟨by decide, by decide⟩, ⟨by decide, by decide⟩, rfl, rfl, ?_⟩ (by decide)) ?_
  · unfold Cp50221.In0208
    rw [if_neg (by decide), if_neg (by decide)]
    exact .inr ⟨Cp50221.at932_none.1 (by decide +kernel), rfl⟩
  refine .step (b := [0x1b, 0x24, 0x28, 0x44]) (w := []) (.esc _ _ .jisx0212 (by simp [Cp50221.escapes])) ?_
  refine .step (b := [0x73, 0x21]) (w := [0x2170]) (.char _ _ _ ⟨0x73, 0x21, _, ⟨by decide, by decide⟩, ⟨by decide, by decide⟩, rfl, rfl, ?_⟩ (by decide)) (.nil _)
  unfold Cp50221.In0212
  rw [if_neg (by decide), if_pos (by decide)]
  decide

end Reiconv
