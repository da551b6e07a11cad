import Verif.Props.Pair

/-!
# C48: lines are converted independently

An encoding with shift states returns to its initial state at the end of each line: a text may be cut after
any line feed or carriage return and the parts converted with separate calls, or cut from the output and
read alone.
-/

namespace Reiconv

/-- After the character `c` the encoder is in its initial state. -/
def Entry.LineEnd (B : Entry) (c : Nat) : Prop :=
  ∀ cs bs os, B.enc.text 0 (cs ++ [c]) = some (bs, os) → os = 0

theorem st_text_inv {E : Encoder} (e : StEnc E) : ∀ (cs : List Nat) (os : Nat) (bs : List Byte) (os' : Nat), e.I os →
    E.text os cs = some (bs, os') → e.I os' := by
  intro cs
  induction cs with
  | nil => intro os bs os' hI h; cases h; exact hI
  | cons c cs ih =>
    intro os bs os' hI h
    simp only [Encoder.text] at h
    cases hf : E.rep os c with
    | none => rw [hf] at h; cases h
    | some x =>
      obtain ⟨b1, os1⟩ := x
      rw [hf] at h
      simp only at h
      cases hr : E.text os1 cs with
      | none => rw [hr] at h; cases h
      | some y =>
        obtain ⟨b2, os2⟩ := y
        rw [hr] at h
        cases h
        exact ih os1 b2 os' (e.len os c b1 os1 hI ((e.full_eq hI c).symm.trans (Encoder.rep_full hf))).1 hr

theorem st_line {idx : Nat} {hu : unitOf idx = 1} {D : Decoder} {E : Encoder} (d : StDec D) (e : StEnc E) {c : Nat}
    (h : ∀ os bs os', e.I os → e.enc os c = some (bs, os') → os' = 0) : (stEntry idx hu d e).LineEnd c := by
  intro cs bs os ht
  have ht : E.text 0 (cs ++ [c]) = some (bs, os) := ht
  rw [Encoder.text_append] at ht
  cases hx : E.text 0 cs with
  | none => rw [hx] at ht; cases ht
  | some x =>
    obtain ⟨b1, os1⟩ := x
    rw [hx] at ht
    simp only [Encoder.text] at ht
    have hI := st_text_inv e cs 0 b1 os1 e.init hx
    cases hf : E.rep os1 c with
    | none => rw [hf] at ht; cases ht
    | some y =>
      obtain ⟨b2, os2⟩ := y
      rw [hf] at ht
      cases ht
      exact h os1 b2 os hI ((e.full_eq hI c).symm.trans (Encoder.rep_full hf))

/-- As `st_line`, for states with a property `J` that texts keep. -/
theorem st_line_inv {idx : Nat} {hu : unitOf idx = 1} {D : Decoder} {E : Encoder} (d : StDec D) (e : StEnc E) {c : Nat} (J : Nat → Prop)
    (h0 : J 0) (hJ : ∀ os x bs os', e.I os → J os → e.enc os x = some (bs, os') → (isTag x = true → bs ≠ []) → J os')
    (h : ∀ os bs os', e.I os → J os → e.enc os c = some (bs, os') → os' = 0) : (stEntry idx hu d e).LineEnd c := by
  intro cs bs os ht
  have ht : E.text 0 (cs ++ [c]) = some (bs, os) := ht
  have key : ∀ (l : List Nat) (a : Nat) (b1 : List Byte) (b : Nat), e.I a → J a → E.text a l = some (b1, b) → J b := by
    intro l
    induction l with
    | nil => intro a b1 b _ hj h; cases h; exact hj
    | cons x l ih =>
      intro a b1 b hI hj h
      simp only [Encoder.text] at h
      cases hf : E.rep a x with
      | none => rw [hf] at h; cases h
      | some y =>
        obtain ⟨b2, a2⟩ := y
        rw [hf] at h
        simp only at h
        have he := (e.full_eq hI x).symm.trans (Encoder.rep_full hf)
        cases hr : E.text a2 l with
        | none => rw [hr] at h; cases h
        | some z =>
          obtain ⟨b3, a3⟩ := z
          rw [hr] at h
          cases h
          exact ih a2 b3 b (e.len a x b2 a2 hI he).1 (hJ a x b2 a2 hI hj he (Encoder.rep_ne hf)) hr
  rw [Encoder.text_append] at ht
  cases hx : E.text 0 cs with
  | none => rw [hx] at ht; cases ht
  | some x =>
    obtain ⟨b1, os1⟩ := x
    rw [hx] at ht
    simp only [Encoder.text] at ht
    have hI := st_text_inv e cs 0 b1 os1 e.init hx
    cases hf : E.rep os1 c with
    | none => rw [hf] at ht; cases ht
    | some y =>
      obtain ⟨b2, os2⟩ := y
      rw [hf] at ht
      cases ht
      exact h os1 b2 os hI (key cs 0 b1 os1 e.init h0 hx) ((e.full_eq hI c).symm.trans (Encoder.rep_full hf))

/-- Writing a text line by line. -/
theorem line_encodes {B : Entry} {c : Nat} (hl : B.LineEnd c) (h0 : B.enc.tail 0 = []) {a b : List Nat} {s : List Byte} :
    B.Encodes (a ++ [c] ++ b) s ↔ ∃ s1 s2, B.Encodes (a ++ [c]) s1 ∧ B.Encodes b s2 ∧ s = s1 ++ s2 := by
  constructor
  · rintro ⟨bs, os, h, rfl⟩
    rw [Encoder.text_append] at h
    cases hx : B.enc.text 0 (a ++ [c]) with
    | none => rw [hx] at h; cases h
    | some x =>
      obtain ⟨b1, os1⟩ := x
      have := hl a b1 os1 hx
      subst this
      rw [hx] at h
      simp only at h
      cases hy : B.enc.text 0 b with
      | none => rw [hy] at h; cases h
      | some y =>
        obtain ⟨b2, os2⟩ := y
        rw [hy] at h
        cases h
        exact ⟨b1, b2 ++ B.enc.tail os, ⟨b1, 0, hx, by rw [h0]; simp⟩, ⟨b2, os, hy, rfl⟩, by simp⟩
  · rintro ⟨s1, s2, ⟨b1, os1, hx, rfl⟩, ⟨b2, os2, hy, rfl⟩, rfl⟩
    have := hl a b1 os1 hx
    subst this
    refine ⟨b1 ++ b2, os2, ?_, by rw [h0]; simp⟩
    rw [Encoder.text_append, hx]
    simp only [hy]

/-! ## The encodings -/

theorem hz_line {c : Nat} (hc : c < 0x80) : hz_entry.LineEnd c := by
  refine st_line _ _ fun os bs os' _ h => ?_
  have h : (hz_wctomb os c).res = some (bs, os') := h
  unfold hz_wctomb at h
  rw [ascii_iluni, if_pos ⟨hc, hc⟩] at h
  simp only [SW.res, Option.some.injEq, Prod.mk.injEq] at h
  exact h.2.symm

theorem iso2022_kr_line {c : Nat} (hc : c = 0x0a ∨ c = 0x0d) : iso2022_kr_entry.LineEnd c := by
  refine st_line _ _ fun os bs os' _ h => ?_
  have h : (iso2022_kr_wctomb os c).res = some (bs, os') := h
  unfold iso2022_kr_wctomb at h
  rw [ascii_iluni, if_pos ⟨by omega, by omega⟩, if_pos hc] at h
  simp only [SW.res, Option.some.injEq, Prod.mk.injEq] at h
  exact h.2.symm

theorem iso2022_cn_line {c : Nat} (hc : c = 0x0a ∨ c = 0x0d) : iso2022_cn_entry.LineEnd c := by
  refine st_line _ _ fun os bs os' _ h => ?_
  have h : (iso2022_cn_wctomb os c).res = some (bs, os') := h
  unfold iso2022_cn_wctomb at h
  rw [ascii_iluni, if_pos ⟨by omega, by omega⟩, if_pos hc] at h
  simp only [SW.res, Option.some.injEq, Prod.mk.injEq] at h
  exact h.2.symm

theorem iso2022_cn_ext_line {c : Nat} (hc : c = 0x0a ∨ c = 0x0d) : iso2022_cn_ext_entry.LineEnd c := by
  refine st_line _ _ fun os bs os' _ h => ?_
  have h : (iso2022_cn_ext_wctomb os c).res = some (bs, os') := h
  unfold iso2022_cn_ext_wctomb at h
  rw [ascii_iluni, if_pos ⟨by omega, by omega⟩, if_pos hc] at h
  simp only [SW.res, Option.some.injEq, Prod.mk.injEq] at h
  exact h.2.symm

theorem iso2022_jp_line {c : Nat} (hc : c < 0x80) : iso2022_jp_entry.LineEnd c := by
  refine st_line _ _ fun os bs os' _ h => ?_
  have h : (iso2022_jp_wctomb os c).res = some (bs, os') := h
  unfold iso2022_jp_wctomb at h
  rw [ascii_iluni, if_pos ⟨hc, hc⟩] at h
  simp only [jpOne, SW.res, Option.some.injEq, Prod.mk.injEq] at h
  exact h.2.symm

theorem iso2022_jp1_line {c : Nat} (hc : c < 0x80) : iso2022_jp1_entry.LineEnd c := by
  refine st_line _ _ fun os bs os' _ h => ?_
  have h : (iso2022_jp1_wctomb os c).res = some (bs, os') := h
  unfold iso2022_jp1_wctomb at h
  rw [ascii_iluni, if_pos ⟨hc, hc⟩] at h
  simp only [jpOne, SW.res, Option.some.injEq, Prod.mk.injEq] at h
  exact h.2.symm

theorem iso2022_jpms_line {c : Nat} (hc : c < 0x80) : iso2022_jpms_entry.LineEnd c := by
  refine st_line _ _ fun os bs os' _ h => ?_
  have h : (iso2022_jpms_wctomb os c).res = some (bs, os') := h
  unfold iso2022_jpms_wctomb at h
  rw [ascii_iluni, if_pos ⟨hc, hc⟩] at h
  simp only [jpOne, SW.res, Option.some.injEq, Prod.mk.injEq] at h
  exact h.2.symm

theorem jxSel_ascii {c : Nat} (hc : c < 0x80) : jxSel c = none := by
  unfold jxSel
  rw [if_neg (by omega), if_neg (by omega), if_neg (by omega), if_neg (by omega), if_neg (by omega)]

theorem jp3_base_ascii {count st c : Nat} (hc : c < 0x80) : jp3_base count st c = jp3One count st 0 0x42 c := by
  unfold jp3_base
  exact BW.ascii_lt hc _ _

theorem iso2022_jp3_line {c : Nat} (hc : c < 0x80) : iso2022_jp3_entry.LineEnd c := by
  refine st_line _ _ fun os bs os' hI h => ?_
  have h : (iso2022_jp3_wctomb os c).res [] = some (bs, os') := h
  unfold iso2022_jp3_wctomb jxCompose at h
  rw [jxSel_ascii hc] at h
  simp only [jp3_base_ascii hc, jp3One] at h
  by_cases hl : jp3Last os ≠ 0
  · rw [if_pos hl] at h
    by_cases hp : jp3Prev os ≠ jp3State os
    · by_cases hs : jp3State os ≠ 3
      · simp only [if_pos hp, if_pos hs, BW.res] at h
        cases h
      · simp only [if_pos hp, if_neg hs, BW.res, Option.some.injEq, Prod.mk.injEq] at h
        exact h.2.symm
    · simp only [if_neg hp, BW.res, Option.some.injEq, Prod.mk.injEq] at h
      exact h.2.symm
  · simp only [if_neg hl, BW.res, Option.some.injEq, Prod.mk.injEq] at h
    exact h.2.symm

theorem jp2_char_ascii {s1 s2 s3 wc os' : Nat} {bs : List Byte} (h3 : s3 ≤ 3) (hc : wc < 0x80)
    (h : (jp2_char s1 s2 s3 wc).res = some (bs, os')) : os' = cnSt 0 (if wc = 0x0a ∨ wc = 0x0d then 0 else s2) s3 := by
  rw [jp2_char_eq h3, ascii_iluni, if_pos ⟨hc, hc⟩] at h
  simp only [jp2One, SW.res, Option.some.injEq, Prod.mk.injEq] at h
  exact h.2.symm

theorem iso2022_jp2_line {c : Nat} (hc : c = 0x0a ∨ c = 0x0d) : iso2022_jp2_entry.LineEnd c := by
  refine st_line_inv _ _ (fun os => os / 65536 = 0) rfl (fun os x bs os' hI hJ h ht => ?_) fun os bs os' hI hJ h => ?_
  · have h : (iso2022_jp2_wctomb os x).res = some (bs, os') := h
    obtain ⟨i1, i2, _⟩ : jp2EI os := hI
    unfold iso2022_jp2_wctomb at h
    dsimp only at h
    by_cases hx : x / 128 = 0xe0000 / 128
    · rw [if_pos hx] at h
      have h : some (([] : List Byte), cnSt (os % 256) (os / 256 % 256) (jp2_tag (os / 65536) x)) = some (bs, os') := h
      simp only [Option.some.injEq, Prod.mk.injEq] at h
      exact absurd h.1.symm (ht ((isTag_iff x).1 hx))
    · rw [if_neg hx, hJ, if_neg (by omega)] at h
      by_cases he : x = 0x1b
      · rw [jp2_char_ascii (by omega) (by omega) h]
        unfold cnSt
        split <;> omega
      · obtain ⟨u1, u2, v2, rfl, _, g1, g2, _⟩ := jp2_char_wrote i1 i2 (by omega) i2 (fun _ => rfl) he h
        unfold cnSt
        omega
  · have h : (iso2022_jp2_wctomb os c).res = some (bs, os') := h
    unfold iso2022_jp2_wctomb at h
    dsimp only at h
    rw [if_neg (by omega), hJ, if_neg (by omega)] at h
    rw [jp2_char_ascii (by omega) (by omega) h, if_pos hc]
    rfl

theorem utf7_line {c : Nat} (hc : c = 0x0a ∨ c = 0x0d) : utf7_entry.LineEnd c := by
  refine st_line _ _ fun os bs os' _ h => ?_
  have h : ((u7enc os c).map fun (x : List Nat × Nat) => (x.1.map u8, x.2)) = some (bs, os') := h
  have hd : u7_isdirect c = true := by rcases hc with rfl | rfl <;> decide
  unfold u7enc at h
  rw [if_pos hd] at h
  simp only [Option.map_some, Option.some.injEq, Prod.mk.injEq] at h
  exact h.2.symm

theorem pair_line {idx : Nat} {hu : unitOf idx = 1} {body : M SItem} {hd : M.Good PairItemOK 1 body} {I : Nat → Prop}
    {comp : Nat → Nat → Option (List Nat)} {last : Nat → List Nat} {base : Nat → Nat → BW} {he : PairGood I comp last base}
    {c : Nat} (h1 : ∀ os, comp os c = none) (h2 : ∀ k acc, (base k c).res acc = some (acc ++ [u8 c], 0)) :
    (pairEntry idx hu hd he).LineEnd c := by
  refine st_line _ _ fun os bs os' hI h => ?_
  have h : (pairProg comp last base os c).res [] = some (bs, os') := h
  unfold pairProg at h
  rw [h1] at h
  by_cases ho : os ≠ 0
  · simp only [if_pos ho, BW.res, h2, Option.some.injEq, Prod.mk.injEq] at h
    exact h.2.symm
  · simp only [if_neg ho, h2, Option.some.injEq, Prod.mk.injEq] at h
    exact h.2.symm

theorem hk_comp_line {c : Nat} (hc : c < 0x80) (os : Nat) : hk_comp os c = none := by
  unfold hk_comp; rw [if_neg (by omega)]

theorem hk_base_line {c : Nat} (hc : c < 0x80) (l : List (Nat → W)) (k : Nat) (acc : List Byte) :
    (hk_base l k c).res acc = some (acc ++ [u8 c], 0) := by
  unfold hk_base; rw [if_pos hc]; rfl

theorem jxCompose_line {c : Nat} (hc : c < 0x80) (t : List (Nat × Nat)) (os : Nat) : jxCompose t os c = none := by
  unfold jxCompose; rw [jxSel_ascii hc]

/-- The line ends: line feed and carriage return. -/
def lineEnds : List Nat := [0x0a, 0x0d]

theorem lineEnds_lt {c : Nat} (h : c ∈ lineEnds) : (c = 0x0a ∨ c = 0x0d) ∧ c < 0x80 := by
  simp only [lineEnds, List.mem_cons, List.not_mem_nil, or_false] at h
  omega

/-- The encodings of C48: those with shift states and those that hold characters back. -/
def lineRows : List Entry := shiftRows.map (·.entry) ++ pairRows.map (·.entry)

theorem lineRows_ok : ∀ B ∈ lineRows, B.FixedOrder ∧ B.enc.tail 0 = [] ∧ ∀ c ∈ lineEnds, B.LineEnd c := by
  intro B hB
  rcases List.mem_append.1 hB with hC | hC
  · obtain ⟨r, hr, rfl⟩ := List.mem_map.1 hC
    refine ⟨(shiftRows_ok r hr).fixed, ?_⟩
    clear hB hC
    revert r
    simp only [shiftRows, List.forall_mem_cons]
    refine ⟨⟨rfl, fun c h => hz_line (lineEnds_lt h).2⟩, ⟨rfl, fun c h => iso2022_kr_line (lineEnds_lt h).1⟩,
      ⟨rfl, fun c h => iso2022_cn_line (lineEnds_lt h).1⟩, ⟨rfl, fun c h => iso2022_cn_ext_line (lineEnds_lt h).1⟩,
      ⟨rfl, fun c h => iso2022_jp_line (lineEnds_lt h).2⟩, ⟨rfl, fun c h => iso2022_jp1_line (lineEnds_lt h).2⟩,
      ⟨rfl, fun c h => iso2022_jp2_line (lineEnds_lt h).1⟩,
      ⟨rfl, fun c h => iso2022_jp3_line (lineEnds_lt h).2⟩, ⟨rfl, fun c h => iso2022_jpms_line (lineEnds_lt h).2⟩,
      ⟨rfl, fun c h => utf7_line (lineEnds_lt h).1⟩, by simp⟩
  · obtain ⟨r, hr, rfl⟩ := List.mem_map.1 hC
    refine ⟨(pairRows_ok r hr).fixed, ?_⟩
    clear hB hC
    revert r
    simp only [pairRows, List.forall_mem_cons]
    refine ⟨⟨rfl, fun c h => pair_line (hk_comp_line (lineEnds_lt h).2) (hk_base_line (lineEnds_lt h).2 _)⟩,
      ⟨rfl, fun c h => pair_line (hk_comp_line (lineEnds_lt h).2) (hk_base_line (lineEnds_lt h).2 _)⟩,
      ⟨rfl, fun c h => pair_line (hk_comp_line (lineEnds_lt h).2) (hk_base_line (lineEnds_lt h).2 _)⟩,
      ⟨rfl, fun c h => pair_line (hk_comp_line (lineEnds_lt h).2) (hk_base_line (lineEnds_lt h).2 _)⟩,
      ⟨rfl, fun c h => pair_line (jxCompose_line (lineEnds_lt h).2 _) fun k acc => ?_⟩,
      ⟨rfl, fun c h => pair_line (jxCompose_line (lineEnds_lt h).2 _) fun k acc => ?_⟩, by simp⟩
    · unfold euc_jx_base
      rw [if_pos (lineEnds_lt h).2]
      rfl
    · have := (lineEnds_lt h).1
      unfold sjx_base
      rw [if_pos ⟨by omega, by omega, by omega⟩]
      rfl

/-! ## C48 -/

/-- C48, the bytes: what is written for a text is what is written for its first line followed by what is
written for the rest. -/
theorem C48_lines : ∀ B ∈ lineRows, ∀ c ∈ lineEnds, ∀ (a b : List Nat) (s : List Byte),
    B.Encodes (a ++ [c] ++ b) s ↔ ∃ s1 s2, B.Encodes (a ++ [c]) s1 ∧ B.Encodes b s2 ∧ s = s1 ++ s2 :=
  fun B hB c hc _ _ _ => line_encodes ((lineRows_ok B hB).2.2 c hc) (lineRows_ok B hB).2.1

/-- "あ\nあ" in ISO-2022-KR: the second line has its own designation. -/
theorem kr_lines_example : iso2022_kr_entry.Encodes [0x3042, 0x0a, 0x3042]
    [0x1b, 0x24, 0x29, 0x43, 0x0e, 0x2a, 0x22, 0x0f, 0x0a, 0x1b, 0x24, 0x29, 0x43, 0x0e, 0x2a, 0x22, 0x0f] :=
  ⟨_, _, show _ = some ([0x1b, 0x24, 0x29, 0x43, 0x0e, 0x2a, 0x22, 0x0f, 0x0a, 0x1b, 0x24, 0x29, 0x43, 0x0e, 0x2a, 0x22], 257)
    by decide +kernel, by decide +kernel⟩

/-- C48, the API: `reiconv_convert` is called for a text `x` of an encoding `A` with the characters
`a`, line end, `b`, and for texts `x1`, `x2` of `a` with the line end and of `b`. The first result is the second
followed by the third. -/
theorem C48_convert_lines : ∀ B ∈ lineRows, ∀ c ∈ lineEnds, ∀ (A : Entry) (discard : Bool), A.FixedOrder →
    ∀ (a b : List Nat) (x x1 x2 s : List Byte) (alloc : Nat → List Byte), (∀ n, (alloc n).length = n) →
    A.Text x (a ++ [c] ++ b) → A.Text x1 (a ++ [c]) → A.Text x2 b → B.Encodes (a ++ [c] ++ b) s →
    ∃ y y1 y2 d1 d2, convert (A.conv B discard) St.init x true true (fun n => some (alloc n)) = .ok y ∧
      convert (A.conv B discard) St.init x1 true true (fun n => some (alloc n)) = .ok y1 ∧
      convert (A.conv B discard) St.init x2 true true (fun n => some (alloc n)) = .ok y2 ∧
      y.ret = .ok () ∧ y1.ret = .ok () ∧ y2.ret = .ok () ∧
      y1.data = some d1 ∧ y2.data = some d2 ∧ y.data = some (d1 ++ d2) := by
  intro B hB c hc A discard hA a b x x1 x2 s alloc hal hx hx1 hx2 hs
  obtain ⟨s1, s2, h1, h2, rfl⟩ := (C48_lines B hB c hc a b s).1 hs
  obtain ⟨y, e, r, _, d⟩ := convert_text discard hA hx hs alloc hal
  obtain ⟨y1, e1, r1, _, d1⟩ := convert_text discard hA hx1 h1 alloc hal
  obtain ⟨y2, e2, r2, _, d2⟩ := convert_text discard hA hx2 h2 alloc hal
  exact ⟨y, y1, y2, s1, s2, e, e1, e2, r, r1, r2, d1, d2, d⟩

/-- The hypotheses are met: "あ\nあ" from UTF-8 to ISO-2022-KR. -/
example : iso2022_kr_entry ∈ lineRows ∧
    utf8_entry.Text [0xe3, 0x81, 0x82, 0x0a, 0xe3, 0x81, 0x82] ([0x3042] ++ [0x0a] ++ [0x3042]) ∧
    utf8_entry.Text [0xe3, 0x81, 0x82, 0x0a] ([0x3042] ++ [0x0a]) ∧ utf8_entry.Text [0xe3, 0x81, 0x82] [0x3042] ∧
    ∃ s, iso2022_kr_entry.Encodes ([0x3042] ++ [0x0a] ++ [0x3042]) s :=
  ⟨by simp [lineRows, shiftRows], (C19_utf8_decoding _ _).2 (by decide), (C19_utf8_decoding _ _).2 (by decide),
   (C19_utf8_decoding _ _).2 (by decide), _, kr_lines_example⟩

/-- C48, reading: a line cut out of the output is read alone. -/
theorem C48_read_line : ∀ r ∈ shiftRows, ∀ c ∈ lineEnds, ∀ (a b : List Nat) (s : List Byte),
    (∀ x ∈ a ++ [c] ++ b, x ∉ r.ctl) → r.entry.Encodes (a ++ [c] ++ b) s →
    ∃ s1 s2, s = s1 ++ s2 ∧ r.entry.Text s1 (a ++ [c]) ∧ r.entry.Text s2 b := by
  intro r hr c hc a b s hx hs
  obtain ⟨s1, s2, h1, h2, h3⟩ := (C48_lines r.entry
    (List.mem_append_left _ (List.mem_map_of_mem hr)) c hc a b s).1 hs
  exact ⟨s1, s2, h3, C42_shift r hr _ _ (fun y hy => hx y (List.mem_append_left _ hy)) h1,
    C42_shift r hr _ _ (fun y hy => hx y (List.mem_append_right _ hy)) h2⟩

end Reiconv
