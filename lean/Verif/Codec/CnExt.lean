import Verif.Codec.Hz
import Verif.Codec.Cset

/-!
# ISO-2022-CN-EXT
-/

namespace Reiconv

/-- `COMBINE_STATE` (`lib/converters/iso2022_cnext.h:78`). -/
def cxSt (s1 s2 s3 s4 : Nat) : Nat := s1 + 256 * s2 + 65536 * s3 + 16777216 * s4

/-- A character after `ESC O`: `switch (state4)` (`lib/converters/iso2022_cnext.h:206-282`). -/
def cx_ss3 (s1 s2 s3 s4 c2 c3 : Nat) : M SItem :=
  let two (m : M MbRet) : M SItem :=
    if c2 < 0x80 ∧ c3 < 0x80 then sTwo m c2 c3 fun wc => .ret (.char wc 4 (cxSt s1 s2 s3 s4))
    else .ret .ilseq
  if s4 = 0 then .ret .ilseq
  else if s4 = 1 then two cns11643_3_dec.mbtowc
  else if s4 = 2 then two cns11643_4_dec.mbtowc
  else if s4 = 3 then two cns11643_5_dec.mbtowc
  else if s4 = 4 then two cns11643_6_dec.mbtowc
  else if s4 = 5 then two cns11643_7_dec.mbtowc
  else .abort

/-- The loop body of `iso2022_cn_ext_mbtowc` and what follows the loop
(`lib/converters/iso2022_cnext.h:86-370`). -/
def iso2022_cn_ext_item (st : Nat) : M SItem :=
  let s1 := st % 256
  let s2 := st / 256 % 256
  let s3 := st / 65536 % 256
  let s4 := st / 16777216
  .byte 0 fun c =>
    if c = 0x1b then
      .need 4 <| .byte 1 fun c1 => .byte 2 fun c2 => .byte 3 fun c3 =>
        if c1 = 0x24 ∧ c2 = 0x29 ∧ c3 = 0x41 then .ret (.shift 4 (cxSt s1 1 s3 s4))
        else if c1 = 0x24 ∧ c2 = 0x29 ∧ c3 = 0x47 then .ret (.shift 4 (cxSt s1 2 s3 s4))
        else if c1 = 0x24 ∧ c2 = 0x29 ∧ c3 = 0x45 then .ret (.shift 4 (cxSt s1 3 s3 s4))
        else if c1 = 0x24 ∧ c2 = 0x2a ∧ c3 = 0x48 then .ret (.shift 4 (cxSt s1 s2 1 s4))
        else if c1 = 0x24 ∧ c2 = 0x2b ∧ c3 = 0x49 then .ret (.shift 4 (cxSt s1 s2 s3 1))
        else if c1 = 0x24 ∧ c2 = 0x2b ∧ c3 = 0x4a then .ret (.shift 4 (cxSt s1 s2 s3 2))
        else if c1 = 0x24 ∧ c2 = 0x2b ∧ c3 = 0x4b then .ret (.shift 4 (cxSt s1 s2 s3 3))
        else if c1 = 0x24 ∧ c2 = 0x2b ∧ c3 = 0x4c then .ret (.shift 4 (cxSt s1 s2 s3 4))
        else if c1 = 0x24 ∧ c2 = 0x2b ∧ c3 = 0x4d then .ret (.shift 4 (cxSt s1 s2 s3 5))
        else if c1 = 0x4e then
          if s3 = 0 then .ret .ilseq
          else if s3 = 1 then
            if c2 < 0x80 ∧ c3 < 0x80 then
              sTwo cns11643_2_dec.mbtowc c2 c3 fun wc => .ret (.char wc 4 (cxSt s1 s2 s3 s4))
            else .ret .ilseq
          else .abort
        else if c1 = 0x4f then cx_ss3 s1 s2 s3 s4 c2 c3
        else .ret .ilseq
    else if c = 0x0e then
      if s2 ≠ 1 ∧ s2 ≠ 2 ∧ s2 ≠ 3 then .ret .ilseq else .ret (.shift 1 (cxSt 1 s2 s3 s4))
    else if c = 0x0f then .ret (.shift 1 (cxSt 0 s2 s3 s4))
    else if s1 = 0 then
      if c < 0x80 then sOne ascii_m c fun wc =>
        .ret (.char wc 1 (if wc = 0x0a ∨ wc = 0x0d then cxSt s1 0 0 0 else cxSt s1 s2 s3 s4))
      else .ret .ilseq
    else if s1 = 1 then
      .need 2 <| .byte 1 fun c2 =>
        if c < 0x80 ∧ c2 < 0x80 then
          if s2 = 0 then .ret .ilseq
          else if s2 = 1 then sTwo gb2312_dec.mbtowc c c2 fun wc => .ret (.char wc 2 (cxSt s1 s2 s3 s4))
          else if s2 = 2 then sTwo cns11643_1_dec.mbtowc c c2 fun wc => .ret (.char wc 2 (cxSt s1 s2 s3 s4))
          else if s2 = 3 then sTwo isoir165_mbtowc c c2 fun wc => .ret (.char wc 2 (cxSt s1 s2 s3 s4))
          else .abort
        else .ret .ilseq
    else .abort

/-- `iso2022_cn_ext_mbtowc` (`lib/converters/iso2022_cnext.h:80-382`). -/
def iso2022_cn_ext_decoder : Decoder where
  mbtowc := sdecode iso2022_cn_ext_item
  flushwc := none

/-- A character of one of the sets that are designated to G1 by `ESC $ ) f` (state `k`), as in
`lib/converters/iso2022_cnext.h:425-456`. -/
def cxG1 (s1 s2 s3 s4 k f b0 b1 : Nat) : SW :=
  .room ((if s2 = k then 0 else 4) + (if s1 = 1 then 0 else 1) + 2) <|
  .put ((if s2 ≠ k then [0x1b, 0x24, 0x29, f] else []) ++ (if s1 ≠ 1 then [0x0e] else []) ++ [b0, b1])
    (cxSt 1 k s3 s4)

/-- A character of one of the sets that are designated to G3 by `ESC $ + f` (state `k`), as in
`lib/converters/iso2022_cnext.h:517-541`. -/
def cxG3 (s1 s2 s3 s4 k f b0 b1 : Nat) : SW :=
  .room ((if s4 = k then 0 else 4) + 4) <|
  .put ((if s4 ≠ k then [0x1b, 0x24, 0x2b, f] else []) ++ [0x1b, 0x4f, b0, b1]) (cxSt s1 s2 s3 k)

/-- `iso2022_cn_ext_wctomb` (`lib/converters/iso2022_cnext.h:384-672`). -/
def iso2022_cn_ext_wctomb (st wc : Nat) : SW :=
  let s1 := st % 256
  let s2 := st / 256 % 256
  let s3 := st / 65536 % 256
  let s4 := st / 16777216
  let rest := SW.try2 (isoir165_wctomb wc) (cxG1 s1 s2 s3 s4 3 0x45) .iluni
  .try1 (ascii_w wc) (fun b => b < 0x80)
    (fun b => .room (if s1 = 0 then 1 else 2) <|
      .put ((if s1 ≠ 0 then [0x0f] else []) ++ [b])
        (if wc = 0x0a ∨ wc = 0x0d then cxSt 0 0 0 0 else cxSt 0 s2 s3 s4)) <|
  .try2 (gb2312_enc.wctomb wc) (cxG1 s1 s2 s3 s4 1 0x41) <|
  .try3 (cns11643_inv_enc.wctomb3 wc)
    (fun b0 b1 b2 =>
      if b0 = 1 ∧ b1 < 0x80 ∧ b2 < 0x80 then cxG1 s1 s2 s3 s4 2 0x47 b1 b2
      else if b0 = 2 ∧ b1 < 0x80 ∧ b2 < 0x80 then
        .room ((if s3 = 1 then 0 else 4) + 4) <|
        .put ((if s3 ≠ 1 then [0x1b, 0x24, 0x2a, 0x48] else []) ++ [0x1b, 0x4e, b1, b2]) (cxSt s1 s2 1 s4)
      else if b0 = 3 ∧ b1 < 0x80 ∧ b2 < 0x80 then cxG3 s1 s2 s3 s4 1 0x49 b1 b2
      else if b0 = 4 ∧ b1 < 0x80 ∧ b2 < 0x80 then cxG3 s1 s2 s3 s4 2 0x4a b1 b2
      else if b0 = 5 ∧ b1 < 0x80 ∧ b2 < 0x80 then cxG3 s1 s2 s3 s4 3 0x4b b1 b2
      else if b0 = 6 ∧ b1 < 0x80 ∧ b2 < 0x80 then cxG3 s1 s2 s3 s4 4 0x4c b1 b2
      else if b0 = 7 ∧ b1 < 0x80 ∧ b2 < 0x80 then cxG3 s1 s2 s3 s4 5 0x4d b1 b2
      else rest)
  rest

/-- The bytes of `iso2022_cn_ext_reset` (`lib/converters/iso2022_cnext.h:674-691`). -/
def iso2022_cn_ext_reset (st : Nat) : List Nat := if st % 256 ≠ 0 then [0x0f] else []

/-- The functions `iso2022_cn_ext_wctomb` (`lib/converters/iso2022_cnext.h:384-672`), `iso2022_cn_ext_reset`
(`lib/converters/iso2022_cnext.h:674-691`). -/
def iso2022_cn_ext_encoder : Encoder := sencoder iso2022_cn_ext_wctomb iso2022_cn_ext_reset

/-! ## No undefined behaviour -/

/-- The values of the state that occur. -/
def cxI (st : Nat) : Prop := st % 256 ≤ 1 ∧ st / 256 % 256 ≤ 3 ∧ st / 65536 % 256 ≤ 1 ∧ st / 16777216 ≤ 5

theorem cxI_cxSt {s1 s2 s3 s4 : Nat} (h1 : s1 ≤ 1) (h2 : s2 ≤ 3) (h3 : s3 ≤ 1) (h4 : s4 ≤ 5) :
    cxI (cxSt s1 s2 s3 s4) := by
  unfold cxI cxSt; omega

theorem M.run_andThen_cx {α β : Type} (f : α → M β) : ∀ (m : M α) (s : List Byte), (m.andThen f).run s =
    match m.run s with
    | .ok (some a) => (f a).run s
    | .ok none => .ok none
    | .ub => .ub
    | .abort => .abort
    | .diverge => .diverge := by
  intro m
  induction m with
  | ret a => intro s; rfl
  | ub => intro s; rfl
  | abort => intro s; rfl
  | need k t ih =>
    intro s
    simp only [M.andThen, M.run]
    split
    · exact ih s
    · rfl
  | byte i g ih =>
    intro s
    simp only [M.andThen, M.run]
    cases h : s[i]? with
    | none => rfl
    | some b => exact ih b.toNat s

theorem isoir165_row2a_two : M.Two isoir165_row2a := by
  intro a b
  unfold isoir165_row2a
  simp only [M.run, List.length_cons, List.length_nil, Nat.le_refl, if_true, Nat.reduceAdd,
    List.getElem?_cons_succ, List.getElem?_cons_zero]
  by_cases h : b.toNat ≥ 0x21 ∧ b.toNat < 0x7f
  · rw [if_pos h, iso646_cn_on (by omega), if_neg code_char_one]
    exact .inr ⟨_, rfl⟩
  · rw [if_neg h]; exact .inl rfl

theorem isoir165_rest_two : M.Two isoir165_rest := by
  intro a b
  unfold isoir165_rest
  rw [M.run_andThen_cx]
  rcases gb2312_m2 a b with h | ⟨wc, h⟩
  · rw [h]
    simp only
    rw [if_neg (by decide)]
    simp only [M.run, List.getElem?_cons_zero]
    split
    · exact isoir165_row2a_two a b
    · exact CsDec.two isoir165ext_dec_safe a b
  · rw [h]
    simp only
    rw [if_pos code_char_pos]
    exact .inr ⟨wc, rfl⟩

theorem isoir165_m2 : M.Two isoir165_mbtowc := by
  intro a b
  have hr := isoir165_rest_two a b
  unfold isoir165_mbtowc
  simp only [M.run, List.getElem?_cons_zero]
  split
  · simp only [M.run, List.length_cons, List.length_nil, Nat.le_refl, if_true, Nat.reduceAdd,
      List.getElem?_cons_succ, List.getElem?_cons_zero]
    split
    · unfold M.on
      simp only [List.map_cons, List.map_nil]
      rcases CsDec.two isoir165ext_dec_safe (u8 0x2b) (u8 b.toNat) with h | ⟨wc, h⟩
      · rw [h]
        simp only
        rw [if_neg (by decide)]
        exact hr
      · rw [h]
        simp only
        rw [if_pos code_char_pos]
        exact .inr ⟨wc, rfl⟩
    · exact hr
  · exact hr

theorem cns11643_3_m2 : M.Two cns11643_3_dec.mbtowc := CsDec.two cns11643_3_dec_safe
theorem cns11643_4_m2 : M.Two cns11643_4_dec.mbtowc := CsDec.two cns11643_4_dec_safe
theorem cns11643_5_m2 : M.Two cns11643_5_dec.mbtowc := CsDec.two cns11643_5_dec_safe
theorem cns11643_6_m2 : M.Two cns11643_6_dec.mbtowc := CsDec.two cns11643_6_dec_safe
theorem cns11643_7_m2 : M.Two cns11643_7_dec.mbtowc := CsDec.two cns11643_7_dec_safe

/-- Proof that `iso2022_cn_ext_decoder` satisfies the contract `StDec`. -/
def iso2022_cn_ext_dec : StDec iso2022_cn_ext_decoder where
  item := iso2022_cn_ext_item
  I := cxI
  pend := fun _ => false
  eq := rfl
  init := by unfold cxI; omega
  good := by
    intro st hI
    have h1 := ascii_one
    have h2 := gb2312_m2
    have h3 := cns11643_1_m2
    have h4 := cns11643_2_m2
    have h5 := cns11643_3_m2
    have h6 := cns11643_4_m2
    have h7 := cns11643_5_m2
    have h8 := cns11643_6_m2
    have h9 := cns11643_7_m2
    have h10 := isoir165_m2
    have hc : ∀ {s1 s2 s3 s4}, s1 ≤ 1 → s2 ≤ 3 → s3 ≤ 1 → s4 ≤ 5 → cxI (cxSt s1 s2 s3 s4) := cxI_cxSt
    unfold iso2022_cn_ext_item cx_ss3
    obtain ⟨i1, i2, i3, i4⟩ := hI
    generalize st % 256 = s1 at *
    generalize st / 256 % 256 = s2 at *
    generalize st / 65536 % 256 = s3 at *
    generalize st / 16777216 = s4 at *
    sgood
    all_goals first
      | omega
      | (refine itemOK_char ?_ (by omega) (by omega); first
          | exact hc (by omega) (by omega) (by omega) (by omega)
          | (split <;> exact hc (by omega) (by omega) (by omega) (by omega)))
      | (refine itemOK_shift (hc ?_ ?_ ?_ ?_) (by omega) (by omega) <;> omega)
      | exact itemOK_ilseq (by omega)
      | skip
  flush_ok := by intro f hf; cases hf

theorem cx_put {s1 s2 s3 s4 k : Nat} {bs : List Nat} (h1 : s1 ≤ 1) (h2 : s2 ≤ 3) (h3 : s3 ≤ 1) (h4 : s4 ≤ 5) (hb : bs ≠ [])
    (hl : bs.length = k) (hk : k ≤ 64) : SW.Good cxI k (.put bs (cxSt s1 s2 s3 s4)) :=
  SW.good_put (cxI_cxSt h1 h2 h3 h4) hb hl hk

theorem good_cxG1 {s1 s2 s3 s4 k f a b : Nat} (h2 : k ≤ 3) (h3 : s3 ≤ 1) (h4 : s4 ≤ 5) :
    SW.Good cxI 0 (cxG1 s1 s2 s3 s4 k f a b) := by
  unfold cxG1
  refine SW.good_room ?_
  by_cases hk : s2 = k <;> by_cases h1 : s1 = 1 <;>
    simp only [hk, h1, if_true, if_false, ne_eq, not_true_eq_false, not_false_eq_true] <;>
    exact cx_put (by omega) (by omega) h3 h4 (by simp) (by simp) (by simp)

theorem good_cxG3 {s1 s2 s3 s4 k f a b : Nat} (h1 : s1 ≤ 1) (h2 : s2 ≤ 3) (h3 : s3 ≤ 1) (h4 : k ≤ 5) :
    SW.Good cxI 0 (cxG3 s1 s2 s3 s4 k f a b) := by
  unfold cxG3
  refine SW.good_room ?_
  by_cases hk : s4 = k <;>
    simp only [hk, if_true, if_false, ne_eq, not_true_eq_false, not_false_eq_true] <;>
    exact cx_put h1 h2 h3 h4 (by simp) (by simp) (by simp)

/-- Proof that `iso2022_cn_ext_encoder` satisfies the contract `StEnc`. -/
def iso2022_cn_ext_enc : StEnc iso2022_cn_ext_encoder := SW.toSt (I := cxI) (by unfold cxI; omega)
  (by
    intro st wc hI
    unfold iso2022_cn_ext_wctomb
    obtain ⟨i1, i2, i3, i4⟩ := hI
    generalize st % 256 = s1 at *
    generalize st / 256 % 256 = s2 at *
    generalize st / 65536 % 256 = s3 at *
    generalize st / 16777216 = s4 at *
    dsimp only
    have hr : SW.Good cxI 0 (SW.try2 (isoir165_wctomb wc) (cxG1 s1 s2 s3 s4 3 0x45) .iluni) :=
      SW.good_try2 (isoir165_w2 wc) (fun a b _ _ => good_cxG1 (by omega) i3 i4) (SW.good_iluni (by omega))
    refine SW.good_try1 (ascii_wOne wc) ?_ (SW.good_try2 (gb2312_w2 wc) (fun a b _ _ => good_cxG1 (by omega) i3 i4)
      (SW.good_try3 (cns11643_w3 wc) ?_ hr))
    · intro a _ _
      refine SW.good_room ?_
      by_cases h : s1 = 0 <;>
        simp only [h, if_true, if_false, ne_eq, not_true_eq_false, not_false_eq_true] <;>
        split <;> exact cx_put (by omega) (by omega) (by omega) (by omega) (by simp) (by simp) (by simp)
    · intro a b c _ _ _
      refine SW.good_ite (fun _ => good_cxG1 (by omega) i3 i4) fun _ => ?_
      refine SW.good_ite (fun _ => ?_) fun _ => ?_
      · refine SW.good_room ?_
        by_cases h : s3 = 1 <;>
          simp only [h, if_true, if_false, ne_eq, not_true_eq_false, not_false_eq_true] <;>
          exact cx_put (by omega) (by omega) (by omega) (by omega) (by simp) (by simp) (by simp)
      refine SW.good_ite (fun _ => good_cxG3 i1 i2 i3 (by omega)) fun _ => ?_
      refine SW.good_ite (fun _ => good_cxG3 i1 i2 i3 (by omega)) fun _ => ?_
      refine SW.good_ite (fun _ => good_cxG3 i1 i2 i3 (by omega)) fun _ => ?_
      refine SW.good_ite (fun _ => good_cxG3 i1 i2 i3 (by omega)) fun _ => ?_
      exact SW.good_ite (fun _ => good_cxG3 i1 i2 i3 (by omega)) fun _ => hr)
  (by intro st _; unfold iso2022_cn_ext_reset; split <;> simp)

/-- The registered encoding `iso2022_cn_ext` (`lib/encodings.h.snippet:297-300`). -/
def iso2022_cn_ext_entry : Entry := stEntry ei_iso2022_cn_ext rfl iso2022_cn_ext_dec iso2022_cn_ext_enc

end Reiconv
