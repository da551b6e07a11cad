import Verif.Codec.Hz
import Verif.Gen.SbEntries

/-!
# ISO-2022-JP-2
-/

namespace Reiconv

/-! ## ISO-8859-1 and ISO-8859-7 as programs -/

/-- `iso8859_1_mbtowc` (`lib/converters/iso8859_1.h:30-35`) as a decoder program. -/
def iso8859_1_m : M MbRet := .byte 0 fun c => .ret (.char c 1)

/-- `iso8859_1_wctomb` (`lib/converters/iso8859_1.h:37-45`) as an encoder program. -/
def iso8859_1_w (wc : Nat) : W := if wc < 0x0100 then .put [wc] else .iluni

/-- `iso8859_7_mbtowc` (`lib/converters/iso8859_7.h:51-69`) as a decoder program. -/
def iso8859_7_m : M MbRet := .byte 0 fun c =>
  match sbDecode iso8859_7_d c with
  | .ok (some wc) => .ret (.char wc 1)
  | .ok none => .ret (.ilseq 0)
  | _ => .ub

/-- `iso8859_7_wctomb` (`lib/converters/iso8859_7.h:95-119`) as an encoder program. -/
def iso8859_7_w (wc : Nat) : W :=
  match sbEncode iso8859_7_e wc with
  | .ok (some b) => .put [b]
  | .ok none => .iluni
  | _ => .ub

theorem iso8859_1_m_one : M.One iso8859_1_m := fun a => .inr ⟨a.toNat, rfl⟩

theorem iso8859_1_w_one (wc : Nat) : W.One (iso8859_1_w wc) := by
  unfold iso8859_1_w
  split
  · exact .inr ⟨u8 wc, rfl⟩
  · exact .inl rfl

theorem iso8859_7_m_one : M.One iso8859_7_m := by
  intro a
  unfold iso8859_7_m
  simp only [M.run, List.getElem?_cons_zero]
  rw [sbDecode_fast (by decide)]
  cases ofCode (decF iso8859_7_d a.toNat) with
  | none => exact .inl rfl
  | some wc => exact .inr ⟨wc, rfl⟩

theorem iso8859_7_w_one (wc : Nat) : W.One (iso8859_7_w wc) := by
  unfold iso8859_7_w
  rw [(sbEncode_fast (by decide) wc).1]
  cases ofCode (encF iso8859_7_e wc) with
  | none => exact .inl rfl
  | some b => exact .inr ⟨u8 b, rfl⟩

/-! ## The decoder -/

/-- `COMBINE_STATE` of the decoder (`lib/converters/iso2022_jp2.h:64`). -/
def jp2St (s1 s2 : Nat) : Nat := s1 + 256 * s2

/-- A character after `ESC N`: `switch (state2)` (`lib/converters/iso2022_jp2.h:177-216`). -/
def jp2_ss2 (s1 s2 c2 : Nat) : M SItem :=
  if s2 = 0 then .ret .ilseq
  else if s2 = 1 then
    if c2 < 0x80 then sOne iso8859_1_m (c2 + 0x80) fun wc => .ret (.char wc 3 (jp2St s1 s2)) else .ret .ilseq
  else if s2 = 2 then
    if c2 < 0x80 then sOne iso8859_7_m (c2 + 0x80) fun wc => .ret (.char wc 3 (jp2St s1 s2)) else .ret .ilseq
  else .abort

/-- The loop body of `iso2022_jp2_mbtowc` and what follows the loop (`lib/converters/iso2022_jp2.h:74-339`). -/
def iso2022_jp2_item (st : Nat) : M SItem :=
  let s1 := st % 256
  let s2 := st / 256
  .byte 0 fun c =>
    if c = 0x1b then
      .need 3 <| .byte 1 fun c1 => .byte 2 fun c2 =>
        if c1 = 0x28 then
          if c2 = 0x42 then .ret (.shift 3 (jp2St 0 s2))
          else if c2 = 0x4a then .ret (.shift 3 (jp2St 1 s2))
          else if c2 = 0x49 then .ret (.shift 3 (jp2St 2 s2))
          else .ret .ilseq
        else if c1 = 0x24 then
          if c2 = 0x40 ∨ c2 = 0x42 then .ret (.shift 3 (jp2St 3 s2))
          else if c2 = 0x41 then .ret (.shift 3 (jp2St 5 s2))
          else if c2 = 0x28 then
            .need 4 <| .byte 3 fun c3 =>
              if c3 = 0x44 then .ret (.shift 4 (jp2St 4 s2))
              else if c3 = 0x43 then .ret (.shift 4 (jp2St 6 s2))
              else .ret .ilseq
          else .ret .ilseq
        else if c1 = 0x2e then
          if c2 = 0x41 then .ret (.shift 3 (jp2St s1 1))
          else if c2 = 0x46 then .ret (.shift 3 (jp2St s1 2))
          else .ret .ilseq
        else if c1 = 0x4e then jp2_ss2 s1 s2 c2
        else .ret .ilseq
    else if s1 = 0 then
      if c < 0x80 then sOne ascii_m c fun wc =>
        .ret (.char wc 1 (if wc = 0x0a ∨ wc = 0x0d then jp2St s1 0 else jp2St s1 s2))
      else .ret .ilseq
    else if s1 = 1 then
      if c < 0x80 then sOne jisx0201_m c fun wc =>
        .ret (.char wc 1 (if wc = 0x0a ∨ wc = 0x0d then jp2St s1 0 else jp2St s1 s2))
      else .ret .ilseq
    else if s1 = 2 then
      if c < 0x80 then sOne jisx0201_m (c + 0x80) fun wc => .ret (.char wc 1 (jp2St s1 s2)) else .ret .ilseq
    else if s1 = 3 then sPair jisx0208_dec.mbtowc (jp2St s1 s2)
    else if s1 = 4 then sPair jisx0212_dec.mbtowc (jp2St s1 s2)
    else if s1 = 5 then sPair gb2312_dec.mbtowc (jp2St s1 s2)
    else if s1 = 6 then sPair ksc5601_mbtowc (jp2St s1 s2)
    else .abort

/-- `iso2022_jp2_mbtowc` (`lib/converters/iso2022_jp2.h:66-351`). -/
def iso2022_jp2_decoder : Decoder where
  mbtowc := sdecode iso2022_jp2_item
  flushwc := none

/-! ## The encoder -/

/-- The language tag state after the tag character `wc` (`lib/converters/iso2022_jp2.h:405-481`). -/
def jp2_tag (s3 wc : Nat) : Nat :=
  let c := wc % 128
  let c := if c ≥ 0x41 ∧ c ≤ 0x5a then c + (0x61 - 0x41) else c
  if c = 0x01 then 4
  else if c = 0x6a ∧ s3 = 4 then 5
  else if c = 0x61 ∧ s3 = 5 then 1
  else if c = 0x6b ∧ s3 = 4 then 6
  else if c = 0x6f ∧ s3 = 6 then 2
  else if c = 0x7a ∧ s3 = 4 then 7
  else if c = 0x68 ∧ s3 = 7 then 3
  else if c = 0x7f then 0
  else if s3 ≥ 4 then 0
  else s3

/-- A character of one byte from a set designated to G0 by `ESC ( f` (state `k`); `s2'` is the state of G2
afterwards (`lib/converters/iso2022_jp2.h:486-511`, `594-617`, `727-749`). -/
def jp2One (s1 s3 k f b s2' : Nat) : SW :=
  .room (if s1 = k then 1 else 4) <|
    .put ((if s1 ≠ k then [0x1b, 0x28, f] else []) ++ [b]) (cnSt k s2' s3)

/-- A character of two bytes from a set designated to G0 by the bytes `esc` (state `k`)
(`lib/converters/iso2022_jp2.h:621-667`, `672-697`, `702-722`). -/
def jp2Two (s1 s2 s3 k : Nat) (esc : List Nat) (count b0 b1 : Nat) : SW :=
  .room (if s1 = k then 2 else count) <|
    .put ((if s1 ≠ k then esc else []) ++ [b0, b1]) (cnSt k s2 s3)

/-- A character of one byte from a set designated to G2 by `ESC . f` (state `k`)
(`lib/converters/iso2022_jp2.h:524-583`). -/
def jp2G2 (s1 s2 s3 k f b : Nat) : SW :=
  .room (if s2 = k then 3 else 6) <|
    .put ((if s2 ≠ k then [0x1b, 0x2e, f] else []) ++ [0x1b, 0x4e, b - 0x80]) (cnSt s1 k s3)

/-- The `switch` in the loop of `iso2022_jp2_wctomb` for the value `code` (`lib/converters/iso2022_jp2.h:519-765`):
1 is `european`, 2 `japanese`, 3 `chinese`, 4 `korean`, 5 `other`. `rest` is what follows `break`. -/
def jp2_try (s1 s2 s3 wc code : Nat) (rest : SW) : SW :=
  if code = 1 then
    .try1 (iso8859_1_w wc) (fun b => b ≥ 0x80) (jp2G2 s1 s2 s3 1 0x41) <|
    .try1 (iso8859_7_w wc) (fun b => b ≥ 0x80) (jp2G2 s1 s2 s3 2 0x46) rest
  else if code = 2 then
    .try1 (jisx0201_w wc) (fun b => b < 0x80)
      (fun b => jp2One s1 s3 1 0x4a b (if wc = 0x0a ∨ wc = 0x0d then 0 else s2)) <|
    .try2 (jisx0208_enc.wctomb wc) (jp2Two s1 s2 s3 3 [0x1b, 0x24, 0x42] 5) <|
    .try2 (jisx0212_enc.wctomb wc) (jp2Two s1 s2 s3 4 [0x1b, 0x24, 0x28, 0x44] 6) rest
  else if code = 3 then .try2 (gb2312_enc.wctomb wc) (jp2Two s1 s2 s3 5 [0x1b, 0x24, 0x41] 5) rest
  else if code = 4 then .try2 (ksc5601_wctomb wc) (jp2Two s1 s2 s3 6 [0x1b, 0x24, 0x28, 0x43] 6) rest
  else if code = 5 then
    .try1 (jisx0201_w wc) (fun b => b ≥ 0x80) (fun b => jp2One s1 s3 2 0x49 (b - 0x80) s2) rest
  else .abort

/-- The loop `do { … conversion_list = conversion_list >> 3; } while (conversion_list != 0);`
(`lib/converters/iso2022_jp2.h:515-770`), at most `fuel` times. -/
def jp2_loop (s1 s2 s3 wc : Nat) : Nat → Nat → SW
  | 0, _ => .ub
  | fuel + 1, l => jp2_try s1 s2 s3 wc (l % 8) (if l / 8 ≠ 0 then jp2_loop s1 s2 s3 wc fuel (l / 8) else .iluni)

/-- `conversion_lists` (`lib/converters/iso2022_jp2.h:390-400`). -/
def jp2_lists : List Nat :=
  [2 + (1 <<< 3) + (3 <<< 6) + (4 <<< 9) + (5 <<< 12),
   2 + (1 <<< 3) + (3 <<< 6) + (4 <<< 9) + (5 <<< 12),
   4 + (1 <<< 3) + (2 <<< 6) + (3 <<< 9) + (5 <<< 12),
   3 + (1 <<< 3) + (2 <<< 6) + (4 <<< 9) + (5 <<< 12)]

/-- `iso2022_jp2_wctomb` after the tag characters; `s3` is not a temporary state any more
(`lib/converters/iso2022_jp2.h:485-771`). -/
def jp2_char (s1 s2 s3 wc : Nat) : SW :=
  .try1 (ascii_w wc) (fun b => b < 0x80)
    (fun b => jp2One s1 s3 0 0x42 b (if wc = 0x0a ∨ wc = 0x0d then 0 else s2)) <|
  match jp2_lists[s3]? with
  | some l => jp2_loop s1 s2 s3 wc 5 l
  | none => .ub

/-- `iso2022_jp2_wctomb` (`lib/converters/iso2022_jp2.h:372-771`). -/
def iso2022_jp2_wctomb (st wc : Nat) : SW :=
  let s1 := st % 256
  let s2 := st / 256 % 256
  let s3 := st / 65536
  if wc / 128 = 0xe0000 / 128 then .put [] (cnSt s1 s2 (jp2_tag s3 wc))
  else jp2_char s1 s2 (if s3 ≥ 4 then 0 else s3) wc

/-- The bytes of `iso2022_jp2_reset` (`lib/converters/iso2022_jp2.h:773-791`). -/
def iso2022_jp2_reset (st : Nat) : List Nat := if st % 256 ≠ 0 then [0x1b, 0x28, 0x42] else []

/-- The functions `iso2022_jp2_wctomb` (`lib/converters/iso2022_jp2.h:372-771`), `iso2022_jp2_reset`
(`lib/converters/iso2022_jp2.h:773-791`). -/
def iso2022_jp2_encoder : Encoder := sencoder iso2022_jp2_wctomb iso2022_jp2_reset

/-! ## No undefined behaviour -/

/-- The values of the state that occur. -/
def jp2DI (st : Nat) : Prop := st % 256 ≤ 6 ∧ st / 256 ≤ 2

theorem jp2DI_st {s1 s2 : Nat} (h1 : s1 ≤ 6) (h2 : s2 ≤ 2) : jp2DI (jp2St s1 s2) := by
  unfold jp2DI jp2St; omega

/-- Proof that `iso2022_jp2_decoder` satisfies the contract `StDec`. -/
def iso2022_jp2_dec : StDec iso2022_jp2_decoder where
  item := iso2022_jp2_item
  I := jp2DI
  pend := fun _ => false
  eq := rfl
  init := by unfold jp2DI; omega
  good := by
    intro st hI
    have h1 := ascii_one
    have h2 := jisx0201_m_one
    have h3 := jisx0208_m2
    have h4 := jisx0212_m2
    have h5 := gb2312_m2
    have h6 := ksc5601_m2
    have h7 := iso8859_1_m_one
    have h8 := iso8859_7_m_one
    have hc : ∀ {s1 s2}, s1 ≤ 6 → s2 ≤ 2 → jp2DI (jp2St s1 s2) := jp2DI_st
    unfold iso2022_jp2_item
    obtain ⟨i1, i2⟩ := hI
    generalize st % 256 = s1 at *
    generalize st / 256 = s2 at *
    unfold jp2_ss2
    sgood
    all_goals first
      | omega
      | (refine itemOK_char ?_ (by omega) (by omega); first
          | exact hc (by omega) (by omega)
          | (split <;> exact hc (by omega) (by omega)))
      | (refine itemOK_shift (hc ?_ ?_) (by omega) (by omega) <;> omega)
      | exact itemOK_ilseq (by omega)
      | exact hc (by omega) (by omega)
      | skip
  flush_ok := by intro f hf; cases hf

/-- The values of the state that occur. -/
def jp2EI (st : Nat) : Prop := st % 256 ≤ 6 ∧ st / 256 % 256 ≤ 2 ∧ st / 65536 ≤ 7

theorem jp2EI_st {s1 s2 s3 : Nat} (h1 : s1 ≤ 6) (h2 : s2 ≤ 2) (h3 : s3 ≤ 7) : jp2EI (cnSt s1 s2 s3) := by
  unfold jp2EI cnSt; omega

theorem jp2_good_one {s1 s3 k f b s2' : Nat} (h : k ≤ 6) (h2 : s2' ≤ 2) (h3 : s3 ≤ 7) :
    SW.Good jp2EI 0 (jp2One s1 s3 k f b s2') := by
  unfold jp2One
  refine SW.good_room ?_
  by_cases hs : s1 = k
  · rw [if_pos hs, if_neg (by omega)]
    exact SW.good_put (jp2EI_st h h2 h3) (by simp) (by simp) (by simp)
  · rw [if_neg hs, if_pos hs]
    exact SW.good_put (jp2EI_st h h2 h3) (by simp) (by simp) (by simp)

theorem jp2_good_two {s1 s2 s3 k count b0 b1 : Nat} {esc : List Nat} (h : k ≤ 6) (h2 : s2 ≤ 2) (h3 : s3 ≤ 7)
    (hc : count = esc.length + 2) (h64 : count ≤ 64) : SW.Good jp2EI 0 (jp2Two s1 s2 s3 k esc count b0 b1) := by
  unfold jp2Two
  refine SW.good_room ?_
  by_cases hs : s1 = k
  · rw [if_pos hs, if_neg (by omega)]
    exact SW.good_put (jp2EI_st h h2 h3) (by simp) (by simp) (by simp)
  · rw [if_neg hs, if_pos hs]
    exact SW.good_put (jp2EI_st h h2 h3) (by simp) (by simp; omega) (by simp; omega)

theorem jp2_good_g2 {s1 s2 s3 k f b : Nat} (h : s1 ≤ 6) (h2 : k ≤ 2) (h3 : s3 ≤ 7) :
    SW.Good jp2EI 0 (jp2G2 s1 s2 s3 k f b) := by
  unfold jp2G2
  refine SW.good_room ?_
  by_cases hs : s2 = k
  · rw [if_pos hs, if_neg (by omega)]
    exact SW.good_put (jp2EI_st h h2 h3) (by simp) (by simp) (by simp)
  · rw [if_neg hs, if_pos hs]
    exact SW.good_put (jp2EI_st h h2 h3) (by simp) (by simp) (by simp)

theorem jp2_good_try {s1 s2 s3 wc code : Nat} {rest : SW} (h1 : s1 ≤ 6) (h2 : s2 ≤ 2) (h3 : s3 ≤ 7)
    (hc : 1 ≤ code) (hc' : code ≤ 5) (hr : SW.Good jp2EI 0 rest) :
    SW.Good jp2EI 0 (jp2_try s1 s2 s3 wc code rest) := by
  unfold jp2_try
  refine SW.good_ite (fun _ => ?_) fun _ => SW.good_ite (fun _ => ?_) fun _ => SW.good_ite (fun _ => ?_) fun _ =>
    SW.good_ite (fun _ => ?_) fun _ => SW.good_ite (fun _ => ?_) fun _ => by omega
  · exact SW.good_try1 (iso8859_1_w_one wc) (fun a _ _ => jp2_good_g2 h1 (by omega) h3)
      (SW.good_try1 (iso8859_7_w_one wc) (fun a _ _ => jp2_good_g2 h1 (by omega) h3) hr)
  · exact SW.good_try1 (jisx0201_w_one wc) (fun a _ _ => jp2_good_one (by omega) (by split <;> omega) h3)
      (SW.good_try2 (jisx0208_w2 wc) (fun a b _ _ => jp2_good_two (by omega) h2 h3 rfl (by omega))
      (SW.good_try2 (jisx0212_w2 wc) (fun a b _ _ => jp2_good_two (by omega) h2 h3 rfl (by omega)) hr))
  · exact SW.good_try2 (gb2312_w2 wc) (fun a b _ _ => jp2_good_two (by omega) h2 h3 rfl (by omega)) hr
  · exact SW.good_try2 (ksc5601_w2 wc) (fun a b _ _ => jp2_good_two (by omega) h2 h3 rfl (by omega)) hr
  · exact SW.good_try1 (jisx0201_w_one wc) (fun a _ _ => jp2_good_one (by omega) h2 h3) hr

/-- The conversions of `conversion_lists` in their order. -/
def jp2_order (s3 : Nat) : List Nat :=
  if s3 = 2 then [4, 1, 2, 3, 5] else if s3 = 3 then [3, 1, 2, 4, 5] else [2, 1, 3, 4, 5]

theorem jp2_char_eq {s1 s2 s3 wc : Nat} (h : s3 ≤ 3) : jp2_char s1 s2 s3 wc =
    .try1 (ascii_w wc) (fun b => b < 0x80)
      (fun b => jp2One s1 s3 0 0x42 b (if wc = 0x0a ∨ wc = 0x0d then 0 else s2))
      ((jp2_order s3).foldr (fun code rest => jp2_try s1 s2 s3 wc code rest) .iluni) := by
  have : s3 = 0 ∨ s3 = 1 ∨ s3 = 2 ∨ s3 = 3 := by omega
  rcases this with rfl | rfl | rfl | rfl <;> rfl

theorem jp2_good_char {s1 s2 s3 wc : Nat} (h1 : s1 ≤ 6) (h2 : s2 ≤ 2) (h3 : s3 ≤ 3) :
    SW.Good jp2EI 0 (jp2_char s1 s2 s3 wc) := by
  rw [jp2_char_eq h3]
  refine SW.good_try1 (ascii_wOne wc) (fun a _ _ => jp2_good_one (by omega) (by split <;> omega) (by omega)) ?_
  have hl : ∀ c ∈ jp2_order s3, 1 ≤ c ∧ c ≤ 5 := by
    unfold jp2_order
    split
    · simp
    · split <;> simp
  generalize jp2_order s3 = l at hl
  induction l with
  | nil => exact SW.good_iluni (by omega)
  | cons c l ih =>
    obtain ⟨h4, h5⟩ := hl c (List.mem_cons_self ..)
    exact jp2_good_try h1 h2 (by omega) h4 h5 (ih fun x hx => hl x (List.mem_cons_of_mem _ hx))

/-- Either the program writes nothing for a tag character, or it is a program as for the other encodings. -/
theorem jp2_prog {st : Nat} (wc : Nat) (hI : jp2EI st) :
    (isTag wc = true ∧ ∃ st', iso2022_jp2_wctomb st wc = .put [] st' ∧ jp2EI st') ∨
    (isTag wc = false ∧ SW.Good jp2EI 0 (iso2022_jp2_wctomb st wc)) := by
  obtain ⟨h1, h2, h3⟩ := hI
  unfold iso2022_jp2_wctomb
  by_cases ht : wc / 128 = 0xe0000 / 128
  · refine .inl ⟨(isTag_iff wc).1 ht, _, if_pos ht, jp2EI_st h1 h2 ?_⟩
    unfold jp2_tag
    dsimp only
    repeat' split
    all_goals omega
  · refine .inr ⟨?_, ?_⟩
    · cases h : isTag wc with
      | false => rfl
      | true => exact absurd ((isTag_iff wc).2 h) ht
    · dsimp only
      rw [if_neg ht]
      exact jp2_good_char h1 h2 (by split <;> omega)

/-- Proof that `iso2022_jp2_encoder` satisfies the contract `StEnc`. -/
def iso2022_jp2_enc : StEnc iso2022_jp2_encoder where
  I := jp2EI
  init := by unfold jp2EI; omega
  enc := fun os wc => (iso2022_jp2_wctomb os wc).res
  need := fun os wc => (iso2022_jp2_wctomb os wc).need
  junk := fun _ _ _ => []
  eq := by
    intro os wc n hI
    show (iso2022_jp2_wctomb os wc).run os n = _
    rcases jp2_prog wc hI with ⟨_, st', h, _⟩ | ⟨_, h⟩
    · rw [h]; simp [SW.run, SW.need, SW.res]
    · rw [SW.good_eq _ 0 os n h]
      cases (iso2022_jp2_wctomb os wc).res <;> rfl
  need_le := fun os wc hI => by
    rcases jp2_prog wc hI with ⟨_, st', h, _⟩ | ⟨_, h⟩
    · rw [h]; exact Nat.zero_le _
    · have := SW.good_need _ 0 h; omega
  len := fun os wc bs os' hI he => by
    rcases jp2_prog wc hI with ⟨_, st', h, hs⟩ | ⟨_, h⟩
    · rw [h] at he ⊢
      cases he
      exact ⟨hs, Nat.zero_le _, Nat.zero_le _⟩
    · obtain ⟨h1, h2, h3⟩ := SW.good_res _ 0 bs os' h he
      exact ⟨h1, by omega, by omega⟩
  junk_len := fun _ _ _ _ _ => Nat.zero_le _
  junk_mono := fun _ _ _ _ _ _ _ _ => rfl
  rtail := fun os => (iso2022_jp2_reset os).map u8
  rtail_len := fun os _ => by unfold iso2022_jp2_reset; split <;> simp
  reset := by
    intro f hf os n hI
    cases hf
    simp only [List.length_map]
    by_cases hn : n < (iso2022_jp2_reset os).length
    · rw [if_pos hn, if_neg (by omega)]
    · rw [if_neg hn, if_pos (by omega)]
  live := fun os wc bs os' hI he => by
    rcases jp2_prog wc hI with ⟨ht, st', h, hs⟩ | ⟨_, h⟩
    · rw [h] at he ⊢
      cases he
      exact .inr (.inr ⟨ht, rfl, rfl⟩)
    · exact .inl (SW.good_res _ 0 bs os' h he).2.1

/-- ISO-2022-JP-2 (`lib/converters/iso2022_jp2.h`). -/
def iso2022_jp2_entry : Entry := stEntry ei_iso2022_jp2 rfl iso2022_jp2_dec iso2022_jp2_enc

end Reiconv
