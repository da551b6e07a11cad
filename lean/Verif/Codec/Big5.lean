import Verif.Gen.CsBig5
import Verif.Gen.B5Case
import Verif.Codec.Fast
import Verif.Entry

/-!
# Encodings based on BIG5: BIG5, CP950, BIG5-2003
-/

namespace Reiconv

/-- `big5_mbtowc` (`lib/converters/big5.h:1880-1913`). -/
abbrev big5_mbtowc : M MbRet := big5_dec.mbtowc
/-- `big5_wctomb` (`lib/converters/big5.h:4141-4185`). -/
abbrev big5_wctomb : Nat → W := big5_enc.wctomb
/-- `cp950ext_mbtowc` (`lib/converters/cp950ext.h:40-67`). -/
abbrev cp950ext_mbtowc : M MbRet := cp950ext_dec.mbtowc
/-- `cp950ext_wctomb` (`lib/converters/cp950ext.h:128-172`). -/
abbrev cp950ext_wctomb : Nat → W := cp950ext_enc.wctomb

/-! ## BIG5 -/

/-- `ces_big5_mbtowc` (`lib/converters/ces_big5.h:34-54`). -/
def ces_big5_mbtowc : M MbRet :=
  .byte 0 fun c =>
    if c < 0x80 then ascii_m
    else if c ≥ 0xa1 ∧ c < 0xff then
      .need 2 <| .byte 1 fun c2 =>
        if (c2 ≥ 0x40 ∧ c2 < 0x7f) ∨ (c2 ≥ 0xa1 ∧ c2 < 0xff) then big5_mbtowc
        else .ret (.ilseq 0)
    else .ret (.ilseq 0)

/-- `ces_big5_wctomb` (`lib/converters/ces_big5.h:56-80`). -/
def ces_big5_wctomb (wc : Nat) : W :=
  (ascii_w wc).orElse <|
  (big5_wctomb wc).on 2 fun ret buf =>
    if ret ≠ RET_ILUNI then
      if ret ≠ 2 then .abort
      else .room 2 <| .put [bufAt buf 0, bufAt buf 1]
    else .iluni

/-! ## CP950 -/

/-- The position of the second byte in a row: `c2 - (c2 >= 0xa1 ? 0x62 : 0x40)`
(`lib/converters/cp950.h:158`). -/
def big5_col (c2 : Nat) : Nat := c2 - if c2 ≥ 0xa1 then 0x62 else 0x40

/-- The end of `cp950_mbtowc` (`lib/converters/cp950.h:193-200`). -/
def cp950_tail (c : Nat) : M MbRet :=
  if c = 0xf9 then
    cp950ext_mbtowc.andThen fun ret => if ret.code ≠ RET_ILSEQ then .ret ret else .ret (.ilseq 0)
  else .ret (.ilseq 0)

/-- `cp950_mbtowc` after the call of `big5_mbtowc` (`lib/converters/cp950.h:172-192`). -/
def cp950_user (c c2 : Nat) : M MbRet :=
  if c = 0xa3 ∧ c2 = 0xe1 then .ret (.char 0x20ac 2)
  else if c ≥ 0xfa then .ret (.char (0xe000 + 157 * (c - 0xfa) + big5_col c2) 2)
  else cp950_tail c

/-- `cp950_mbtowc` from the call of `big5_mbtowc` on (`lib/converters/cp950.h:166-192`). -/
def cp950_big5 (c c2 : Nat) : M MbRet :=
  if ¬ ((c = 0xc6 ∧ c2 ≥ 0xa1) ∨ c = 0xc7) then
    big5_mbtowc.on [c, c2] fun ret =>
      if ret.code ≠ RET_ILSEQ then .ret ret else cp950_user c c2
  else cp950_user c c2

/-- `cp950_mbtowc` (`lib/converters/cp950.h:139-201`). The call `big5_mbtowc(conv, pwc, s, 2)` is the call on
the two bytes read. -/
def cp950_mbtowc : M MbRet :=
  .byte 0 fun c =>
    if c < 0x80 then ascii_m
    else if c ≥ 0x81 ∧ c < 0xff then
      .need 2 <| .byte 1 fun c2 =>
        if (c2 ≥ 0x40 ∧ c2 < 0x7f) ∨ (c2 ≥ 0xa1 ∧ c2 < 0xff) then
          if c ≥ 0xa1 then
            if c < 0xa3 then
              cp950_2uni_pagea1.rdM (157 * (c - 0xa1) + big5_col c2) fun wc =>
                if wc ≠ 0xfffd then .ret (.char wc 2) else cp950_big5 c c2
            else cp950_big5 c c2
          else
            .ret (.char ((if c ≥ 0x8e then 0xdb18 else 0xeeb8) + 157 * (c - 0x81) + big5_col c2) 2)
        else cp950_tail c
    else .ret (.ilseq 0)

/-- The end of `cp950_wctomb` (`lib/converters/cp950.h:412-425`). -/
def cp950_ext (wc : Nat) : W :=
  (cp950ext_wctomb wc).on 2 fun ret buf =>
    if ret ≠ RET_ILUNI then
      if ret ≠ 2 then .abort
      else .room 2 <| .put [bufAt buf 0, bufAt buf 1]
    else .iluni

/-- `cp950_wctomb` with two bytes in `buf` (`lib/converters/cp950.h:402-411`). -/
def cp950_done (wc b0 b1 : Nat) : W :=
  if ¬ ((b0 = 0xc6 ∧ b1 ≥ 0xa1) ∨ b0 = 0xc7) then .room 2 <| .put [b0, b1]
  else cp950_ext wc

/-- `cp950_wctomb` from the call of `big5_wctomb` on (`lib/converters/cp950.h:398-425`). -/
def cp950_rest (wc : Nat) : W :=
  (big5_wctomb wc).on 2 fun ret buf =>
    if ret ≠ RET_ILUNI then
      if ret ≠ 2 then .abort
      else cp950_done wc (bufAt buf 0) (bufAt buf 1)
    else cp950_ext wc

/-- `cp950_wctomb` (`lib/converters/cp950.h:203-426`). -/
def cp950_wctomb (wc : Nat) : W :=
  (ascii_w wc).orElse <| cp950_case wc (cp950_done wc) (cp950_rest wc)

/-! ## BIG5-2003 -/

/-- `big5_2003_mbtowc` after the call of `big5_mbtowc` (`lib/converters/big5_2003.h:229-251`). -/
def big5_2003_user (c c2 : Nat) : M MbRet :=
  if c = 0xa3 then
    if c2 ≥ 0xc0 ∧ c2 ≤ 0xe1 then
      .ret (.char (if c2 = 0xe1 then 0x20ac else if c2 = 0xe0 then 0x2421 else 0x2340 + c2) 2)
    else .ret (.ilseq 0)
  else if c = 0xf9 then
    if c2 ≥ 0xd6 then big5_2003_2uni_pagef9.rdM (c2 - 0xd6) fun wc => .ret (.char wc 2)
    else .ret (.ilseq 0)
  else if c ≥ 0xfa then .ret (.char (0xe000 + 157 * (c - 0xfa) + big5_col c2) 2)
  else .ret (.ilseq 0)

/-- `big5_2003_mbtowc` in the rows 0xc6 and 0xc7 (`lib/converters/big5_2003.h:260-284`). -/
def big5_2003_c6 (c c2 : Nat) : M MbRet :=
  let i := 157 * (c - 0xc6) + big5_col c2
  if i < 133 then
    big5_2003_2uni_pagec6.rdM (i - 63) fun wc =>
      if wc ≠ 0xfffd then .ret (.char wc 2) else .ret (.ilseq 0)
  else if i < 216 then .ret (.char (0x3041 - 133 + i) 2)
  else if i < 302 then .ret (.char (0x30a1 - 216 + i) 2)
  else .ret (.ilseq 0)

/-- `big5_2003_mbtowc` after the table for the rows 0xa1 and 0xa2 (`lib/converters/big5_2003.h:222-285`). -/
def big5_2003_big5 (c c2 : Nat) : M MbRet :=
  if ¬ ((c = 0xc6 ∧ c2 ≥ 0xa1) ∨ c = 0xc7) then
    if ¬ (c = 0xc2 ∧ c2 = 0x55) then
      big5_mbtowc.on [c, c2] fun ret =>
        if ret.code ≠ RET_ILSEQ then .ret ret else big5_2003_user c c2
    else .ret (.char 0x5f5e 2)
  else big5_2003_c6 c c2

/-- `big5_2003_mbtowc` (`lib/converters/big5_2003.h:195-296`). -/
def big5_2003_mbtowc : M MbRet :=
  .byte 0 fun c =>
    if c < 0x80 then ascii_m
    else if c ≥ 0x81 ∧ c < 0xff then
      .need 2 <| .byte 1 fun c2 =>
        if (c2 ≥ 0x40 ∧ c2 < 0x7f) ∨ (c2 ≥ 0xa1 ∧ c2 < 0xff) then
          if c ≥ 0xa1 then
            if c < 0xa3 then
              big5_2003_2uni_pagea1.rdM (157 * (c - 0xa1) + big5_col c2) fun wc =>
                if wc ≠ 0xfffd then .ret (.char wc 2) else big5_2003_big5 c c2
            else big5_2003_big5 c c2
          else
            .ret (.char ((if c ≥ 0x8e then 0xdb18 else 0xeeb8) + 157 * (c - 0x81) + big5_col c2) 2)
        else .ret (.ilseq 0)
    else .ret (.ilseq 0)

/-- `big5_2003_wctomb` with two bytes in `buf` (`lib/converters/big5_2003.h:950-957`). -/
def big5_2003_done (b0 b1 : Nat) : W := .room 2 <| .put [b0, b1]

/-- `big5_2003_wctomb` from the call of `big5_wctomb` on (`lib/converters/big5_2003.h:946-959`). -/
def big5_2003_rest (wc : Nat) : W :=
  (big5_wctomb wc).on 2 fun ret buf =>
    if ret ≠ RET_ILUNI then
      if ret ≠ 2 then .abort
      else big5_2003_done (bufAt buf 0) (bufAt buf 1)
    else .iluni

/-- `big5_2003_wctomb` (`lib/converters/big5_2003.h:304-960`). -/
def big5_2003_wctomb (wc : Nat) : W :=
  (ascii_w wc).orElse <| big5_2003_case wc big5_2003_done (big5_2003_rest wc)

/-! ## The functions are well behaved -/

theorem ces_big5_good : M.Good M.RetOK 1 ces_big5_mbtowc := by
  have h0 := ascii_m_good
  have h1 := CsDec.good' big5_dec_safe
  unfold ces_big5_mbtowc
  mgood

theorem ces_big5_wgood (wc : Nat) : W.Good 0 (ces_big5_wctomb wc) := by
  have h1 := ascii_w_good
  have h2 := ascii_w_need
  have h3 := CsEnc.two big5_enc_safe
  unfold ces_big5_wctomb
  wgood

theorem cp950_tail_good {c k : Nat} (hk : 2 ≤ k) : M.Good M.RetOK k (cp950_tail c) := by
  have h1 := CsDec.good' cp950ext_dec_safe
  unfold cp950_tail
  refine M.good_ite (fun _ => ?_) (fun _ => ?_)
  · refine M.good_andThen _ _ (M.good_at h1 (by omega)) ?_
    intro a j hj ha
    refine M.good_ite (fun _ => ?_) (fun _ => ?_)
    · exact M.good_ret ha
    · exact M.good_ret (M.retOK_ilseq (by omega))
  · exact M.good_ret (M.retOK_ilseq (by omega))

theorem cp950_user_good {c c2 k : Nat} (hk : 2 ≤ k) : M.Good M.RetOK k (cp950_user c c2) := by
  have h1 := @cp950_tail_good c k hk
  unfold cp950_user
  mgood

theorem cp950_big5_good {c c2 k : Nat} (hk : 2 ≤ k) : M.Good M.RetOK k (cp950_big5 c c2) := by
  have h1 := @cp950_user_good c c2 k hk
  have h2 := CsDec.two big5_dec_safe
  unfold cp950_big5
  mgood

theorem big5_col_lt {c2 : Nat} (h : (c2 ≥ 0x40 ∧ c2 < 0x7f) ∨ (c2 ≥ 0xa1 ∧ c2 < 0xff)) : big5_col c2 < 157 := by
  unfold big5_col; split <;> omega

theorem big5_col_ge {c2 : Nat} (h : c2 ≥ 0xa1) : 63 ≤ big5_col c2 := by
  unfold big5_col; rw [if_pos h]; omega

theorem cp950_good : M.Good M.RetOK 1 cp950_mbtowc := by
  have h0 := ascii_m_good
  have h1 := @cp950_big5_good
  have h2 := @cp950_tail_good
  unfold cp950_mbtowc
  refine M.good_byte (by omega) fun c _ => M.good_ite (fun _ => h0) fun _ => M.good_ite (fun _ => ?_) fun _ => by mgood
  refine M.good_need (M.good_byte (by omega) fun c2 _ => M.good_ite (fun hc2 => ?_) fun _ => h2 (by omega))
  have := big5_col_lt hc2
  refine M.good_ite (fun _ => M.good_ite (fun _ => ?_) fun _ => h1 (by omega)) fun _ => by mgood
  refine Tab.good_rdM (by show _ < 314; omega) (M.good_ite (fun _ => ?_) fun _ => h1 (by omega))
  exact M.good_ret (M.retOK_char (by omega) (by omega))

theorem cp950_case_good {wc : Nat} {done : Nat → Nat → W} {rest : W} (hd : ∀ a b, W.Good 0 (done a b))
    (hr : W.Good 0 rest) : W.Good 0 (cp950_case wc done rest) := by
  unfold cp950_case
  repeat' (with_reducible first
    | exact hd _ _
    | exact hr
    | exact W.good_iluni (by omega)
    | refine W.good_ite ?_ ?_
    | intro _)

theorem cp950_ext_good (wc : Nat) : W.Good 0 (cp950_ext wc) := by
  have h3 := CsEnc.two cp950ext_enc_safe
  unfold cp950_ext
  wgood

theorem cp950_wgood (wc : Nat) : W.Good 0 (cp950_wctomb wc) := by
  have h3 := CsEnc.two big5_enc_safe
  have h4 := cp950_ext_good wc
  have hd : ∀ a b, W.Good 0 (cp950_done wc a b) := by
    intro a b
    unfold cp950_done
    wgood
  refine W.good_orElse0 _ _ (ascii_w_need _) (ascii_w_good _) (cp950_case_good hd ?_)
  unfold cp950_rest
  have hd' := fun a b => hd (bufAt [a, b] 0) (bufAt [a, b] 1)
  refine W.good_on2 (h3 wc) ?_ fun a b _ _ => ?_
  · rw [if_neg (by decide)]; exact h4
  · rw [if_pos (by decide), if_neg (by decide)]; exact hd _ _

theorem big5_2003_user_good {c c2 k : Nat} (hc : c2 < 0xff) (hk : 2 ≤ k) : M.Good M.RetOK k (big5_2003_user c c2) := by
  unfold big5_2003_user
  repeat' (with_reducible first
    | refine M.good_ite ?_ ?_
    | intro _)
  any_goals mgood
  show _ < 41
  omega

theorem big5_2003_c6_good {c c2 k : Nat} (hc : (c = 0xc6 ∧ c2 ≥ 0xa1) ∨ c = 0xc7) (hk : 2 ≤ k) :
    M.Good M.RetOK k (big5_2003_c6 c c2) := by
  have h : 63 ≤ 157 * (c - 0xc6) + big5_col c2 := by
    rcases hc with hc | hc
    · have := big5_col_ge hc.2; omega
    · omega
  unfold big5_2003_c6
  generalize 157 * (c - 0xc6) + big5_col c2 = i at h
  refine M.good_ite (fun _ => Tab.good_rdM (by show _ < 70; omega) ?_) fun _ => ?_
  · mgood
  · mgood

theorem big5_2003_big5_good {c c2 k : Nat} (hc : c2 < 0xff) (hk : 2 ≤ k) : M.Good M.RetOK k (big5_2003_big5 c c2) := by
  have h1 := @big5_2003_user_good c c2 k hc hk
  have h2 := CsDec.two big5_dec_safe
  unfold big5_2003_big5
  refine M.good_ite (fun _ => ?_) fun h => big5_2003_c6_good (Classical.not_not.1 h) hk
  mgood

theorem big5_2003_good : M.Good M.RetOK 1 big5_2003_mbtowc := by
  have h0 := ascii_m_good
  have h1 := @big5_2003_big5_good
  unfold big5_2003_mbtowc
  refine M.good_byte (by omega) fun c _ => M.good_ite (fun _ => h0) fun _ => M.good_ite (fun _ => ?_) fun _ => by mgood
  refine M.good_need (M.good_byte (by omega) fun c2 _ => M.good_ite (fun hc2 => ?_) fun _ => by mgood)
  have := big5_col_lt hc2
  refine M.good_ite (fun _ => M.good_ite (fun _ => ?_) fun _ => h1 (by omega) (by omega)) fun _ => by mgood
  refine Tab.good_rdM (by show _ < 314; omega) (M.good_ite (fun _ => ?_) fun _ => h1 (by omega) (by omega))
  exact M.good_ret (M.retOK_char (by omega) (by omega))

set_option maxRecDepth 100000 in
theorem big5_2003_case_good {wc : Nat} {done : Nat → Nat → W} {rest : W} (hd : ∀ a b, W.Good 0 (done a b))
    (hr : W.Good 0 rest) : W.Good 0 (big5_2003_case wc done rest) := by
  unfold big5_2003_case
  repeat' (with_reducible first
    | exact hd _ _
    | exact hr
    | exact W.good_iluni (by omega)
    | refine W.good_ite ?_ ?_
    | intro _)
  refine Tab.good_rdW (by show _ < 29; omega) (hd _ _)

theorem big5_2003_wgood (wc : Nat) : W.Good 0 (big5_2003_wctomb wc) := by
  have h3 := CsEnc.two big5_enc_safe
  have hd : ∀ a b, W.Good 0 (big5_2003_done a b) := by
    intro a b
    unfold big5_2003_done
    wgood
  refine W.good_orElse0 _ _ (ascii_w_need _) (ascii_w_good _) (big5_2003_case_good hd ?_)
  unfold big5_2003_rest
  refine W.good_on2 (h3 wc) ?_ fun a b _ _ => ?_
  · rw [if_neg (by decide)]; exact W.good_iluni (by omega)
  · rw [if_pos (by decide), if_neg (by decide)]; exact hd _ _

/-- The registered encoding `ces_big5` (`lib/encodings.h.snippet:319-324`). -/
def ces_big5_entry : Entry :=
  simpleEntry ei_ces_big5 1 (by decide) (M.simple _ ces_big5_good) (W.senc _ ces_big5_wgood)
/-- The registered encoding `cp950` (`lib/encodings.h.snippet:326-330`). -/
def cp950_entry : Entry :=
  simpleEntry ei_cp950 1 (by decide) (M.simple _ cp950_good) (W.senc _ cp950_wgood)
/-- The registered encoding `big5_2003` (`lib/encodings.h.snippet:1667-1669`). -/
def big5_2003_entry : Entry :=
  simpleEntry ei_big5_2003 1 (by decide) (M.simple _ big5_2003_good) (W.senc _ big5_2003_wgood)

end Reiconv
