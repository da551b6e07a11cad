import Verif.Gen.CsKr
import Verif.Codec.Fast
import Verif.Entry

/-!
# Korean encodings: EUC-KR, CP949, JOHAB
-/

namespace Reiconv

/-- `ksc5601_mbtowc` and the others are the data run by `CsDec.mbtowc`, `CsEnc.wctomb`. -/
abbrev ksc5601_mbtowc : M MbRet := ksc5601_dec.mbtowc
/-- `ksc5601_wctomb` (`lib/converters/ksc5601.h:2996-3038`). -/
abbrev ksc5601_wctomb : Nat → W := ksc5601_enc.wctomb
/-- `uhc_1_mbtowc` (`lib/converters/uhc_1.h:811-835`). -/
abbrev uhc_1_mbtowc : M MbRet := uhc_1_dec.mbtowc
/-- `uhc_1_wctomb` (`lib/converters/uhc_1.h:1707-1736`). -/
abbrev uhc_1_wctomb : Nat → W := uhc_1_enc.wctomb
/-- `uhc_2_mbtowc` (`lib/converters/uhc_2.h:493-517`). -/
abbrev uhc_2_mbtowc : M MbRet := uhc_2_dec.mbtowc
/-- `uhc_2_wctomb` (`lib/converters/uhc_2.h:1004-1033`). -/
abbrev uhc_2_wctomb : Nat → W := uhc_2_enc.wctomb

/-! ## EUC-KR -/

/-- `euc_kr_mbtowc` (`lib/converters/euc_kr.h:35-60`). -/
def euc_kr_mbtowc : M MbRet :=
  .byte 0 fun c =>
    if c < 0x80 then ascii_m
    else if c ≥ 0xa1 ∧ c < 0xff then
      .need 2 <| .byte 1 fun c2 =>
        if c2 ≥ 0xa1 ∧ c2 < 0xff then
          ksc5601_mbtowc.on [c - 0x80, c2 - 0x80] .ret
        else .ret (.ilseq 0)
    else .ret (.ilseq 0)

/-- `euc_kr_wctomb` (`lib/converters/euc_kr.h:62-86`). -/
def euc_kr_wctomb (wc : Nat) : W :=
  (ascii_w wc).orElse <|
  (ksc5601_wctomb wc).on 2 fun ret buf =>
    if ret ≠ RET_ILUNI then
      if ret ≠ 2 then .abort
      else .room 2 <| .put [bufAt buf 0 + 0x80, bufAt buf 1 + 0x80]
    else .iluni

/-! ## CP949 -/

/-- `cp949_mbtowc` (`lib/converters/cp949.h:51-94`). -/
def cp949_mbtowc : M MbRet :=
  .byte 0 fun c =>
    if c < 0x80 then ascii_m
    else if c ≥ 0x81 ∧ c ≤ 0xa0 then uhc_1_mbtowc
    else if c ≥ 0xa1 ∧ c < 0xff then
      .need 2 <| .byte 1 fun c2 =>
        if c2 < 0xa1 then uhc_2_mbtowc
        else if c2 < 0xff ∧ ¬ (c = 0xa2 ∧ c2 = 0xe8) then
          ksc5601_mbtowc.on [c - 0x80, c2 - 0x80] fun ret =>
            if ret.code ≠ RET_ILSEQ then .ret ret
            else if c = 0xc9 then .ret (.char (0xe000 + (c2 - 0xa1)) 2)
            else if c = 0xfe then .ret (.char (0xe05e + (c2 - 0xa1)) 2)
            else .ret (.ilseq 0)
        else .ret (.ilseq 0)
    else .ret (.ilseq 0)

/-- The end of `cp949_wctomb` (`lib/converters/cp949.h:122-149`). -/
def cp949_rest (wc : Nat) : W :=
  if wc ≥ 0xac00 ∧ wc < 0xd7a4 then
    if wc < 0xc8a5 then uhc_1_wctomb wc else uhc_2_wctomb wc
  else if wc ≥ 0xe000 ∧ wc < 0xe0bc then
    .room 2 <|
      if wc < 0xe05e then .put [0xc9, wc - 0xe000 + 0xa1]
      else .put [0xfe, wc - 0xe05e + 0xa1]
  else .iluni

/-- `cp949_wctomb` (`lib/converters/cp949.h:96-150`). -/
def cp949_wctomb (wc : Nat) : W :=
  (ascii_w wc).orElse <|
  if wc ≠ 0x327e then
    (ksc5601_wctomb wc).on 2 fun ret buf =>
      if ret ≠ RET_ILUNI then
        if ret ≠ 2 then .abort
        else .room 2 <| .put [bufAt buf 0 + 0x80, bufAt buf 1 + 0x80]
      else cp949_rest wc
  else cp949_rest wc

/-! ## JOHAB -/

/-- `jamo_initial` (`lib/converters/johab_hangul.h:65-70`). -/
def jamo_initial : Tab := ⟨8, 32, 0xfdfdfdfdfdfdfdfdfdfdfd1e1d1c1b1a1918171615131211090807040201fffd⟩

/-- `jamo_medial` (`lib/converters/johab_hangul.h:71-76`). -/
def jamo_medial : Tab := ⟨8, 32, 0xfdfd33323130fdfd2f2e2d2c2b2afdfd292827262524fdfd232221201ffffdfd⟩

/-- `jamo_final` (`lib/converters/johab_hangul.h:77-82`). -/
def jamo_final : Tab := ⟨8, 32, 0xfdfd1e1d1c1b1a181716151412fd11100f0e0d0c0b0a0907060504030201fffd⟩

/-- `jamo_final_notinitial` (`lib/converters/johab_hangul.h:85-90`). -/
def jamo_final_notinitial : Tab := ⟨8, 32, 0xfdfdfdfdfdfdfdfdfdfdfd14fdfdfd100f0e0d0c0b0afdfd0605fd03fdfdfdfd⟩

/-- `jamo_initial_index` (`lib/converters/johab_hangul.h:95-100`). `none` is 0xff (-1 as `signed char`). -/
def jamo_initial_index : Tab := ⟨8, 32, 0xffffffffffffffffffffff131211100f0e0d0c0b0a09080706050403020100ff⟩

/-- `jamo_medial_index` (`lib/converters/johab_hangul.h:101-106`). `none` is 0xff (-1 as `signed char`). -/
def jamo_medial_index : Tab := ⟨8, 32, 0xffff15141312ffff11100f0e0d0cffff0b0a09080706ffff050403020100ffff⟩

/-- `jamo_final_index` (`lib/converters/johab_hangul.h:107-112`). `none` is 0xff (-1 as `signed char`). -/
def jamo_final_index : Tab := ⟨8, 32, 0xffff1b1a191817161514131211ff100f0e0d0c0b0a09080706050403020100ff⟩

/-- `johab_hangul_page31` (`lib/converters/johab_hangul.h:187-195`). -/
def johab_hangul_page31 : Tab := ⟨16, 51, 0x87a187818761874186e186c186a186818661864185e185c185a185818561854184e184c184a184818461d041cc41c841c441c041bc41b841b441b041ac418454a841a441a0418450844f844e844d844c844b844a9c419841944184478446904184448c418841⟩

/-- `jamo_initial_index_inverse` (`lib/converters/johab_hangul.h:200-204`). -/
def jamo_initial_index_inverse : Tab := ⟨8, 19, 0x14131211100f0e0d0c0b0a0908070605040302⟩

/-- `jamo_medial_index_inverse` (`lib/converters/johab_hangul.h:207-212`). -/
def jamo_medial_index_inverse : Tab := ⟨8, 21, 0x1d1c1b1a1716151413120f0e0d0c0b0a0706050403⟩

/-- `jamo_final_index_inverse` (`lib/converters/johab_hangul.h:215-220`). -/
def jamo_final_index_inverse : Tab := ⟨8, 28, 0x1d1c1b1a1918171615141311100f0e0d0c0b0a090807060504030201⟩

/-- `johab_hangul_mbtowc` (`lib/converters/johab_hangul.h:114-184`). The indices are `signed char`s; a
negative one is a table entry ≥ 0x80. -/
def johab_hangul_mbtowc : M MbRet :=
  .byte 0 fun c1 =>
    if c1 ≥ 0x84 ∧ c1 ≤ 0xd3 then
      .need 2 <| .byte 1 fun c2 =>
        if (c2 ≥ 0x41 ∧ c2 < 0x7f) ∨ (c2 ≥ 0x81 ∧ c2 < 0xff) then
          let johab := c1 * 256 + c2
          let bitspart1 := (johab / 1024) % 32
          let bitspart2 := (johab / 32) % 32
          let bitspart3 := johab % 32
          jamo_initial_index.rdM bitspart1 fun index1 =>
          jamo_medial_index.rdM bitspart2 fun index2 =>
          jamo_final_index.rdM bitspart3 fun index3 =>
            if index1 < 0x80 ∧ index2 < 0x80 ∧ index3 < 0x80 then
              if index1 = 0 then
                if index2 = 0 then
                  jamo_final_notinitial.rdM bitspart3 fun jamo3 =>
                    if jamo3 ≠ 0xfd then .ret (.char (0x3130 + jamo3) 2) else .ret (.ilseq 0)
                else if index3 = 0 then
                  jamo_medial.rdM bitspart2 fun jamo2 =>
                    if jamo2 ≠ 0xfd ∧ jamo2 ≠ 0xff then .ret (.char (0x3130 + jamo2) 2)
                    else .ret (.ilseq 0)
                else .ret (.ilseq 0)
              else if index2 = 0 then
                if index3 = 0 then
                  jamo_initial.rdM bitspart1 fun jamo1 =>
                    if jamo1 ≠ 0xfd ∧ jamo1 ≠ 0xff then .ret (.char (0x3130 + jamo1) 2)
                    else .ret (.ilseq 0)
                else .ret (.ilseq 0)
              else .ret (.char (0xac00 + ((index1 - 1) * 21 + (index2 - 1)) * 28 + index3) 2)
            else .ret (.ilseq 0)
        else .ret (.ilseq 0)
    else .ret (.ilseq 0)

/-- `johab_hangul_wctomb` (`lib/converters/johab_hangul.h:222-254`). The parts of `c` do not overlap, so
`|` is written as addition. -/
def johab_hangul_wctomb (wc : Nat) : W :=
  .room 2 <|
    if wc ≥ 0x3131 ∧ wc < 0x3164 then
      johab_hangul_page31.rdW (wc - 0x3131) fun c => .put [c / 256, c % 256]
    else if wc ≥ 0xac00 ∧ wc < 0xd7a4 then
      let tmp := wc - 0xac00
      let index3 := tmp % 28
      let tmp := tmp / 28
      let index2 := tmp % 21
      let index1 := tmp / 21
      jamo_initial_index_inverse.rdW index1 fun i1 =>
      jamo_medial_index_inverse.rdW index2 fun i2 =>
      jamo_final_index_inverse.rdW index3 fun i3 =>
        let c := ((32 + i1) * 32 + i2) * 32 + i3
        .put [c / 256, c % 256]
    else .iluni

/-- `johab_mbtowc` (`lib/converters/johab.h:57-100`). -/
def johab_mbtowc : M MbRet :=
  .byte 0 fun c =>
    if c < 0x80 then
      if c = 0x5c then .ret (.char 0x20a9 1) else .ret (.char c 1)
    else if c < 0xd8 then johab_hangul_mbtowc
    else
      let s1 := c
      if (s1 ≥ 0xd9 ∧ s1 ≤ 0xde) ∨ (s1 ≥ 0xe0 ∧ s1 ≤ 0xf9) then
        .need 2 <| .byte 1 fun s2 =>
          if (s2 ≥ 0x31 ∧ s2 ≤ 0x7e) ∨ (s2 ≥ 0x91 ∧ s2 ≤ 0xfe) then
            if ¬ (s1 = 0xda ∧ (s2 ≥ 0xa1 ∧ s2 ≤ 0xd3)) then
              let t1 := if s1 < 0xe0 then 2 * (s1 - 0xd9) else 2 * s1 - 0x197
              let t2 := if s2 < 0x91 then s2 - 0x31 else s2 - 0x43
              ksc5601_mbtowc.on [t1 + (if t2 < 0x5e then 0 else 1) + 0x21,
                (if t2 < 0x5e then t2 else t2 - 0x5e) + 0x21] .ret
            else .ret (.ilseq 0)
          else .ret (.ilseq 0)
      else .ret (.ilseq 0)

/-- `johab_wctomb` (`lib/converters/johab.h:102-158`). -/
def johab_wctomb (wc : Nat) : W :=
  if wc < 0x0080 ∧ wc ≠ 0x005c then .put [wc]
  else if wc = 0x20a9 then .put [0x5c]
  else
    (johab_hangul_wctomb wc).on 2 fun ret buf =>
      if ret ≠ RET_ILUNI then
        if ret ≠ 2 then .abort
        else .room 2 <| .put [bufAt buf 0, bufAt buf 1]
      else
        (ksc5601_wctomb wc).on 2 fun ret buf =>
          if ret ≠ RET_ILUNI then
            if ret ≠ 2 then .abort
            else .room 2 <|
              let c1 := bufAt buf 0
              let c2 := bufAt buf 1
              if ((c1 ≥ 0x21 ∧ c1 ≤ 0x2c) ∨ (c1 ≥ 0x4a ∧ c1 ≤ 0x7d)) ∧ (c2 ≥ 0x21 ∧ c2 ≤ 0x7e) then
                let t := if c1 < 0x4a then c1 - 0x21 + 0x1b2 else c1 - 0x21 + 0x197
                let t2 := (if t % 2 = 1 then 0x5e else 0) + (c2 - 0x21)
                .put [t / 2, if t2 < 0x4e then t2 + 0x31 else t2 + 0x43]
              else .iluni
          else .iluni

/-! ## The functions are well behaved -/

theorem euc_kr_good : M.Good M.RetOK 1 euc_kr_mbtowc := by
  have h1 := ascii_m_good
  have h2 := CsDec.two ksc5601_dec_safe
  unfold euc_kr_mbtowc
  mgood

theorem euc_kr_wgood (wc : Nat) : W.Good 0 (euc_kr_wctomb wc) := by
  have h1 := ascii_w_good
  have h2 := ascii_w_need
  have h3 := CsEnc.two ksc5601_enc_safe
  unfold euc_kr_wctomb
  wgood

theorem cp949_good : M.Good M.RetOK 1 cp949_mbtowc := by
  have h1 := ascii_m_good
  have h2 := CsDec.two ksc5601_dec_safe
  have h3 := CsDec.good' uhc_1_dec_safe
  have h4 := CsDec.good' uhc_2_dec_safe
  unfold cp949_mbtowc
  mgood

theorem cp949_wgood (wc : Nat) : W.Good 0 (cp949_wctomb wc) := by
  have h1 := ascii_w_good
  have h2 := ascii_w_need
  have h3 := CsEnc.two ksc5601_enc_safe
  have h4 := uhc_1_enc_safe
  have h5 := uhc_2_enc_safe
  unfold cp949_wctomb cp949_rest
  wgood

theorem johab_hangul_good : M.Good M.RetOK 1 johab_hangul_mbtowc := by
  have l1 : jamo_initial_index.len = 32 := rfl
  have l2 : jamo_medial_index.len = 32 := rfl
  have l3 : jamo_final_index.len = 32 := rfl
  have l4 : jamo_initial.len = 32 := rfl
  have l5 : jamo_medial.len = 32 := rfl
  have l6 : jamo_final_notinitial.len = 32 := rfl
  unfold johab_hangul_mbtowc
  mgood

theorem johab_hangul_wgood (wc : Nat) : W.Good 0 (johab_hangul_wctomb wc) := by
  have l1 : jamo_initial_index_inverse.len = 19 := rfl
  have l2 : jamo_medial_index_inverse.len = 21 := rfl
  have l3 : jamo_final_index_inverse.len = 28 := rfl
  have l4 : johab_hangul_page31.len = 51 := rfl
  unfold johab_hangul_wctomb
  wgood

theorem johab_hangul_need (wc : Nat) : (johab_hangul_wctomb wc).need = 2 := by
  have l1 : jamo_initial_index_inverse.len = 19 := rfl
  have l2 : jamo_medial_index_inverse.len = 21 := rfl
  have l3 : jamo_final_index_inverse.len = 28 := rfl
  have l4 : johab_hangul_page31.len = 51 := rfl
  unfold johab_hangul_wctomb
  simp only [W.need]
  split
  · rw [Tab.rdW_eq (by omega)]; rfl
  · split
    · rw [Tab.rdW_eq (by omega), Tab.rdW_eq (by omega), Tab.rdW_eq (by omega)]; rfl
    · rfl

theorem johab_hangul_two (wc : Nat) : W.Two (johab_hangul_wctomb wc) :=
  W.two_of_good (johab_hangul_wgood wc) (johab_hangul_need wc)

theorem johab_on_fast (wc : Nat) (k : Int → List Nat → W) :
    (johab_hangul_wctomb wc).on 2 k = (johab_hangul_wctomb wc).onF 2 k :=
  W.on_fast (johab_hangul_wgood wc) (johab_hangul_need wc) (by omega) k

theorem johab_good : M.Good M.RetOK 1 johab_mbtowc := by
  have h1 := johab_hangul_good
  have h2 := CsDec.two ksc5601_dec_safe
  unfold johab_mbtowc
  mgood

theorem johab_wgood (wc : Nat) : W.Good 0 (johab_wctomb wc) := by
  have h1 := johab_hangul_two
  have h2 := CsEnc.two ksc5601_enc_safe
  unfold johab_wctomb
  wgood

/-- The registered encoding `euc_kr` (`lib/encodings.h.snippet:351-359`). -/
def euc_kr_entry : Entry :=
  simpleEntry ei_euc_kr 1 (by decide) (M.simple _ euc_kr_good) (W.senc _ euc_kr_wgood)
/-- The registered encoding `cp949` (`lib/encodings.h.snippet:362-367`). -/
def cp949_entry : Entry :=
  simpleEntry ei_cp949 1 (by decide) (M.simple _ cp949_good) (W.senc _ cp949_wgood)
/-- The registered encoding `johab` (`lib/encodings.h.snippet:370-375`). -/
def johab_entry : Entry :=
  simpleEntry ei_johab 1 (by decide) (M.simple _ johab_good) (W.senc _ johab_wgood)

end Reiconv
