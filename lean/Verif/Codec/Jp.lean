import Verif.Gen.CsJp
import Verif.Codec.Fast
import Verif.Entry

/-!
# Japanese encodings: EUC-JP, SHIFT_JIS, CP932, CP943, DEC-KANJI
-/

namespace Reiconv

/-- `jisx0208_mbtowc` (`lib/converters/jisx0208.h:1018-1044`). -/
abbrev jisx0208_mbtowc : M MbRet := jisx0208_dec.mbtowc
/-- `jisx0208_wctomb` (`lib/converters/jisx0208.h:2381-2423`). -/
abbrev jisx0208_wctomb : Nat → W := jisx0208_enc.wctomb
/-- `jisx0212_mbtowc` (`lib/converters/jisx0212.h:918-961`). -/
abbrev jisx0212_mbtowc : M MbRet := jisx0212_dec.mbtowc
/-- `jisx0212_wctomb` (`lib/converters/jisx0212.h:2171-2207`). -/
abbrev jisx0212_wctomb : Nat → W := jisx0212_enc.wctomb
/-- `cp932ext_mbtowc` (`lib/converters/cp932ext.h:153-191`). -/
abbrev cp932ext_mbtowc : M MbRet := cp932ext_dec.mbtowc
/-- `cp932ext_wctomb` (`lib/converters/cp932ext.h:669-725`). -/
abbrev cp932ext_wctomb : Nat → W := cp932ext_enc.wctomb

/-! ## JIS X 0201 -/

/-- `jisx0201_mbtowc` (`lib/converters/jisx0201.h:30-52`) as a decoder program. -/
def jisx0201_m : M MbRet :=
  .byte 0 fun c =>
    if c < 0x80 then
      if c = 0x5c then .ret (.char 0x00a5 1)
      else if c = 0x7e then .ret (.char 0x203e 1)
      else .ret (.char c 1)
    else if c ≥ 0xa1 ∧ c < 0xe0 then .ret (.char (c + 0xfec0) 1)
    else .ret (.ilseq 0)

/-- `jisx0201_wctomb` (`lib/converters/jisx0201.h:54-77`) as an encoder program. -/
def jisx0201_w (wc : Nat) : W :=
  if wc < 0x0080 ∧ ¬ (wc = 0x005c ∨ wc = 0x007e) then .put [wc]
  else if wc = 0x00a5 then .put [0x5c]
  else if wc = 0x203e then .put [0x7e]
  else if wc ≥ 0xff61 ∧ wc < 0xffa0 then .put [wc - 0xfec0]
  else .iluni

/-! ## EUC-JP -/

/-- `euc_jp_mbtowc` (`lib/converters/euc_jp.h:35-142`). The call `jisx0201_mbtowc(conv, pwc, s + 1, n - 1)`
is the call on the one byte it reads. -/
def euc_jp_mbtowc : M MbRet :=
  .byte 0 fun c =>
    if c < 0x80 then ascii_m
    else if c ≥ 0xa1 ∧ c < 0xff then
      .need 2 <|
        if c < 0xf5 then
          .byte 1 fun c2 =>
            if c2 ≥ 0xa1 ∧ c2 < 0xff then
              jisx0208_mbtowc.on [c - 0x80, c2 - 0x80] .ret
            else .ret (.ilseq 0)
        else
          .byte 1 fun c2 =>
            if c2 ≥ 0xa1 ∧ c2 < 0xff then .ret (.char (0xe000 + 94 * (c - 0xf5) + (c2 - 0xa1)) 2)
            else .ret (.ilseq 0)
    else if c = 0x8e then
      .need 2 <| .byte 1 fun c2 =>
        if c2 ≥ 0xa1 ∧ c2 < 0xe0 then
          jisx0201_m.on [c2] fun ret =>
            if ret.code = RET_ILSEQ then .ret (.ilseq 0)
            else if ret.code ≠ 1 then .abort
            else .ret (.char ret.wc 2)
        else .ret (.ilseq 0)
    else if c = 0x8f then
      .need 2 <| .byte 1 fun c2 =>
        if c2 ≥ 0xa1 ∧ c2 < 0xff then
          .need 3 <|
            if c2 < 0xf5 then
              .byte 2 fun c3 =>
                if c3 ≥ 0xa1 ∧ c3 < 0xff then
                  jisx0212_mbtowc.on [c2 - 0x80, c3 - 0x80] fun ret =>
                    if ret.code = RET_ILSEQ then .ret (.ilseq 0)
                    else if ret.code ≠ 2 then .abort
                    else .ret (.char ret.wc 3)
                else .ret (.ilseq 0)
            else
              .byte 2 fun c3 =>
                if c3 ≥ 0xa1 ∧ c3 < 0xff then
                  .ret (.char (0xe3ac + 94 * (c2 - 0xf5) + (c3 - 0xa1)) 3)
                else .ret (.ilseq 0)
        else .ret (.ilseq 0)
    else .ret (.ilseq 0)

/-- The end of `euc_jp_wctomb`, from code set 3 (`lib/converters/euc_jp.h:180-235`). -/
def euc_jp_rest (wc : Nat) : W :=
  (jisx0212_wctomb wc).on 2 fun ret buf =>
    if ret ≠ RET_ILUNI then
      if ret ≠ 2 then .abort
      else .room 3 <| .put [0x8f, bufAt buf 0 + 0x80, bufAt buf 1 + 0x80]
    else if wc = 0x00a5 then .put [0x5c]
    else if wc = 0x203e then .put [0x7e]
    else if wc ≥ 0xe000 ∧ wc < 0xe758 then
      if wc < 0xe3ac then
        .room 2 <| .put [(wc - 0xe000) / 94 + 0xf5, (wc - 0xe000) % 94 + 0xa1]
      else
        .room 3 <| .put [0x8f, (wc - 0xe3ac) / 94 + 0xf5, (wc - 0xe3ac) % 94 + 0xa1]
    else .iluni

/-- `euc_jp_wctomb` (`lib/converters/euc_jp.h:144-236`). -/
def euc_jp_wctomb (wc : Nat) : W :=
  (ascii_w wc).orElse <|
  (jisx0208_wctomb wc).on 2 fun ret buf =>
    if ret ≠ RET_ILUNI then
      if ret ≠ 2 then .abort
      else .room 2 <| .put [bufAt buf 0 + 0x80, bufAt buf 1 + 0x80]
    else
      (jisx0201_w wc).on 1 fun ret buf =>
        if ret ≠ RET_ILUNI ∧ bufAt buf 0 ≥ 0x80 then
          if ret ≠ 1 then .abort
          else .room 2 <| .put [0x8e, bufAt buf 0]
        else euc_jp_rest wc

/-! ## SHIFT_JIS, CP932 -/

/-- `sjis_mbtowc` (`lib/converters/sjis.h:55-94`). -/
def sjis_mbtowc : M MbRet :=
  .byte 0 fun c =>
    if c < 0x80 ∨ (c ≥ 0xa1 ∧ c ≤ 0xdf) then jisx0201_m
    else
      let s1 := c
      if (s1 ≥ 0x81 ∧ s1 ≤ 0x9f) ∨ (s1 ≥ 0xe0 ∧ s1 ≤ 0xea) then
        .need 2 <| .byte 1 fun s2 =>
          if (s2 ≥ 0x40 ∧ s2 ≤ 0x7e) ∨ (s2 ≥ 0x80 ∧ s2 ≤ 0xfc) then
            let t1 := if s1 < 0xe0 then s1 - 0x81 else s1 - 0xc1
            let t2 := if s2 < 0x80 then s2 - 0x40 else s2 - 0x41
            jisx0208_mbtowc.on [2 * t1 + (if t2 < 0x5e then 0 else 1) + 0x21,
              (if t2 < 0x5e then t2 else t2 - 0x5e) + 0x21] .ret
          else .ret (.ilseq 0)
      else if s1 ≥ 0xf0 ∧ s1 ≤ 0xf9 then
        .need 2 <| .byte 1 fun s2 =>
          if (s2 ≥ 0x40 ∧ s2 ≤ 0x7e) ∨ (s2 ≥ 0x80 ∧ s2 ≤ 0xfc) then
            .ret (.char (0xe000 + 188 * (s1 - 0xf0) + (if s2 < 0x80 then s2 - 0x40 else s2 - 0x41)) 2)
          else .ret (.ilseq 0)
      else .ret (.ilseq 0)

/-- `sjis_wctomb` from the user-defined range on (`lib/converters/sjis.h:136-151`). -/
def sjis_user (wc : Nat) (rest : W) : W :=
  if wc ≥ 0xe000 ∧ wc < 0xe758 then
    .room 2 <|
      let c2 := (wc - 0xe000) % 188
      .put [(wc - 0xe000) / 188 + 0xf0, if c2 < 0x3f then c2 + 0x40 else c2 + 0x41]
  else rest

/-- The JIS X 0208 part of `sjis_wctomb` (`lib/converters/sjis.h:115-134`) and of `cp932_wctomb`
(`lib/converters/cp932.h:181-200`). -/
def sjis_0208 (wc : Nat) (rest : W) : W :=
  (jisx0208_wctomb wc).on 2 fun ret buf =>
    if ret ≠ RET_ILUNI then
      if ret ≠ 2 then .abort
      else .room 2 <|
        let c1 := bufAt buf 0
        let c2 := bufAt buf 1
        if (c1 ≥ 0x21 ∧ c1 ≤ 0x74) ∧ (c2 ≥ 0x21 ∧ c2 ≤ 0x7e) then
          let t1 := (c1 - 0x21) / 2
          let t2 := (if (c1 - 0x21) % 2 = 1 then 0x5e else 0) + (c2 - 0x21)
          .put [if t1 < 0x1f then t1 + 0x81 else t1 + 0xc1, if t2 < 0x3f then t2 + 0x40 else t2 + 0x41]
        else rest
    else rest

/-- `sjis_wctomb` (`lib/converters/sjis.h:96-152`). -/
def sjis_wctomb (wc : Nat) : W :=
  (jisx0201_w wc).on 1 fun ret buf =>
    if ret ≠ RET_ILUNI then
      if ret ≠ 1 then .abort
      else if bufAt buf 0 < 0x80 ∨ (bufAt buf 0 ≥ 0xa1 ∧ bufAt buf 0 ≤ 0xdf) then .put [bufAt buf 0]
      else sjis_0208 wc (sjis_user wc .iluni)
    else sjis_0208 wc (sjis_user wc .iluni)

/-- `cp932_mbtowc` (`lib/converters/cp932.h:97-144`). -/
def cp932_mbtowc : M MbRet :=
  .byte 0 fun c =>
    if c < 0x80 then ascii_m
    else if c ≥ 0xa1 ∧ c ≤ 0xdf then jisx0201_m
    else
      let s1 := c
      if (s1 ≥ 0x81 ∧ s1 ≤ 0x9f ∧ s1 ≠ 0x87) ∨ (s1 ≥ 0xe0 ∧ s1 ≤ 0xea) then
        .need 2 <| .byte 1 fun s2 =>
          if (s2 ≥ 0x40 ∧ s2 ≤ 0x7e) ∨ (s2 ≥ 0x80 ∧ s2 ≤ 0xfc) then
            let t1 := if s1 < 0xe0 then s1 - 0x81 else s1 - 0xc1
            let t2 := if s2 < 0x80 then s2 - 0x40 else s2 - 0x41
            jisx0208_mbtowc.on [2 * t1 + (if t2 < 0x5e then 0 else 1) + 0x21,
              (if t2 < 0x5e then t2 else t2 - 0x5e) + 0x21] .ret
          else .ret (.ilseq 0)
      else if s1 = 0x87 ∨ (s1 ≥ 0xed ∧ s1 ≤ 0xee) ∨ s1 ≥ 0xfa then
        .need 2 cp932ext_mbtowc
      else if s1 ≥ 0xf0 ∧ s1 ≤ 0xf9 then
        .need 2 <| .byte 1 fun s2 =>
          if (s2 ≥ 0x40 ∧ s2 ≤ 0x7e) ∨ (s2 ≥ 0x80 ∧ s2 ≤ 0xfc) then
            .ret (.char (0xe000 + 188 * (s1 - 0xf0) + (if s2 < 0x80 then s2 - 0x40 else s2 - 0x41)) 2)
          else .ret (.ilseq 0)
      else .ret (.ilseq 0)

/-- The end of `cp932_wctomb` (`lib/converters/cp932.h:202-271`): CP932 extensions, the user-defined range
(as in `sjis_wctomb`) and irreversible mappings. -/
def cp932_rest (wc : Nat) : W :=
  (cp932ext_wctomb wc).on 2 fun ret buf =>
    if ret ≠ RET_ILUNI then
      if ret ≠ 2 then .abort
      else .room 2 <| .put [bufAt buf 0, bufAt buf 1]
    else sjis_user wc <|
      if wc = 0xff5e then .room 2 <| .put [0x81, 0x60]
      else if wc = 0x2225 then .room 2 <| .put [0x81, 0x61]
      else if wc = 0xff0d then .room 2 <| .put [0x81, 0x7c]
      else if wc = 0xffe0 then .room 2 <| .put [0x81, 0x91]
      else if wc = 0xffe1 then .room 2 <| .put [0x81, 0x92]
      else .iluni

/-- `cp932_wctomb` from JIS X 0201 on (`lib/converters/cp932.h:167-271`). -/
def cp932_rest1 (wc : Nat) : W :=
  (jisx0201_w wc).on 1 fun ret buf =>
    if ret ≠ RET_ILUNI then
      if ret ≠ 1 then .abort
      else if bufAt buf 0 ≥ 0xa1 ∧ bufAt buf 0 ≤ 0xdf then .put [bufAt buf 0]
      else sjis_0208 wc (cp932_rest wc)
    else sjis_0208 wc (cp932_rest wc)

/-- `cp932_wctomb` (`lib/converters/cp932.h:146-272`). -/
def cp932_wctomb (wc : Nat) : W :=
  (ascii_w wc).on 1 fun ret buf =>
    if ret ≠ RET_ILUNI then
      if ret ≠ 1 then .abort
      else if bufAt buf 0 < 0x80 then .put [bufAt buf 0]
      else cp932_rest1 wc
    else cp932_rest1 wc

/-! ## DEC-KANJI -/

/-- `dec_kanji_mbtowc` (`lib/converters/dec_kanji.h:34-57`). -/
def dec_kanji_mbtowc : M MbRet :=
  .byte 0 fun c =>
    if c < 0x80 then ascii_m
    else if c ≥ 0xa1 ∧ c < 0xf5 then
      .need 2 <| .byte 1 fun c2 =>
        if c2 ≥ 0xa1 ∧ c2 < 0xff then
          jisx0208_mbtowc.on [c - 0x80, c2 - 0x80] .ret
        else .ret (.ilseq 0)
    else .ret (.ilseq 0)

/-- `dec_kanji_wctomb` (`lib/converters/dec_kanji.h:59-83`). -/
def dec_kanji_wctomb (wc : Nat) : W :=
  (ascii_w wc).orElse <|
  (jisx0208_wctomb wc).on 2 fun ret buf =>
    if ret ≠ RET_ILUNI then
      if ret ≠ 2 then .abort
      else .room 2 <| .put [bufAt buf 0 + 0x80, bufAt buf 1 + 0x80]
    else .iluni

/-! ## The functions are well behaved -/

theorem jisx0201_m_good : M.Good M.RetOK 1 jisx0201_m := by unfold jisx0201_m; mgood

theorem jisx0201_m_one : M.One jisx0201_m := by
  intro a
  unfold jisx0201_m
  show (M.run (if a.toNat < 0x80 then _ else _) [a]) = _ ∨ ∃ wc, (M.run (if a.toNat < 0x80 then _ else _) [a]) = _
  repeat' split
  all_goals first
    | exact .inl rfl
    | exact .inr ⟨_, rfl⟩

theorem jisx0201_w_one (wc : Nat) : W.One (jisx0201_w wc) := by
  unfold jisx0201_w W.One
  repeat' split
  all_goals first
    | exact .inl rfl
    | exact .inr ⟨_, rfl⟩

theorem ascii_w_one (wc : Nat) : W.One (ascii_w wc) := by
  unfold ascii_w W.One
  split
  · exact .inr ⟨_, rfl⟩
  · exact .inl rfl

theorem euc_jp_good : M.Good M.RetOK 1 euc_jp_mbtowc := by
  have h1 := ascii_m_good
  have h2 := CsDec.two jisx0208_dec_safe
  have h3 := CsDec.two jisx0212_dec_safe
  have h4 := jisx0201_m_one
  unfold euc_jp_mbtowc
  mgood

theorem euc_jp_wgood (wc : Nat) : W.Good 0 (euc_jp_wctomb wc) := by
  have h1 := ascii_w_good
  have h2 := ascii_w_need
  have h3 := CsEnc.two jisx0208_enc_safe
  have h4 := CsEnc.two jisx0212_enc_safe
  have h5 := jisx0201_w_one
  unfold euc_jp_wctomb euc_jp_rest
  wgood

theorem sjis_good : M.Good M.RetOK 1 sjis_mbtowc := by
  have h1 := jisx0201_m_good
  have h2 := CsDec.two jisx0208_dec_safe
  unfold sjis_mbtowc
  mgood

theorem sjis_wgood (wc : Nat) : W.Good 0 (sjis_wctomb wc) := by
  have h3 := CsEnc.two jisx0208_enc_safe
  have h5 := jisx0201_w_one
  unfold sjis_wctomb sjis_0208 sjis_user
  wgood

theorem cp932_good : M.Good M.RetOK 1 cp932_mbtowc := by
  have h1 := jisx0201_m_good
  have h2 := CsDec.two jisx0208_dec_safe
  have h3 := ascii_m_good
  have h4 := CsDec.good' cp932ext_dec_safe
  unfold cp932_mbtowc
  mgood

theorem cp932_wgood (wc : Nat) : W.Good 0 (cp932_wctomb wc) := by
  have h3 := CsEnc.two jisx0208_enc_safe
  have h4 := CsEnc.two cp932ext_enc_safe
  have h5 := jisx0201_w_one
  have h6 := ascii_w_one
  unfold cp932_wctomb cp932_rest1 cp932_rest sjis_0208 sjis_user
  wgood

theorem dec_kanji_good : M.Good M.RetOK 1 dec_kanji_mbtowc := by
  have h1 := ascii_m_good
  have h2 := CsDec.two jisx0208_dec_safe
  unfold dec_kanji_mbtowc
  mgood

theorem dec_kanji_wgood (wc : Nat) : W.Good 0 (dec_kanji_wctomb wc) := by
  have h1 := ascii_w_good
  have h2 := ascii_w_need
  have h3 := CsEnc.two jisx0208_enc_safe
  unfold dec_kanji_wctomb
  wgood

/-- The registered encoding `euc_jp` (`lib/encodings.h.snippet:195-203`). -/
def euc_jp_entry : Entry :=
  simpleEntry ei_euc_jp 1 (by decide) (M.simple _ euc_jp_good) (W.senc _ euc_jp_wgood)
/-- The registered encoding `sjis` (`lib/encodings.h.snippet:206-212`). -/
def sjis_entry : Entry :=
  simpleEntry ei_sjis 1 (by decide) (M.simple _ sjis_good) (W.senc _ sjis_wgood)
/-- The registered encoding `cp932` (`lib/encodings.h.snippet:214-218`). -/
def cp932_entry : Entry :=
  simpleEntry ei_cp932 1 (by decide) (M.simple _ cp932_good) (W.senc _ cp932_wgood)
/-- `cp943_mbtowc` and `cp943_wctomb` are macros for the functions of CP932
(`lib/converters/cp943.h:33-34`). -/
def cp943_entry : Entry :=
  simpleEntry ei_cp943 1 (by decide) (M.simple _ cp932_good) (W.senc _ cp932_wgood)
/-- The registered encoding `dec_kanji` (`lib/encodings.h.snippet:386-388`). -/
def dec_kanji_entry : Entry :=
  simpleEntry ei_dec_kanji 1 (by decide) (M.simple _ dec_kanji_good) (W.senc _ dec_kanji_wgood)

end Reiconv
