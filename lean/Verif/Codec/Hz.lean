import Verif.Codec.Stateful
import Verif.Codec.Kr
import Verif.Codec.Jp
import Verif.Codec.Cn
import Verif.Codec.Tw

/-!
# Encodings with shift states: HZ, ISO-2022-KR, ISO-2022-CN, ISO-2022-JP, ISO-2022-JP-1

The states are numbers as in the code; `&`, `>>`, `<<`, `|` on them are written as arithmetic:
`state & 0xff` is `st % 256`, `(state >> 8) & 0xff` is `st / 256 % 256`, `(state2 << 8) | state1` is
`s1 + 256 * s2`.
-/

namespace Reiconv

/-! ## HZ -/

/-- The loop body of `hz_mbtowc` and what follows the loop (`lib/converters/hz.h:44-112`). -/
def hz_item (st : Nat) : M SItem :=
  .byte 0 fun c =>
    if c = 0x7e then
      .need 2 <| .byte 1 fun c =>
        if st = 0 then
          if c = 0x7e then .ret (.char 0x7e 2 st)
          else if c = 0x7b then .ret (.shift 2 1)
          else if c = 0x0a then .ret (.shift 2 st)
          else .ret .ilseq
        else
          if c = 0x7d then .ret (.shift 2 0)
          else .ret .ilseq
    else if st = 0 then .ret (.char c 1 st)
    else
      .need 2 <| .byte 1 fun c2 => sTwo gb2312_dec.mbtowc c c2 fun wc => .ret (.char wc 2 st)

/-- `hz_mbtowc` (`lib/converters/hz.h:39-121`). -/
def hz_decoder : Decoder where
  mbtowc := sdecode hz_item
  flushwc := none

/-- `hz_wctomb` (`lib/converters/hz.h:123-179`). -/
def hz_wctomb (st wc : Nat) : SW :=
  .try1 (ascii_w wc) (fun b => b < 0x80)
    (fun b => .room (if st ≠ 0 then 3 else 1) <|
      .put ((if st ≠ 0 then [0x7e, 0x7d] else []) ++ [b]) 0) <|
  .try2 (gb2312_enc.wctomb wc)
    (fun b0 b1 => .room (if st ≠ 0 then 2 else 4) <|
      .put ((if st ≠ 0 then [] else [0x7e, 0x7b]) ++ [b0, b1]) (if st ≠ 0 then st else 1))
  .iluni

/-- The bytes of `hz_reset` (`lib/converters/hz.h:181-195`). -/
def hz_reset (st : Nat) : List Nat := if st ≠ 0 then [0x7e, 0x7d] else []

/-- The functions `hz_wctomb` (`lib/converters/hz.h:123-179`), `hz_reset` (`lib/converters/hz.h:181-195`). -/
def hz_encoder : Encoder := sencoder hz_wctomb hz_reset

/-! ## ISO-2022-KR -/

/-- The loop body of `iso2022_kr_mbtowc` and what follows the loop (`lib/converters/iso2022_kr.h:65-150`). -/
def iso2022_kr_item (st : Nat) : M SItem :=
  .byte 0 fun c =>
    if c = 0x1b then
      .need 4 <| .byte 1 fun c1 => .byte 2 fun c2 => .byte 3 fun c3 =>
        if c1 = 0x24 ∧ c2 = 0x29 ∧ c3 = 0x43 then .ret (.shift 4 (st % 256 + 256 * 1))
        else .ret .ilseq
    else if c = 0x0e then
      if st / 256 ≠ 1 then .ret .ilseq else .ret (.shift 1 (1 + 256 * (st / 256)))
    else if c = 0x0f then .ret (.shift 1 (0 + 256 * (st / 256)))
    else if st % 256 = 0 then
      if c < 0x80 then sOne ascii_m c fun wc => .ret (.char wc 1 (st % 256 + 256 * (st / 256)))
      else .ret .ilseq
    else if st % 256 = 1 then
      .need 2 <|
        if st / 256 ≠ 1 then .abort
        else sPair ksc5601_mbtowc (st % 256 + 256 * (st / 256))
    else .abort

/-- `iso2022_kr_mbtowc` (`lib/converters/iso2022_kr.h:59-162`). -/
def iso2022_kr_decoder : Decoder where
  mbtowc := sdecode iso2022_kr_item
  flushwc := none

/-- `iso2022_kr_wctomb` (`lib/converters/iso2022_kr.h:164-232`). -/
def iso2022_kr_wctomb (st wc : Nat) : SW :=
  .try1 (ascii_w wc) (fun b => b < 0x80)
    (fun b => .room (if st % 256 = 0 then 1 else 2) <|
      .put ((if st % 256 ≠ 0 then [0x0f] else []) ++ [b])
        (0 + 256 * (if wc = 0x0a ∨ wc = 0x0d then 0 else st / 256))) <|
  .try2 (ksc5601_wctomb wc)
    (fun b0 b1 => .room ((if st / 256 = 1 then 0 else 4) + (if st % 256 = 1 then 0 else 1) + 2) <|
      .put ((if st / 256 ≠ 1 then [0x1b, 0x24, 0x29, 0x43] else []) ++ (if st % 256 ≠ 1 then [0x0e] else []) ++ [b0, b1])
        (1 + 256 * 1))
  .iluni

/-- The bytes of `iso2022_kr_reset` (`lib/converters/iso2022_kr.h:234-249`). -/
def iso2022_kr_reset (st : Nat) : List Nat := if st % 256 ≠ 0 then [0x0f] else []

/-- The functions `iso2022_kr_wctomb` (`lib/converters/iso2022_kr.h:164-232`), `iso2022_kr_reset`
(`lib/converters/iso2022_kr.h:234-249`). -/
def iso2022_kr_encoder : Encoder := sencoder iso2022_kr_wctomb iso2022_kr_reset

/-! ## ISO-2022-CN -/

/-- `COMBINE_STATE` (`lib/converters/iso2022_cn.h:60`). -/
def cnSt (s1 s2 s3 : Nat) : Nat := s1 + 256 * s2 + 65536 * s3

/-- The loop body of `iso2022_cn_mbtowc` and what follows the loop (`lib/converters/iso2022_cn.h:68-210`). -/
def iso2022_cn_item (st : Nat) : M SItem :=
  let s1 := st % 256
  let s2 := st / 256 % 256
  let s3 := st / 65536
  .byte 0 fun c =>
    if c = 0x1b then
      .need 4 <| .byte 1 fun c1 => .byte 2 fun c2 => .byte 3 fun c3 =>
        if c1 = 0x24 ∧ c2 = 0x29 ∧ c3 = 0x41 then .ret (.shift 4 (cnSt s1 1 s3))
        else if c1 = 0x24 ∧ c2 = 0x29 ∧ c3 = 0x47 then .ret (.shift 4 (cnSt s1 2 s3))
        else if c1 = 0x24 ∧ c2 = 0x2a ∧ c3 = 0x48 then .ret (.shift 4 (cnSt s1 s2 1))
        else if c1 = 0x4e then
          if s3 = 0 then .ret .ilseq
          else if s3 = 1 then
            if c2 < 0x80 ∧ c3 < 0x80 then
              sTwo cns11643_2_dec.mbtowc c2 c3 fun wc => .ret (.char wc 4 (cnSt s1 s2 s3))
            else .ret .ilseq
          else .abort
        else .ret .ilseq
    else if c = 0x0e then
      if s2 ≠ 1 ∧ s2 ≠ 2 then .ret .ilseq else .ret (.shift 1 (cnSt 1 s2 s3))
    else if c = 0x0f then .ret (.shift 1 (cnSt 0 s2 s3))
    else if s1 = 0 then
      if c < 0x80 then sOne ascii_m c fun wc =>
        .ret (.char wc 1 (if wc = 0x0a ∨ wc = 0x0d then cnSt s1 0 0 else cnSt s1 s2 s3))
      else .ret .ilseq
    else if s1 = 1 then
      .need 2 <| .byte 1 fun c2 =>
        if c < 0x80 ∧ c2 < 0x80 then
          if s2 = 0 then .ret .ilseq
          else if s2 = 1 then sTwo gb2312_dec.mbtowc c c2 fun wc => .ret (.char wc 2 (cnSt s1 s2 s3))
          else if s2 = 2 then sTwo cns11643_1_dec.mbtowc c c2 fun wc => .ret (.char wc 2 (cnSt s1 s2 s3))
          else .abort
        else .ret .ilseq
    else .abort

/-- `iso2022_cn_mbtowc` (`lib/converters/iso2022_cn.h:62-222`). -/
def iso2022_cn_decoder : Decoder where
  mbtowc := sdecode iso2022_cn_item
  flushwc := none

/-- A call `ret = cns11643_wctomb(conv, buf, wc, 3)`: `if (ret != RET_ILUNI) { if (ret != 3) abort(); …`; what
follows is `found buf[0] buf[1] buf[2]`. -/
def SW.try3 (w : W) (found : Nat → Nat → Nat → SW) (rest : SW) : SW :=
  SW.on w 3 fun ret buf =>
    if ret ≠ RET_ILUNI then
      if ret ≠ 3 then .abort
      else found (bufAt buf 0) (bufAt buf 1) (bufAt buf 2)
    else rest

/-- `iso2022_cn_wctomb` (`lib/converters/iso2022_cn.h:224-357`). -/
def iso2022_cn_wctomb (st wc : Nat) : SW :=
  let s1 := st % 256
  let s2 := st / 256 % 256
  let s3 := st / 65536
  .try1 (ascii_w wc) (fun b => b < 0x80)
    (fun b => .room (if s1 = 0 then 1 else 2) <|
      .put ((if s1 ≠ 0 then [0x0f] else []) ++ [b])
        (if wc = 0x0a ∨ wc = 0x0d then cnSt 0 0 0 else cnSt 0 s2 s3)) <|
  .try2 (gb2312_enc.wctomb wc)
    (fun b0 b1 => .room ((if s2 = 1 then 0 else 4) + (if s1 = 1 then 0 else 1) + 2) <|
      .put ((if s2 ≠ 1 then [0x1b, 0x24, 0x29, 0x41] else []) ++ (if s1 ≠ 1 then [0x0e] else []) ++ [b0, b1])
        (cnSt 1 1 s3)) <|
  .try3 (cns11643_inv_enc.wctomb3 wc)
    (fun b0 b1 b2 =>
      if b0 = 1 ∧ b1 < 0x80 ∧ b2 < 0x80 then
        .room ((if s2 = 2 then 0 else 4) + (if s1 = 1 then 0 else 1) + 2) <|
        .put ((if s2 ≠ 2 then [0x1b, 0x24, 0x29, 0x47] else []) ++ (if s1 ≠ 1 then [0x0e] else []) ++ [b1, b2])
          (cnSt 1 2 s3)
      else if b0 = 2 ∧ b1 < 0x80 ∧ b2 < 0x80 then
        .room ((if s3 = 1 then 0 else 4) + 4) <|
        .put ((if s3 ≠ 1 then [0x1b, 0x24, 0x2a, 0x48] else []) ++ [0x1b, 0x4e, b1, b2]) (cnSt s1 s2 1)
      else .iluni)
  .iluni

/-- The bytes of `iso2022_cn_reset` (`lib/converters/iso2022_cn.h:359-375`). -/
def iso2022_cn_reset (st : Nat) : List Nat := if st % 256 ≠ 0 then [0x0f] else []

/-- The functions `iso2022_cn_wctomb` (`lib/converters/iso2022_cn.h:224-357`), `iso2022_cn_reset`
(`lib/converters/iso2022_cn.h:359-375`). -/
def iso2022_cn_encoder : Encoder := sencoder iso2022_cn_wctomb iso2022_cn_reset

/-! ## ISO-2022-JP and ISO-2022-JP-1 -/

/-- The loop body of `iso2022_jp_mbtowc` and what follows the loop (`lib/converters/iso2022_jp.h:51-142`). -/
def iso2022_jp_item (st : Nat) : M SItem :=
  .byte 0 fun c =>
    if c = 0x1b then
      .need 3 <| .byte 1 fun c1 => .byte 2 fun c2 =>
        if c1 = 0x28 then
          if c2 = 0x42 then .ret (.shift 3 0)
          else if c2 = 0x4a then .ret (.shift 3 1)
          else .ret .ilseq
        else if c1 = 0x24 then
          if c2 = 0x40 ∨ c2 = 0x42 then .ret (.shift 3 2)
          else .ret .ilseq
        else .ret .ilseq
    else if st = 0 then
      if c < 0x80 then sOne ascii_m c fun wc => .ret (.char wc 1 st) else .ret .ilseq
    else if st = 1 then
      if c < 0x80 then sOne jisx0201_m c fun wc => .ret (.char wc 1 st) else .ret .ilseq
    else if st = 2 then sPair jisx0208_dec.mbtowc st
    else .abort

/-- `iso2022_jp_mbtowc` (`lib/converters/iso2022_jp.h:46-152`). -/
def iso2022_jp_decoder : Decoder where
  mbtowc := sdecode iso2022_jp_item
  flushwc := none

/-- A character of one byte from a set designated to G0 by `ESC ( f` (state `k`):
`int count = (state == k ? 1 : 4); …`. -/
def jpOne (st k f b : Nat) : SW :=
  .room (if st = k then 1 else 4) <|
    .put ((if st ≠ k then [0x1b, 0x28, f] else []) ++ [b]) k

/-- A character of two bytes from a set designated to G0 by the bytes `esc` (state `k`). -/
def jpTwo (st k : Nat) (esc : List Nat) (count : Nat) (b0 b1 : Nat) : SW :=
  .room (if st = k then 2 else count) <|
    .put ((if st ≠ k then esc else []) ++ [b0, b1]) k

/-- `iso2022_jp_wctomb` (`lib/converters/iso2022_jp.h:154-237`). -/
def iso2022_jp_wctomb (st wc : Nat) : SW :=
  .try1 (ascii_w wc) (fun b => b < 0x80) (jpOne st 0 0x42) <|
  .try1 (jisx0201_w wc) (fun b => b < 0x80) (jpOne st 1 0x4a) <|
  .try2 (jisx0208_enc.wctomb wc) (jpTwo st 2 [0x1b, 0x24, 0x42] 5)
  .iluni

/-- The bytes of `iso2022_jp_reset` (`lib/converters/iso2022_jp.h:239-254`) and `iso2022_jp1_reset`
(`lib/converters/iso2022_jp1.h:296-311`). -/
def iso2022_jp_reset (st : Nat) : List Nat := if st ≠ 0 then [0x1b, 0x28, 0x42] else []

/-- The functions `iso2022_jp_wctomb` (`lib/converters/iso2022_jp.h:154-237`), `iso2022_jp_reset`
(`lib/converters/iso2022_jp.h:239-254`). -/
def iso2022_jp_encoder : Encoder := sencoder iso2022_jp_wctomb iso2022_jp_reset

/-- The loop body of `iso2022_jp1_mbtowc` and what follows the loop (`lib/converters/iso2022_jp1.h:52-172`). -/
def iso2022_jp1_item (st : Nat) : M SItem :=
  .byte 0 fun c =>
    if c = 0x1b then
      .need 3 <| .byte 1 fun c1 => .byte 2 fun c2 =>
        if c1 = 0x28 then
          if c2 = 0x42 then .ret (.shift 3 0)
          else if c2 = 0x4a then .ret (.shift 3 1)
          else .ret .ilseq
        else if c1 = 0x24 then
          if c2 = 0x40 ∨ c2 = 0x42 then .ret (.shift 3 2)
          else if c2 = 0x28 then
            .need 4 <| .byte 3 fun c3 =>
              if c3 = 0x44 then .ret (.shift 4 3) else .ret .ilseq
          else .ret .ilseq
        else .ret .ilseq
    else if st = 0 then
      if c < 0x80 then sOne ascii_m c fun wc => .ret (.char wc 1 st) else .ret .ilseq
    else if st = 1 then
      if c < 0x80 then sOne jisx0201_m c fun wc => .ret (.char wc 1 st) else .ret .ilseq
    else if st = 2 then sPair jisx0208_dec.mbtowc st
    else if st = 3 then sPair jisx0212_dec.mbtowc st
    else .abort

/-- `iso2022_jp1_mbtowc` (`lib/converters/iso2022_jp1.h:47-182`). -/
def iso2022_jp1_decoder : Decoder where
  mbtowc := sdecode iso2022_jp1_item
  flushwc := none

/-- `iso2022_jp1_wctomb` (`lib/converters/iso2022_jp1.h:184-294`). -/
def iso2022_jp1_wctomb (st wc : Nat) : SW :=
  .try1 (ascii_w wc) (fun b => b < 0x80) (jpOne st 0 0x42) <|
  .try1 (jisx0201_w wc) (fun b => b < 0x80) (jpOne st 1 0x4a) <|
  .try2 (jisx0208_enc.wctomb wc) (jpTwo st 2 [0x1b, 0x24, 0x42] 5) <|
  .try2 (jisx0212_enc.wctomb wc) (jpTwo st 3 [0x1b, 0x24, 0x28, 0x44] 6)
  .iluni

/-- The functions `iso2022_jp1_wctomb` (`lib/converters/iso2022_jp1.h:184-294`), `iso2022_jp1_reset`
(`lib/converters/iso2022_jp1.h:296-311`). -/
def iso2022_jp1_encoder : Encoder := sencoder iso2022_jp1_wctomb iso2022_jp_reset

/-! ## No undefined behaviour -/

theorem gb2312_m2 : M.Two gb2312_dec.mbtowc := CsDec.two gb2312_dec_safe
theorem ksc5601_m2 : M.Two ksc5601_mbtowc := CsDec.two ksc5601_dec_safe
theorem jisx0208_m2 : M.Two jisx0208_dec.mbtowc := CsDec.two jisx0208_dec_safe
theorem jisx0212_m2 : M.Two jisx0212_dec.mbtowc := CsDec.two jisx0212_dec_safe
theorem cns11643_1_m2 : M.Two cns11643_1_dec.mbtowc := CsDec.two cns11643_1_dec_safe
theorem cns11643_2_m2 : M.Two cns11643_2_dec.mbtowc := CsDec.two cns11643_2_dec_safe
theorem gb2312_w2 (wc : Nat) : W.Two (gb2312_enc.wctomb wc) := CsEnc.two gb2312_enc_safe wc
theorem ksc5601_w2 (wc : Nat) : W.Two (ksc5601_wctomb wc) := CsEnc.two ksc5601_enc_safe wc
theorem jisx0208_w2 (wc : Nat) : W.Two (jisx0208_enc.wctomb wc) := CsEnc.two jisx0208_enc_safe wc
theorem jisx0212_w2 (wc : Nat) : W.Two (jisx0212_enc.wctomb wc) := CsEnc.two jisx0212_enc_safe wc
theorem cns11643_w3 (wc : Nat) : W.Three (cns11643_inv_enc.wctomb3 wc) := CsEnc.three cns11643_inv_enc_safe wc

theorem itemOK_char {I : Nat → Prop} {pend : Nat → Bool} {st j wc n st' : Nat} (h : I st') (h1 : 1 ≤ n) (h2 : n ≤ j) :
    ItemOK I pend st j (.char wc n st') := ⟨h, h2, by omega⟩

theorem itemOK_shift {I : Nat → Prop} {pend : Nat → Bool} {st j n st' : Nat} (h : I st') (h1 : 1 ≤ n) (h2 : n ≤ j) :
    ItemOK I pend st j (.shift n st') := ⟨h, h2, by omega⟩

theorem itemOK_ilseq {I : Nat → Prop} {pend : Nat → Bool} {st j : Nat} (h : 1 ≤ j) :
    ItemOK I pend st j .ilseq := h

theorem SW.good_try3 {I : Nat → Prop} {k : Nat} {w : W} {found : Nat → Nat → Nat → SW}
    {rest : SW} (h : W.Three w) (h1 : ∀ a b c, a < 256 → b < 256 → c < 256 → SW.Good I k (found a b c)) (h2 : SW.Good I k rest) :
    SW.Good I k (SW.try3 w found rest) := by
  unfold SW.try3 SW.on
  rcases h with h | ⟨a, b, c, h⟩
  · rw [h]; exact h2
  · rw [h]; exact h1 a.toNat b.toNat c.toNat (UInt8.toNat_lt _) (UInt8.toNat_lt _) (UInt8.toNat_lt _)

macro "sitem" I:ident : tactic => `(tactic| all_goals first
  | omega
  | exact absurd rfl ‹_›
  | (exfalso; unfold $I at *; omega)
  | (refine itemOK_char ?_ (by omega) (by omega); unfold $I at *; first | omega | (split <;> omega))
  | (refine itemOK_shift ?_ (by omega) (by omega); unfold $I at *; omega)
  | exact itemOK_ilseq (by omega)
  | (unfold $I at *; omega))

macro "swput" I:ident : tactic => `(tactic| all_goals first
  | omega
  | (repeat' split) <;> first
    | (refine SW.good_put ?_ (by simp) (by simp; try omega) (by omega); unfold $I at *; omega)
    | omega)

/-- The values of the state that occur. -/
def hzI (st : Nat) : Prop := st ≤ 1

/-- Proof that `hz_decoder` satisfies the contract `StDec`. -/
def hz_dec : StDec hz_decoder where
  item := hz_item
  I := hzI
  pend := fun _ => false
  eq := rfl
  init := by unfold hzI; omega
  good := by
    intro st hI
    have h2 := gb2312_m2
    unfold hz_item
    sgood
    sitem hzI
  flush_ok := by intro f hf; cases hf

/-- Proof that `hz_encoder` satisfies the contract `StEnc`. -/
def hz_enc : StEnc hz_encoder := SW.toSt (I := hzI) (by unfold hzI; omega)
  (by
    intro st wc hI
    have h1 := ascii_wOne
    have h2 := gb2312_w2
    unfold hz_wctomb
    swgood
    swput hzI)
  (by intro st _; unfold hz_reset; split <;> simp)

/-- The values of the state that occur. -/
def krI (st : Nat) : Prop := st % 256 ≤ 1 ∧ st / 256 ≤ 1 ∧ (st % 256 = 1 → st / 256 = 1)

/-- Proof that `iso2022_kr_decoder` satisfies the contract `StDec`. -/
def iso2022_kr_dec : StDec iso2022_kr_decoder where
  item := iso2022_kr_item
  I := krI
  pend := fun _ => false
  eq := rfl
  init := by unfold krI; omega
  good := by
    intro st hI
    have h2 := ksc5601_m2
    have h1 := ascii_one
    unfold iso2022_kr_item
    sgood
    sitem krI
  flush_ok := by intro f hf; cases hf

/-- Proof that `iso2022_kr_encoder` satisfies the contract `StEnc`. -/
def iso2022_kr_enc : StEnc iso2022_kr_encoder := SW.toSt (I := krI) (by unfold krI; omega)
  (by
    intro st wc hI
    have h1 := ascii_wOne
    have h2 := ksc5601_w2
    unfold iso2022_kr_wctomb
    swgood
    swput krI)
  (by intro st _; unfold iso2022_kr_reset; split <;> simp)

/-- The values of the state that occur. -/
def cnI (st : Nat) : Prop := st % 256 ≤ 1 ∧ st / 256 % 256 ≤ 2 ∧ st / 65536 ≤ 1

theorem cnI_cnSt {s1 s2 s3 : Nat} (h1 : s1 ≤ 1) (h2 : s2 ≤ 2) (h3 : s3 ≤ 1) : cnI (cnSt s1 s2 s3) := by
  unfold cnI cnSt; omega

/-- Proof that `iso2022_cn_decoder` satisfies the contract `StDec`. -/
def iso2022_cn_dec : StDec iso2022_cn_decoder where
  item := iso2022_cn_item
  I := cnI
  pend := fun _ => false
  eq := rfl
  init := by unfold cnI; omega
  good := by
    intro st hI
    have h1 := ascii_one
    have h2 := gb2312_m2
    have h3 := cns11643_1_m2
    have h4 := cns11643_2_m2
    have hc : ∀ {s1 s2 s3}, s1 ≤ 1 → s2 ≤ 2 → s3 ≤ 1 → cnI (cnSt s1 s2 s3) := cnI_cnSt
    unfold iso2022_cn_item
    obtain ⟨i1, i2, i3⟩ := hI
    generalize st % 256 = s1 at *
    generalize st / 256 % 256 = s2 at *
    generalize st / 65536 = s3 at *
    sgood
    all_goals first
      | omega
      | (refine itemOK_char ?_ (by omega) (by omega); first
          | exact hc (by omega) (by omega) (by omega)
          | (split <;> exact hc (by omega) (by omega) (by omega)))
      | (refine itemOK_shift (hc ?_ ?_ ?_) (by omega) (by omega) <;> omega)
      | exact itemOK_ilseq (by omega)
      | skip
  flush_ok := by intro f hf; cases hf

theorem cn_put {s1 s2 s3 k : Nat} {bs : List Nat} (h1 : s1 ≤ 1) (h2 : s2 ≤ 2) (h3 : s3 ≤ 1) (hb : bs ≠ [])
    (hl : bs.length = k) (hk : k ≤ 64) : SW.Good cnI k (.put bs (cnSt s1 s2 s3)) :=
  SW.good_put (cnI_cnSt h1 h2 h3) hb hl hk

/-- Proof that `iso2022_cn_encoder` satisfies the contract `StEnc`. -/
def iso2022_cn_enc : StEnc iso2022_cn_encoder := SW.toSt (I := cnI) (by unfold cnI; omega)
  (by
    intro st wc hI
    have h1 := ascii_wOne
    have h2 := gb2312_w2
    have h3 := cns11643_w3 wc
    unfold iso2022_cn_wctomb
    obtain ⟨i1, i2, i3⟩ := hI
    generalize st % 256 = s1 at *
    generalize st / 256 % 256 = s2 at *
    generalize st / 65536 = s3 at *
    dsimp only
    refine SW.good_try1 (h1 wc) ?_ (SW.good_try2 (h2 wc) ?_ (SW.good_try3 h3 ?_ ?_))
    all_goals swgood
    all_goals first
      | omega
      | ((repeat' split) <;> first
        | (refine cn_put (by omega) (by omega) (by omega) (by simp) (by simp; try omega) (by omega))
        | omega))
  (by intro st _; unfold iso2022_cn_reset; split <;> simp)

/-- The values of the state that occur. -/
def jpI (st : Nat) : Prop := st ≤ 2

/-- Proof that `iso2022_jp_decoder` satisfies the contract `StDec`. -/
def iso2022_jp_dec : StDec iso2022_jp_decoder where
  item := iso2022_jp_item
  I := jpI
  pend := fun _ => false
  eq := rfl
  init := by unfold jpI; omega
  good := by
    intro st hI
    have h1 := ascii_one
    have h2 := jisx0201_m_one
    have h3 := jisx0208_m2
    unfold iso2022_jp_item
    sgood
    sitem jpI
  flush_ok := by intro f hf; cases hf

theorem good_jpOne {I : Nat → Prop} {st k f b : Nat} (h : I k) : SW.Good I 0 (jpOne st k f b) := by
  unfold jpOne
  refine SW.good_room ?_
  by_cases hs : st = k
  · rw [if_pos hs, if_neg (by omega)]
    exact SW.good_put h (by simp) (by simp) (by simp)
  · rw [if_neg hs, if_pos hs]
    exact SW.good_put h (by simp) (by simp) (by simp)

theorem good_jpTwo {I : Nat → Prop} {st k count b0 b1 : Nat} {esc : List Nat} (h : I k)
    (hc : count = esc.length + 2) (h64 : count ≤ 64) : SW.Good I 0 (jpTwo st k esc count b0 b1) := by
  unfold jpTwo
  refine SW.good_room ?_
  by_cases hs : st = k
  · rw [if_pos hs, if_neg (by omega)]
    exact SW.good_put h (by simp) (by simp) (by simp)
  · rw [if_neg hs, if_pos hs]
    exact SW.good_put h (by simp) (by simp; omega) (by simp; omega)

/-- Proof that `iso2022_jp_encoder` satisfies the contract `StEnc`. -/
def iso2022_jp_enc : StEnc iso2022_jp_encoder := SW.toSt (I := jpI) (by unfold jpI; omega)
  (by
    intro st wc hI
    unfold iso2022_jp_wctomb
    refine SW.good_try1 (ascii_wOne wc) (fun a _ _ => good_jpOne (by unfold jpI; omega)) ?_
    refine SW.good_try1 (jisx0201_w_one wc) (fun a _ _ => good_jpOne (by unfold jpI; omega)) ?_
    refine SW.good_try2 (jisx0208_w2 wc) (fun a b _ _ => good_jpTwo (by unfold jpI; omega) rfl (by omega)) ?_
    exact SW.good_iluni (by omega))
  (by intro st _; unfold iso2022_jp_reset; split <;> simp)

/-- The values of the state that occur. -/
def jp1I (st : Nat) : Prop := st ≤ 3

/-- Proof that `iso2022_jp1_decoder` satisfies the contract `StDec`. -/
def iso2022_jp1_dec : StDec iso2022_jp1_decoder where
  item := iso2022_jp1_item
  I := jp1I
  pend := fun _ => false
  eq := rfl
  init := by unfold jp1I; omega
  good := by
    intro st hI
    have h1 := ascii_one
    have h2 := jisx0201_m_one
    have h3 := jisx0208_m2
    have h4 := jisx0212_m2
    unfold iso2022_jp1_item
    sgood
    sitem jp1I
  flush_ok := by intro f hf; cases hf

/-- Proof that `iso2022_jp1_encoder` satisfies the contract `StEnc`. -/
def iso2022_jp1_enc : StEnc iso2022_jp1_encoder := SW.toSt (I := jp1I) (by unfold jp1I; omega)
  (by
    intro st wc hI
    unfold iso2022_jp1_wctomb
    refine SW.good_try1 (ascii_wOne wc) (fun a _ _ => good_jpOne (by unfold jp1I; omega)) ?_
    refine SW.good_try1 (jisx0201_w_one wc) (fun a _ _ => good_jpOne (by unfold jp1I; omega)) ?_
    refine SW.good_try2 (jisx0208_w2 wc) (fun a b _ _ => good_jpTwo (by unfold jp1I; omega) rfl (by omega)) ?_
    refine SW.good_try2 (jisx0212_w2 wc) (fun a b _ _ => good_jpTwo (by unfold jp1I; omega) rfl (by omega)) ?_
    exact SW.good_iluni (by omega))
  (by intro st _; unfold iso2022_jp_reset; split <;> simp)

/-! ## Entries -/

/-- The registered encoding `hz` (`lib/encodings.h.snippet:302-307`). -/
def hz_entry : Entry := stEntry ei_hz rfl hz_dec hz_enc
/-- The registered encoding `iso2022_kr` (`lib/encodings.h.snippet:378-383`). -/
def iso2022_kr_entry : Entry := stEntry ei_iso2022_kr rfl iso2022_kr_dec iso2022_kr_enc
/-- The registered encoding `iso2022_cn` (`lib/encodings.h.snippet:288-294`). -/
def iso2022_cn_entry : Entry := stEntry ei_iso2022_cn rfl iso2022_cn_dec iso2022_cn_enc
/-- The registered encoding `iso2022_jp` (`lib/encodings.h.snippet:221-228`). -/
def iso2022_jp_entry : Entry := stEntry ei_iso2022_jp rfl iso2022_jp_dec iso2022_jp_enc
/-- The registered encoding `iso2022_jp1` (`lib/encodings.h.snippet:232-234`). -/
def iso2022_jp1_entry : Entry := stEntry ei_iso2022_jp1 rfl iso2022_jp1_dec iso2022_jp1_enc

end Reiconv
