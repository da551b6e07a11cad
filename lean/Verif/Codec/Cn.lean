import Verif.Gen.CsCn
import Verif.Gen.CsGb
import Verif.Codec.Fast
import Verif.Entry

/-!
# Encodings of mainland China: EUC-CN, GBK, CP936, GB18030
-/

namespace Reiconv

/-- `gb2312_mbtowc` (`lib/converters/gb2312.h:1086-1119`). -/
abbrev gb2312_mbtowc : M MbRet := gb2312_dec.mbtowc
/-- `gb2312_wctomb` (`lib/converters/gb2312.h:2545-2585`). -/
abbrev gb2312_wctomb : Nat → W := gb2312_enc.wctomb
/-- `cp936ext_mbtowc` (`lib/converters/cp936ext.h:42-75`). -/
abbrev cp936ext_mbtowc : M MbRet := cp936ext_dec.mbtowc
/-- `cp936ext_wctomb` (`lib/converters/cp936ext.h:92-112`). -/
abbrev cp936ext_wctomb : Nat → W := cp936ext_enc.wctomb
/-- `gbkext1_mbtowc` (`lib/converters/gbkext1.h:833-860`). -/
abbrev gbkext1_mbtowc : M MbRet := gbkext1_dec.mbtowc
/-- `gbkext2_mbtowc` (`lib/converters/gbkext2.h:1154-1181`). -/
abbrev gbkext2_mbtowc : M MbRet := gbkext2_dec.mbtowc
/-- `gbkext_inv_wctomb` (`lib/converters/gbkext_inv.h:2307-2351`). -/
abbrev gbkext_inv_wctomb : Nat → W := gbkext_inv_enc.wctomb
/-- `gb18030_2005_ext_mbtowc` (`lib/converters/gb18030ext.h:67-169`). -/
abbrev gb18030_2005_ext_mbtowc : M MbRet := gb18030_2005_ext_dec.mbtowc
/-- `gb18030_2022_ext_mbtowc` (`lib/converters/gb18030ext.h:171-273`). -/
abbrev gb18030_2022_ext_mbtowc : M MbRet := gb18030_2022_ext_dec.mbtowc
/-- `gb18030ext_wctomb` (`lib/converters/gb18030ext.h:373-447`). -/
abbrev gb18030ext_wctomb : Nat → W := gb18030ext_enc.wctomb

/-! ## EUC-CN -/

/-- `euc_cn_mbtowc` (`lib/converters/euc_cn.h:34-59`). -/
def euc_cn_mbtowc : M MbRet :=
  .byte 0 fun c =>
    if c < 0x80 then ascii_m
    else if c ≥ 0xa1 ∧ c < 0xff then
      .need 2 <| .byte 1 fun c2 =>
        if c2 ≥ 0xa1 ∧ c2 < 0xff then
          gb2312_mbtowc.on [c - 0x80, c2 - 0x80] .ret
        else .ret (.ilseq 0)
    else .ret (.ilseq 0)

/-- `euc_cn_wctomb` (`lib/converters/euc_cn.h:61-85`). -/
def euc_cn_wctomb (wc : Nat) : W :=
  (ascii_w wc).orElse <|
  (gb2312_wctomb wc).on 2 fun ret buf =>
    if ret ≠ RET_ILUNI then
      if ret ≠ 2 then .abort
      else .room 2 <| .put [bufAt buf 0 + 0x80, bufAt buf 1 + 0x80]
    else .iluni

/-! ## GBK -/

/-- The end of `gbk_mbtowc` (`lib/converters/gbk.h:112-124`). -/
def gbk_tail (c : Nat) : M MbRet :=
  if c ≥ 0x81 ∧ c ≤ 0xa0 then gbkext1_mbtowc
  else if c ≥ 0xa8 ∧ c ≤ 0xfe then gbkext2_mbtowc
  else if c = 0xa2 then
    .byte 1 fun c2 =>
      if c2 ≥ 0xa1 ∧ c2 ≤ 0xaa then .ret (.char (0x2170 + (c2 - 0xa1)) 2) else .ret (.ilseq 0)
  else .ret (.ilseq 0)

/-- `gbk_mbtowc` (`lib/converters/gbk.h:71-126`). -/
def gbk_mbtowc : M MbRet :=
  .byte 0 fun c =>
    if c ≥ 0x81 ∧ c < 0xff then
      .need 2 <|
        if c ≥ 0xa1 ∧ c ≤ 0xf7 then
          .byte 1 fun c2 =>
            if c = 0xa1 ∧ c2 = 0xa4 then .ret (.char 0x00b7 2)
            else if c = 0xa1 ∧ c2 = 0xaa then .ret (.char 0x2014 2)
            else if c2 ≥ 0xa1 ∧ c2 < 0xff then
              gb2312_mbtowc.on [c - 0x80, c2 - 0x80] fun ret =>
                if ret.code ≠ RET_ILSEQ then .ret ret
                else
                  cp936ext_mbtowc.on [c, c2] fun ret =>
                    if ret.code ≠ RET_ILSEQ then .ret ret
                    else gbk_tail c
            else gbk_tail c
        else gbk_tail c
    else .ret (.ilseq 0)

/-- The end of `gbk_wctomb`, from `gbkext_inv_wctomb` on (`lib/converters/gbk.h:146-194`). -/
def gbk_rest (wc : Nat) : W :=
  (gbkext_inv_wctomb wc).on 2 fun ret buf =>
    if ret ≠ RET_ILUNI then
      if ret ≠ 2 then .abort
      else .room 2 <| .put [bufAt buf 0, bufAt buf 1]
    else if wc ≥ 0x2170 ∧ wc ≤ 0x2179 then
      .room 2 <| .put [0xa2, 0xa1 + (wc - 0x2170)]
    else
      (cp936ext_wctomb wc).on 2 fun ret buf =>
        if ret ≠ RET_ILUNI then
          if ret ≠ 2 then .abort
          else .room 2 <| .put [bufAt buf 0, bufAt buf 1]
        else if wc = 0x00b7 then .room 2 <| .put [0xa1, 0xa4]
        else if wc = 0x2014 then .room 2 <| .put [0xa1, 0xaa]
        else .iluni

/-- `gbk_wctomb` (`lib/converters/gbk.h:128-195`). -/
def gbk_wctomb (wc : Nat) : W :=
  if wc ≠ 0x30fb ∧ wc ≠ 0x2015 then
    (gb2312_wctomb wc).on 2 fun ret buf =>
      if ret ≠ RET_ILUNI then
        if ret ≠ 2 then .abort
        else .room 2 <| .put [bufAt buf 0 + 0x80, bufAt buf 1 + 0x80]
      else gbk_rest wc
  else gbk_rest wc

/-- `ces_gbk_mbtowc` (`lib/converters/ces_gbk.h:34-49`). -/
def ces_gbk_mbtowc : M MbRet :=
  .byte 0 fun c =>
    if c < 0x80 then ascii_m
    else if c ≥ 0x81 ∧ c < 0xff then .need 2 gbk_mbtowc
    else .ret (.ilseq 0)

/-- `ces_gbk_wctomb` (`lib/converters/ces_gbk.h:51-75`). -/
def ces_gbk_wctomb (wc : Nat) : W :=
  (ascii_w wc).orElse <|
  (gbk_wctomb wc).on 2 fun ret buf =>
    if ret ≠ RET_ILUNI then
      if ret ≠ 2 then .abort
      else .room 2 <| .put [bufAt buf 0, bufAt buf 1]
    else .iluni

/-! ## CP936 -/

/-- `cp936_mbtowc` (`lib/converters/cp936.h:56-101`). -/
def cp936_mbtowc : M MbRet :=
  ces_gbk_mbtowc.andThen fun ret =>
    if ret.code ≠ RET_ILSEQ then .ret ret
    else
      .byte 0 fun c =>
        if c = 0x80 then .ret (.char 0x20ac 1)
        else if c ≥ 0xa1 ∧ c ≤ 0xa2 then
          .need 2 <| .byte 1 fun c2 =>
            if (c2 ≥ 0x40 ∧ c2 < 0x7f) ∨ (c2 ≥ 0x80 ∧ c2 < 0xa1) then
              .ret (.char (0xe4c6 + 96 * (c - 0xa1) + (c2 - if c2 ≥ 0x80 then 0x41 else 0x40)) 2)
            else .ret (.ilseq 0)
        else if (c ≥ 0xaa ∧ c < 0xb0) ∨ (c ≥ 0xf8 ∧ c < 0xff) then
          .need 2 <| .byte 1 fun c2 =>
            if c2 ≥ 0xa1 ∧ c2 < 0xff then
              .ret (.char (0xe000 + 94 * (c - if c ≥ 0xf8 then 0xf2 else 0xaa) + (c2 - 0xa1)) 2)
            else .ret (.ilseq 0)
        else .ret (.ilseq 0)

/-- The end of `cp936_wctomb` (`lib/converters/cp936.h:112-141`). With less than two bytes of room it
returns `RET_TOOFEW(0)`, which has the value of `RET_TOOSMALL` (`lib/reiconv_defines.h`), so that the
model says `room`. -/
def cp936_rest (wc : Nat) : W :=
  if wc ≥ 0xe000 ∧ wc < 0xe586 then
    .room 2 <|
      if wc < 0xe4c6 then
        let c1 := (wc - 0xe000) / 94
        .put [c1 + (if c1 < 6 then 0xaa else 0xf2), (wc - 0xe000) % 94 + 0xa1]
      else
        let c2 := (wc - 0xe4c6) % 96
        .put [(wc - 0xe4c6) / 96 + 0xa1, c2 + (if c2 < 0x3f then 0x40 else 0x41)]
  else if wc = 0x20ac then .put [0x80]
  else .iluni

/-- `cp936_wctomb` (`lib/converters/cp936.h:103-142`). -/
def cp936_wctomb (wc : Nat) : W := (ces_gbk_wctomb wc).orElse (cp936_rest wc)

/-! ## Binary search -/

/-- What to do with the middle element. -/
inductive Dir where
  | left | right | stop

/-- The loop `while (k1 < k2) { k = (k1 + k2) / 2; … }` of the searches in `lib/converters/gb18030*.h`, where
`f k` says whether the body sets `k2 = k`, sets `k1 = k + 1`, or leaves the loop. Gives `(k, true)` if the
body left the loop and `(k1, false)` otherwise. `fuel` bounds the number of iterations. -/
def bsearch (f : Nat → Outcome Dir) : Nat → Nat → Nat → Outcome (Nat × Bool)
  | 0, _, _ => .diverge
  | fuel + 1, k1, k2 =>
    if k1 < k2 then
      match f ((k1 + k2) / 2) with
      | .ok .left => bsearch f fuel k1 ((k1 + k2) / 2)
      | .ok .right => bsearch f fuel ((k1 + k2) / 2 + 1) k2
      | .ok .stop => .ok ((k1 + k2) / 2, true)
      | .ub => .ub
      | .abort => .abort
      | .diverge => .diverge
    else .ok (k1, false)

theorem bsearch_ok {f : Nat → Outcome Dir} {b : Nat} (hf : ∀ k, k < b → ∃ d, f k = .ok d) :
    ∀ (fuel k1 k2 : Nat), k2 < k1 + fuel → k1 ≤ k2 → k2 ≤ b →
    ∃ k s, bsearch f fuel k1 k2 = .ok (k, s) ∧ k ≤ k2 ∧ (s = true → k < k2) := by
  intro fuel
  induction fuel with
  | zero => intro k1 k2 h h1; omega
  | succ n ih =>
    intro k1 k2 h h1 h2
    unfold bsearch
    by_cases hc : k1 < k2
    · rw [if_pos hc]
      obtain ⟨d, hd⟩ := hf ((k1 + k2) / 2) (by omega)
      rw [hd]
      cases d with
      | left =>
        obtain ⟨k, s, e, l, l2⟩ := ih k1 ((k1 + k2) / 2) (by omega) (by omega) (by omega)
        exact ⟨k, s, e, by omega, fun h => by have := l2 h; omega⟩
      | right =>
        obtain ⟨k, s, e, l, l2⟩ := ih ((k1 + k2) / 2 + 1) k2 (by omega) (by omega) (by omega)
        exact ⟨k, s, e, by omega, l2⟩
      | stop => exact ⟨_, _, rfl, by omega, fun _ => by omega⟩
    · rw [if_neg hc]; exact ⟨_, _, rfl, h1, fun h => by cases h⟩

/-- The result of a computation in a program. -/
def Outcome.inM {α β : Type} (o : Outcome α) (f : α → M β) : M β :=
  match o with
  | .ok a => f a
  | .abort => .abort
  | _ => .ub

/-- Run a computation that gives no bytes inside an encoder program. -/
def Outcome.inW {α : Type} (o : Outcome α) (f : α → W) : W :=
  match o with
  | .ok a => f a
  | .abort => .abort
  | _ => .ub

/-! ## GB18030 -/

/-- The body of the search for `i` in the table `t` of ranges (`lib/converters/gb18030uni.h:217-225`,
`290-298`, `355-363`, `423-431`). -/
def uniDir (t : Tab) (i k : Nat) : Outcome Dir :=
  (t.get (2 * k + 1)).bind fun e =>
    if i ≤ e then .ok .left
    else (t.get (2 * k + 2)).bind fun s => if i ≥ s then .ok .right else .ok .stop

/-- The test of four bytes common to the functions for GB18030 (`lib/converters/gb18030uni.h:185-205` and
`236-245`, `250-270` and `309-318`, `lib/converters/gb18030_2005.h:248-273` and `277-290`,
`lib/converters/gb18030_2022.h:94-119` and `123-136`): the first byte from `lo` to `hi`, then `f` of the
number `i`. -/
def gb4 (lo hi : Nat) (f : Nat → M MbRet) : M MbRet :=
  .byte 0 fun c1 =>
    if c1 ≥ lo ∧ c1 ≤ hi then
      .need 2 <| .byte 1 fun c2 =>
        if c2 ≥ 0x30 ∧ c2 ≤ 0x39 then
          .need 3 <| .byte 2 fun c3 =>
            if c3 ≥ 0x81 ∧ c3 ≤ 0xfe then
              .need 4 <| .byte 3 fun c4 =>
                if c4 ≥ 0x30 ∧ c4 ≤ 0x39 then
                  f ((((c1 - lo) * 10 + (c2 - 0x30)) * 126 + (c3 - 0x81)) * 10 + (c4 - 0x30))
                else .ret (.ilseq 0)
            else .ret (.ilseq 0)
        else .ret (.ilseq 0)
    else .ret (.ilseq 0)

/-- The search in `gb18030uni_charset2uni_ranges` (`lib/converters/gb18030uni.h:213-231`, `286-304`). -/
def gb_uni (i : Nat) : M MbRet :=
  (bsearch (uniDir gb18030uni_charset2uni_ranges i) 206 0 205).inM fun r =>
    if r.2 then .ret (.ilseq 0)
    else gb18030uni_ranges.rdM r.1 fun diff => .ret (.char (i + diff) 4)

/-- The character of the number `i` in `gb18030_2005_uni_mbtowc` (`lib/converters/gb18030uni.h:206-235`). -/
def gb2005_idx (i : Nat) : M MbRet :=
  if i ≤ 39419 then
    if i = 7457 then .ret (.char 0xe7c7 4)
    else gb_uni i
  else .ret (.ilseq 0)

/-- `gb18030_2005_uni_mbtowc` (`lib/converters/gb18030uni.h:183-246`). -/
def gb18030_2005_uni_mbtowc : M MbRet := gb4 0x81 0x84 gb2005_idx

/-- The character of the number `i` in `gb18030_2022_uni_mbtowc` (`lib/converters/gb18030uni.h:271-308`). -/
def gb2022_idx (i : Nat) : M MbRet :=
  if i ≤ 39419 then
    if i = 7457 then .ret (.char 0xe7c7 4)
    else if i ≥ 19057 ∧ i ≤ 19064 then
      gb18030_2022_charset2uni_pua1.rdM (i - 19057) fun wc => .ret (.char wc 4)
    else if i ≥ 39076 ∧ i ≤ 39085 then
      gb18030_2022_charset2uni_pua2.rdM (i - 39076) fun wc => .ret (.char wc 4)
    else gb_uni i
  else .ret (.ilseq 0)

/-- `gb18030_2022_uni_mbtowc` (`lib/converters/gb18030uni.h:248-319`). -/
def gb18030_2022_uni_mbtowc : M MbRet := gb4 0x81 0x84 gb2022_idx

/-- The four bytes for the number `i` (`lib/converters/gb18030uni.h:384-391`, `435-442`,
`lib/converters/gb18030_2005.h:424-431`, `lib/converters/gb18030_2022.h:246-253`). -/
def gbPut (lo i : Nat) : W :=
  .put [i / 10 / 126 / 10 + lo, i / 10 / 126 % 10 + 0x30, i / 10 % 126 + 0x81, i % 10 + 0x30]

/-- The search in `gb18030uni_uni2charset_ranges` (`lib/converters/gb18030uni.h:349-368`, `417-436`); the
subtraction is one of 32-bit numbers. -/
def gb_wuni (wc : Nat) : W :=
  (bsearch (uniDir gb18030uni_uni2charset_ranges wc) 206 0 205).inW fun r =>
    if r.2 then .iluni
    else gb18030uni_ranges.rdW r.1 fun diff => gbPut 0x81 ((wc + 4294967296 - diff) % 4294967296)

/-- `gb18030_2005_uni_wctomb` (`lib/converters/gb18030uni.h:334-395`). -/
def gb18030_2005_uni_wctomb (wc : Nat) : W :=
  .room 4 <|
    if wc ≥ 0x0080 ∧ wc ≤ 0xffff then
      if wc = 0xe7c7 then gbPut 0x81 7457
      else gb_wuni wc
    else if wc ≥ 0x20087 ∧ wc ≤ 0x241fe then
      if wc = 0x20087 then gbPut 0x81 0x3e2cf
      else if wc = 0x20089 then gbPut 0x81 0x3e2d1
      else if wc = 0x200cc then gbPut 0x81 0x3e314
      else if wc = 0x215d7 then gbPut 0x81 0x3f81f
      else if wc = 0x2298f then gbPut 0x81 0x40bd7
      else if wc = 0x241fe then gbPut 0x81 0x42446
      else .iluni
    else .iluni

/-- `gb18030_2022_uni_wctomb` (`lib/converters/gb18030uni.h:397-448`). -/
def gb18030_2022_uni_wctomb (wc : Nat) : W :=
  .room 4 <|
    if wc ≥ 0x0080 ∧ wc ≤ 0xffff then
      if wc = 0xe7c7 then gbPut 0x81 7457
      else if wc ≥ 0xe78d ∧ wc ≤ 0xe796 then
        gb18030_2022_uni2charset_pua2.rdW (wc - 0xe78d) fun v => gbPut 0x81 (39076 + v)
      else if wc ≥ 0xe81e ∧ wc ≤ 0xe864 then
        gb18030_2022_uni2charset_pua1.rdW (wc - 0xe81e) fun v =>
          if v ≠ 0 then gbPut 0x81 (19056 + v) else gb_wuni wc
      else gb_wuni wc
    else .iluni

/-- The user-defined characters in `gb18030_2005_mbtowc` (`lib/converters/gb18030_2005.h:211-244`) and
`gb18030_2022_mbtowc` (`lib/converters/gb18030_2022.h:57-90`), with `RET_ILSEQ` where the code goes on. -/
def gb_user : M MbRet :=
  .byte 0 fun c1 =>
    if (c1 ≥ 0xaa ∧ c1 ≤ 0xaf) ∨ (c1 ≥ 0xf8 ∧ c1 ≤ 0xfe) then
      .need 2 <| .byte 1 fun c2 =>
        if c2 ≥ 0xa1 ∧ c2 ≤ 0xfe then
          .ret (.char (0xe000 + 94 * (if c1 ≥ 0xf8 then c1 - 0xf2 else c1 - 0xaa) + (c2 - 0xa1)) 2)
        else .ret (.ilseq 0)
    else if c1 ≥ 0xa1 ∧ c1 ≤ 0xa7 then
      .need 2 <| .byte 1 fun c2 =>
        if c2 ≥ 0x40 ∧ c2 ≤ 0xa1 ∧ c2 ≠ 0x7f then
          .ret (.char (0xe4c6 + 96 * (c1 - 0xa1) + c2 - (if c2 ≥ 0x80 then 0x41 else 0x40)) 2)
        else .ret (.ilseq 0)
    else .ret (.ilseq 0)

/-- The characters outside the BMP (`lib/converters/gb18030_2005.h:246-290`,
`lib/converters/gb18030_2022.h:92-136`). -/
def gb_sup : M MbRet :=
  gb4 0x90 0xe3 fun i => if i < 0x100000 then .ret (.char (0x10000 + i) 4) else .ret (.ilseq 0)

/-- `gb18030_2005_mbtowc` up to the user-defined characters (`lib/converters/gb18030_2005.h:194-244`). -/
def gb18030_2005_bmp : M MbRet :=
  .byte 0 fun c =>
    if c < 0x80 then ascii_m
    else
      gbk_mbtowc.andThen fun ret =>
      if ret.code ≠ RET_ILSEQ then .ret ret
      else
        gb18030_2005_ext_mbtowc.andThen fun ret =>
        if ret.code ≠ RET_ILSEQ then .ret ret
        else
          gb18030_2005_uni_mbtowc.andThen fun ret =>
          if ret.code ≠ RET_ILSEQ then .ret ret
          else gb_user

/-- `gb18030_2005_mbtowc` (`lib/converters/gb18030_2005.h:194-291`). -/
def gb18030_2005_mbtowc : M MbRet :=
  gb18030_2005_bmp.andThen fun ret => if ret.code ≠ RET_ILSEQ then .ret ret else gb_sup

/-- `gb18030_2022_mbtowc` up to the user-defined characters (`lib/converters/gb18030_2022.h:40-90`). -/
def gb18030_2022_bmp : M MbRet :=
  .byte 0 fun c =>
    if c < 0x80 then ascii_m
    else
      gbk_mbtowc.andThen fun ret =>
      if ret.code ≠ RET_ILSEQ then .ret ret
      else
        gb18030_2022_ext_mbtowc.andThen fun ret =>
        if ret.code ≠ RET_ILSEQ then .ret ret
        else
          gb18030_2022_uni_mbtowc.andThen fun ret =>
          if ret.code ≠ RET_ILSEQ then .ret ret
          else gb_user

/-- `gb18030_2022_mbtowc` (`lib/converters/gb18030_2022.h:40-137`). -/
def gb18030_2022_mbtowc : M MbRet :=
  gb18030_2022_bmp.andThen fun ret => if ret.code ≠ RET_ILSEQ then .ret ret else gb_sup

/-- The user-defined characters below U+E766 (`lib/converters/gb18030_2005.h:357-375`,
`lib/converters/gb18030_2022.h:191-209`). -/
def gb_wuser (wc : Nat) : W :=
  if wc < 0xe4c6 then
    let i := (wc - 0xe000) / 94
    .put [if i < 6 then i + 0xaa else i + 0xf2, (wc - 0xe000) % 94 + 0xa1]
  else
    let i := (wc - 0xe4c6) % 96
    .put [(wc - 0xe4c6) / 96 + 0xa1, i + (if i ≥ 0x3f then 0x41 else 0x40)]

/-- The search in `gb18030_2005_pua2charset` (`lib/converters/gb18030_2005.h:381-386`). -/
def pua2005Dir (wc k : Nat) : Outcome Dir :=
  (gb18030_2005_pua_lo.get k).bind fun lo =>
    if wc < lo then .ok .left
    else (gb18030_2005_pua_hi.get k).bind fun hi => if wc > hi then .ok .right else .ok .stop

/-- The user-defined characters of `gb18030_2005_wctomb` from U+E766 on
(`lib/converters/gb18030_2005.h:377-406`), then `rest` if the character is not in the table. -/
def gb_pua2005 (wc : Nat) (rest : W) : W :=
  (bsearch (pua2005Dir wc) 36 0 35).inW fun r =>
    if r.2 then
      gb18030_2005_pua_charset.rdW r.1 fun cs => gb18030_2005_pua_lo.rdW r.1 fun lo =>
        let c := cs + (wc - lo)
        if c < 0x10000 then .put [c / 256, c % 256]
        else .put [c / 16777216, c / 65536 % 256, c / 256 % 256, c % 256]
    else rest

/-- The search in `gb18030_2022_pua2charset` (`lib/converters/gb18030_2022.h:215-220`). -/
def pua2022Dir (wc k : Nat) : Outcome Dir :=
  (gb18030_2022_pua2charset.get (k * 3 + 0)).bind fun lo =>
    if wc < lo then .ok .left
    else (gb18030_2022_pua2charset.get (k * 3 + 1)).bind fun hi => if wc > hi then .ok .right else .ok .stop

/-- The user-defined characters of `gb18030_2022_wctomb` from U+E766 on
(`lib/converters/gb18030_2022.h:211-229`), then `rest` if the character is not in the table. -/
def gb_pua2022 (wc : Nat) (rest : W) : W :=
  (bsearch (pua2022Dir wc) 24 0 23).inW fun r =>
    if r.2 then
      gb18030_2022_pua2charset.rdW (r.1 * 3 + 2) fun cs =>
      gb18030_2022_pua2charset.rdW (r.1 * 3 + 0) fun lo =>
        let c := (cs + (wc - lo)) % 65536
        .put [c / 256, c % 256]
    else rest

/-- The characters outside the BMP (`lib/converters/gb18030_2005.h:419-436`,
`lib/converters/gb18030_2022.h:241-258`). -/
def gb_wsup (wc : Nat) : W :=
  .room 4 <|
    if wc ≥ 0x10000 ∧ wc < 0x110000 then gbPut 0x90 (wc - 0x10000)
    else .iluni

/-- `gb18030_2005_wctomb` without its last part (`lib/converters/gb18030_2005.h:332-417`). -/
def gb18030_2005_wbmp (wc : Nat) : W :=
  (ascii_w wc).orElse <|
  (gbk_wctomb wc).orElse <|
  (gb18030ext_wctomb wc).orElse <|
  if wc ≥ 0xe000 ∧ wc ≤ 0xe864 then
    .room 2 <|
      if wc < 0xe766 then gb_wuser wc
      else gb_pua2005 wc (gb18030_2005_uni_wctomb wc)
  else gb18030_2005_uni_wctomb wc

/-- `gb18030_2005_wctomb` (`lib/converters/gb18030_2005.h:332-437`). -/
def gb18030_2005_wctomb (wc : Nat) : W := (gb18030_2005_wbmp wc).orElse (gb_wsup wc)

/-- `gb18030_2022_wctomb` without its last part (`lib/converters/gb18030_2022.h:166-239`). -/
def gb18030_2022_wbmp (wc : Nat) : W :=
  (ascii_w wc).orElse <|
  (gbk_wctomb wc).orElse <|
  (gb18030ext_wctomb wc).orElse <|
  if wc ≥ 0xe000 ∧ wc ≤ 0xe864 then
    .room 2 <|
      if wc < 0xe766 then gb_wuser wc
      else gb_pua2022 wc (gb18030_2022_uni_wctomb wc)
  else gb18030_2022_uni_wctomb wc

/-- `gb18030_2022_wctomb` (`lib/converters/gb18030_2022.h:166-259`). -/
def gb18030_2022_wctomb (wc : Nat) : W := (gb18030_2022_wbmp wc).orElse (gb_wsup wc)

/-! ## The functions are well behaved -/

theorem Outcome.good_inM {α β : Type} {P : Nat → β → Prop} {k : Nat} {o : Outcome α} {a : α} {f : α → M β}
    (h : o = .ok a) (hf : M.Good P k (f a)) : M.Good P k (o.inM f) := by rw [h]; exact hf

theorem Outcome.good_inW {α : Type} {k : Nat} {o : Outcome α} {a : α} {f : α → W}
    (h : o = .ok a) (hf : W.Good k (f a)) : W.Good k (o.inW f) := by rw [h]; exact hf

theorem euc_cn_good : M.Good M.RetOK 1 euc_cn_mbtowc := by
  have h1 := ascii_m_good
  have h2 := CsDec.two gb2312_dec_safe
  unfold euc_cn_mbtowc
  mgood

theorem euc_cn_wgood (wc : Nat) : W.Good 0 (euc_cn_wctomb wc) := by
  have h1 := ascii_w_good
  have h2 := ascii_w_need
  have h3 := CsEnc.two gb2312_enc_safe
  unfold euc_cn_wctomb
  wgood

theorem gbk_tail_good {c k : Nat} (h : 2 ≤ k) : M.Good M.RetOK k (gbk_tail c) := by
  have h1 := CsDec.good' gbkext1_dec_safe
  have h2 := CsDec.good' gbkext2_dec_safe
  unfold gbk_tail
  mgood

theorem gbk_good : M.Good M.RetOK 1 gbk_mbtowc := by
  have h1 := CsDec.two gb2312_dec_safe
  have h2 := CsDec.two cp936ext_dec_safe
  have h3 : ∀ c, M.Good M.RetOK (max 1 2) (gbk_tail c) := fun c => gbk_tail_good (by omega)
  unfold gbk_mbtowc
  mgood
  all_goals exact h3 _

theorem gbk_clean (wc : Nat) : W.Clean 2 0 (gbk_wctomb wc) := by
  have h1 := CsEnc.two gb2312_enc_safe
  have h2 := CsEnc.two cp936ext_enc_safe
  have h3 := CsEnc.two gbkext_inv_enc_safe
  have h4 : W.Clean 2 0 (gbk_rest wc) := by
    unfold gbk_rest
    wclean
  unfold gbk_wctomb
  wclean

theorem ces_gbk_good : M.Good M.RetOK 1 ces_gbk_mbtowc := by
  have h1 := ascii_m_good
  have h2 := gbk_good
  unfold ces_gbk_mbtowc
  mgood

/-- The part of `ces_gbk_wctomb` after ASCII. -/
theorem ces_gbk_clean (wc : Nat) : W.Clean 2 0 ((gbk_wctomb wc).on 2 fun ret buf =>
    if ret ≠ RET_ILUNI then
      if ret ≠ 2 then .abort
      else .room 2 <| .put [bufAt buf 0, bufAt buf 1]
    else .iluni) := by
  have h1 := (gbk_clean wc).two
  wclean

theorem ces_gbk_wgood (wc : Nat) : W.Good 0 (ces_gbk_wctomb wc) := by
  have h1 := ascii_w_good
  have h2 := ascii_w_need
  have h3 := fun wc => (gbk_clean wc).two
  unfold ces_gbk_wctomb
  wgood

theorem cp936_good : M.Good M.RetOK 1 cp936_mbtowc := by
  have h1 := ces_gbk_good
  unfold cp936_mbtowc
  mgood

theorem W.orElse_assoc (a b c : W) : (a.orElse b).orElse c = a.orElse (b.orElse c) := by
  induction a with
  | room j w ih => show W.room j ((w.orElse b).orElse c) = _; rw [ih]; rfl
  | _ => rfl

theorem W.orElse_ite (c : Prop) [Decidable c] (x y v : W) :
    (if c then x else y).orElse v = if c then x.orElse v else y.orElse v := by
  by_cases h : c
  · rw [if_pos h, if_pos h]
  · rw [if_neg h, if_neg h]

theorem cp936_wgood (wc : Nat) : W.Good 0 (cp936_wctomb wc) := by
  have h1 := ascii_w_good
  have h2 := ascii_w_need
  have h3 := ces_gbk_clean
  unfold cp936_wctomb ces_gbk_wctomb
  rw [W.orElse_assoc]
  refine W.good_orElse0 _ _ (h2 _) (h1 _) ?_
  refine W.Clean.orElse (by omega) (by omega) ?_ _ (h3 _)
  unfold cp936_rest
  wgood

theorem uniDir_ok {t : Tab} (ht : t.len = 412) (i k : Nat) (hk : k < 205) : ∃ d, uniDir t i k = .ok d := by
  unfold uniDir
  rw [Tab.get_fast (by omega)]
  simp only [Outcome.bind]
  split
  · exact ⟨_, rfl⟩
  · rw [Tab.get_fast (by omega)]
    simp only
    split <;> exact ⟨_, rfl⟩

theorem gb_uni_good {i k : Nat} (h : 4 ≤ k) : M.Good M.RetOK k (gb_uni i) := by
  have hl : gb18030uni_ranges.len = 206 := rfl
  obtain ⟨j, s, e, l, -⟩ := bsearch_ok (uniDir_ok (t := gb18030uni_charset2uni_ranges) rfl i) 206 0 205
    (by omega) (by omega) (by omega)
  unfold gb_uni
  refine Outcome.good_inM e ?_
  mgood

theorem gb_wuni_good {wc k : Nat} (h : k = 4) : W.Good k (gb_wuni wc) := by
  have hl : gb18030uni_ranges.len = 206 := rfl
  obtain ⟨j, s, e, l, -⟩ := bsearch_ok (uniDir_ok (t := gb18030uni_uni2charset_ranges) rfl wc) 206 0 205
    (by omega) (by omega) (by omega)
  unfold gb_wuni
  refine Outcome.good_inW e ?_
  unfold gbPut
  wgood

theorem gb4_good {lo hi : Nat} {f : Nat → M MbRet} (h : ∀ i, M.Good M.RetOK 4 (f i)) :
    M.Good M.RetOK 1 (gb4 lo hi f) := by
  have h : ∀ i, M.Good M.RetOK (max (max (max 1 2) 3) 4) (f i) := h
  unfold gb4
  mgood
  exact h _

theorem gb2005_uni_good : M.Good M.RetOK 1 gb18030_2005_uni_mbtowc := by
  have h1 : ∀ i, M.Good M.RetOK 4 (gb_uni i) := fun i => gb_uni_good (Nat.le_refl _)
  refine gb4_good fun i => ?_
  unfold gb2005_idx
  mgood
  exact h1 _

theorem gb2022_uni_good : M.Good M.RetOK 1 gb18030_2022_uni_mbtowc := by
  have h1 : ∀ i, M.Good M.RetOK 4 (gb_uni i) := fun i => gb_uni_good (Nat.le_refl _)
  have l1 : gb18030_2022_charset2uni_pua1.len = 8 := rfl
  have l2 : gb18030_2022_charset2uni_pua2.len = 10 := rfl
  refine gb4_good fun i => ?_
  unfold gb2022_idx
  mgood
  exact h1 _

theorem gb_user_good : M.Good M.RetOK 1 gb_user := by unfold gb_user; mgood

theorem gb_sup_good : M.Good M.RetOK 1 gb_sup := by
  refine gb4_good fun i => ?_
  mgood

theorem gb18030_2005_bmp_good : M.Good M.RetOK 1 gb18030_2005_bmp := by
  have h1 := ascii_m_good
  have h2 := gbk_good
  have h3 := CsDec.good' gb18030_2005_ext_dec_safe
  have h4 := gb2005_uni_good
  have h5 := gb_user_good
  unfold gb18030_2005_bmp
  mgood

theorem gb18030_2022_bmp_good : M.Good M.RetOK 1 gb18030_2022_bmp := by
  have h1 := ascii_m_good
  have h2 := gbk_good
  have h3 := CsDec.good' gb18030_2022_ext_dec_safe
  have h4 := gb2022_uni_good
  have h5 := gb_user_good
  unfold gb18030_2022_bmp
  mgood

theorem gb18030_2005_good : M.Good M.RetOK 1 gb18030_2005_mbtowc := by
  have h1 := gb18030_2005_bmp_good
  have h2 := gb_sup_good
  unfold gb18030_2005_mbtowc
  mgood

theorem gb18030_2022_good : M.Good M.RetOK 1 gb18030_2022_mbtowc := by
  have h1 := gb18030_2022_bmp_good
  have h2 := gb_sup_good
  unfold gb18030_2022_mbtowc
  mgood

theorem pua2022Dir_ok (wc k : Nat) (hk : k < 23) : ∃ d, pua2022Dir wc k = .ok d := by
  have hl : gb18030_2022_pua2charset.len = 69 := rfl
  unfold pua2022Dir
  rw [Tab.get_fast (by omega)]
  simp only [Outcome.bind]
  split
  · exact ⟨_, rfl⟩
  · rw [Tab.get_fast (by omega)]
    simp only
    split <;> exact ⟨_, rfl⟩

theorem gb_pua2022_good {wc : Nat} {rest : W} (h : W.Good 2 rest) : W.Good 2 (gb_pua2022 wc rest) := by
  have hl : gb18030_2022_pua2charset.len = 69 := rfl
  obtain ⟨j, s, e, l, l2⟩ := bsearch_ok (pua2022Dir_ok wc) 24 0 23 (by omega) (by omega) (by omega)
  unfold gb_pua2022
  refine Outcome.good_inW e ?_
  simp only
  cases s with
  | false => exact h
  | true =>
    have := l2 rfl
    simp only [if_true]
    wgood

theorem W.need_put (bs : List Nat) : (W.put bs).need = 0 := rfl
theorem W.need_iluni : W.iluni.need = 0 := rfl
theorem W.orElse_room (j : Nat) (w v : W) : (W.room j w).orElse v = .room j (w.orElse v) := rfl
theorem W.orElse_put (bs : List Nat) (v : W) : (W.put bs).orElse v = .put bs := rfl

theorem gb_pua2022_orElse (wc : Nat) (rest v : W) :
    (gb_pua2022 wc rest).orElse v = gb_pua2022 wc (rest.orElse v) := by
  have hl : gb18030_2022_pua2charset.len = 69 := rfl
  obtain ⟨j, s, e, l, l2⟩ := bsearch_ok (pua2022Dir_ok wc) 24 0 23 (by omega) (by omega) (by omega)
  unfold gb_pua2022 Outcome.inW
  rw [e]
  simp only
  cases s with
  | false => rfl
  | true =>
    have := l2 rfl
    simp only [if_true]
    rw [Tab.rdW_eq (by omega), Tab.rdW_eq (by omega)]
    rfl

theorem gb2022_wuni_good {wc k : Nat} (hk : k ≤ 4) {v : W} (hv : W.Good 4 v) :
    W.Good k ((gb18030_2022_uni_wctomb wc).orElse v) := by
  have h1 : W.Good 4 (gb_wuni wc) := gb_wuni_good rfl
  have l1 : gb18030_2022_uni2charset_pua1.len = 71 := rfl
  have l2 : gb18030_2022_uni2charset_pua2.len = 10 := rfl
  have hg : ∀ w, W.Good 4 w → w.need = 0 → W.Good 4 (w.orElse v) := fun w h h0 => W.good_orElse0 w 4 h0 h hv
  have n1 : (gb_wuni wc).need = 0 := by
    obtain ⟨j, s, e, l, -⟩ := bsearch_ok (uniDir_ok (t := gb18030uni_uni2charset_ranges) rfl wc) 206 0 205
      (by omega) (by omega) (by omega)
    have hl : gb18030uni_ranges.len = 206 := rfl
    unfold gb_wuni Outcome.inW
    rw [e]
    simp only
    split
    · rfl
    · rw [Tab.rdW_eq (by omega)]; rfl
  show W.Good (max k 4) _
  rw [Nat.max_eq_right hk]
  unfold gbPut
  refine hg _ ?_ ?_
  · wgood
  · repeat' split
    all_goals with_reducible first
      | exact n1
      | exact W.need_put _
      | exact W.need_iluni
      | (rw [Tab.rdW_eq (by omega)]; first | exact W.need_put _ | (split <;> first | exact n1 | exact W.need_put _))

theorem gb2022_orElse_good (wc : Nat) {v : W} (hs : W.Good 4 v) : W.Good 0 ((gb18030_2022_wbmp wc).orElse v) := by
  unfold gb18030_2022_wbmp
  simp only [W.orElse_assoc]
  refine W.good_orElse0 _ _ (ascii_w_need _) (ascii_w_good _) ?_
  refine W.Clean.orElse (by omega) (by omega) ?_ _ (gbk_clean _)
  refine CsEnc.good_orElse gb18030ext_enc_safe (by omega) ?_
  rw [W.orElse_ite]
  refine W.good_ite (fun h1 => ?_) fun h1 => gb2022_wuni_good (by omega) hs
  rw [W.orElse_room, W.orElse_ite]
  refine W.good_room ?_
  show W.Good 2 _
  refine W.good_ite (fun h2 => ?_) fun h2 => ?_
  · unfold gb_wuser
    simp only [W.orElse_ite, W.orElse_put]
    wgood
  · rw [gb_pua2022_orElse]
    exact gb_pua2022_good (gb2022_wuni_good (by omega) hs)

theorem W.orElse_iluni (w : W) : w.orElse .iluni = w := by
  induction w with
  | room j w ih => show W.room j (w.orElse .iluni) = _; rw [ih]
  | _ => rfl

theorem gb18030_2022_wbmp_good (wc : Nat) : W.Good 0 (gb18030_2022_wbmp wc) := by
  have h := gb2022_orElse_good wc (v := .iluni) (W.good_iluni (by omega))
  rwa [W.orElse_iluni] at h

theorem gb_wsup_good (wc : Nat) : W.Good 4 (gb_wsup wc) := by
  unfold gb_wsup gbPut
  wgood

theorem gb18030_2022_wgood (wc : Nat) : W.Good 0 (gb18030_2022_wctomb wc) :=
  gb2022_orElse_good wc (gb_wsup_good wc)

/-! ## Evaluation -/

theorem gbk_on_fast (wc : Nat) (k : Int → List Nat → W) : (gbk_wctomb wc).on 2 k = (gbk_wctomb wc).onF 2 k :=
  W.Clean.on_fast (gbk_clean wc) (by omega) (by omega) k

/-- `bsearch` with `f k` coded as 0, 1, 2; the result is `2 * k`, plus 1 if the loop was left. -/
noncomputable def bsF (g : Nat → Nat) (fuel : Nat) : Nat → Nat → Nat :=
  Nat.rec (fun _ _ => 0) (fun _ ih k1 k2 =>
    Bool.rec (Nat.mul 2 k1)
      (forceN (Nat.div (Nat.add k1 k2) 2) fun k =>
        Nat.rec (ih k1 k) (fun d _ => Nat.rec (ih (Nat.succ k) k2) (fun _ _ => Nat.succ (Nat.mul 2 k)) d) (g k))
      (Nat.ble (Nat.succ k1) k2)) fuel

/-- The direction for a code. -/
def dirOf : Nat → Dir
  | 0 => .left
  | 1 => .right
  | _ => .stop

theorem bsearch_fast {f : Nat → Outcome Dir} {g : Nat → Nat} {b : Nat} (hf : ∀ k, k < b → f k = .ok (dirOf (g k))) :
    ∀ (fuel k1 k2 : Nat), k2 < k1 + fuel → k1 ≤ k2 → k2 ≤ b →
    bsearch f fuel k1 k2 = .ok (bsF g fuel k1 k2 / 2, decide (bsF g fuel k1 k2 % 2 = 1)) := by
  intro fuel
  induction fuel with
  | zero => intro k1 k2 h h1; omega
  | succ n ih =>
    intro k1 k2 h h1 h2
    unfold bsearch
    have e : bsF g (n + 1) k1 k2 = Bool.rec (Nat.mul 2 k1)
      (forceN (Nat.div (Nat.add k1 k2) 2) fun k =>
        Nat.rec (bsF g n k1 k) (fun d _ => Nat.rec (bsF g n (Nat.succ k) k2) (fun _ _ => Nat.succ (Nat.mul 2 k)) d) (g k))
      (Nat.ble (Nat.succ k1) k2) := rfl
    rw [e]
    by_cases hc : k1 < k2
    · rw [if_pos hc, Nat.ble_eq_true_of_le hc, hf _ (by omega)]
      simp only [forceN_eq]
      have e2 : Nat.div (Nat.add k1 k2) 2 = (k1 + k2) / 2 := rfl
      rw [e2]
      match hg : g ((k1 + k2) / 2) with
      | 0 => exact ih k1 ((k1 + k2) / 2) (by omega) (by omega) (by omega)
      | 1 => exact ih ((k1 + k2) / 2 + 1) k2 (by omega) (by omega) (by omega)
      | d + 2 =>
        show Outcome.ok ((k1 + k2) / 2, true) = Outcome.ok ((2 * ((k1 + k2) / 2) + 1) / 2, decide ((2 * ((k1 + k2) / 2) + 1) % 2 = 1))
        have h3 : (2 * ((k1 + k2) / 2) + 1) % 2 = 1 := by omega
        have h4 : (2 * ((k1 + k2) / 2) + 1) / 2 = (k1 + k2) / 2 := by omega
        rw [h3, h4]; rfl
    · rw [if_neg hc]
      have hb : Nat.ble (Nat.succ k1) k2 = false := by
        cases hb : Nat.ble (Nat.succ k1) k2
        · rfl
        · exact absurd (Nat.le_of_ble_eq_true hb) hc
      rw [hb]
      show Outcome.ok (k1, false) = Outcome.ok (2 * k1 / 2, decide (2 * k1 % 2 = 1))
      have h3 : 2 * k1 % 2 = 0 := by omega
      have h4 : 2 * k1 / 2 = k1 := by omega
      rw [h3, h4]; rfl

noncomputable def uniG (t : Tab) (i k : Nat) : Nat :=
  Bool.rec (Bool.rec 2 1 (Nat.ble (t.getF (Nat.add (Nat.mul 2 k) 2)) i)) 0 (Nat.ble i (t.getF (Nat.succ (Nat.mul 2 k))))

theorem uniG_ok {t : Tab} (ht : t.len = 412) (i k : Nat) (hk : k < 205) : uniDir t i k = .ok (dirOf (uniG t i k)) := by
  unfold uniDir uniG
  rw [Tab.get_fast (by omega)]
  simp only [Outcome.bind]
  show (if i ≤ t.getF (2 * k + 1) then _ else _) = Outcome.ok (dirOf (Bool.rec _ 0 (Nat.ble i (t.getF (2 * k + 1)))))
  rw [ite_le_fast]
  cases Nat.ble i (t.getF (2 * k + 1)) with
  | true => rfl
  | false =>
    rw [Tab.get_fast (by omega)]
    show (if t.getF (2 * k + 2) ≤ i then _ else _) = Outcome.ok (dirOf (Bool.rec 2 1 (Nat.ble (t.getF (2 * k + 2)) i)))
    rw [ite_le_fast]
    cases Nat.ble (t.getF (2 * k + 2)) i <;> rfl

/-- Continue with a search result. -/
noncomputable def bsThen {α : Type} (r : Nat) (x y : Nat → α) : α :=
  forceN r fun r => forceN (Nat.div r 2) fun k => Nat.rec (y k) (fun _ _ => x k) (Nat.mod r 2)

theorem bsThen_eq {α : Type} (r : Nat) (x y : Nat → α) :
    bsThen r x y = if decide (r % 2 = 1) = true then x (r / 2) else y (r / 2) := by
  unfold bsThen
  simp only [forceN_eq]
  show Nat.rec (motive := fun _ => α) (y (r / 2)) (fun _ _ => x (r / 2)) (r % 2) = _
  have h : r % 2 = 0 ∨ r % 2 = 1 := by omega
  rcases h with h | h <;> rw [h] <;> rfl

theorem bsF_le {g : Nat → Nat} : ∀ (fuel k1 k2 : Nat), k2 < k1 + fuel → k1 ≤ k2 → bsF g fuel k1 k2 / 2 ≤ k2 := by
  intro fuel k1 k2 h h1
  have h0 := bsearch_fast (f := fun k => .ok (dirOf (g k))) (g := g) (b := k2) (fun _ _ => rfl) fuel k1 k2 h h1 (Nat.le_refl _)
  obtain ⟨k, s, e, l, -⟩ := bsearch_ok (f := fun k => .ok (dirOf (g k))) (b := k2) (fun k _ => ⟨_, rfl⟩) fuel k1 k2 h h1 (Nat.le_refl _)
  rw [e] at h0
  injection h0 with h0
  injection h0 with h0
  omega

theorem gb_uni_fast (i : Nat) : gb_uni i =
    bsThen (bsF (uniG gb18030uni_charset2uni_ranges i) 206 0 205) (fun _ => .ret (.ilseq 0))
      (fun k => .ret (.char (Nat.add i (gb18030uni_ranges.getF k)) 4)) := by
  have hl : gb18030uni_ranges.len = 206 := rfl
  have h := bsF_le (g := uniG gb18030uni_charset2uni_ranges i) 206 0 205 (by omega) (by omega)
  unfold gb_uni Outcome.inM
  rw [bsearch_fast (uniG_ok rfl i) 206 0 205 (by omega) (by omega) (by omega), bsThen_eq]
  simp only
  rw [Tab.rdM_eq (by omega)]
  rfl

theorem gb_wuni_fast (wc : Nat) : gb_wuni wc =
    bsThen (bsF (uniG gb18030uni_uni2charset_ranges wc) 206 0 205) (fun _ => .iluni)
      (fun k => forceN (Nat.mod (Nat.sub (Nat.add wc 4294967296) (gb18030uni_ranges.getF k)) 4294967296) (gbPut 0x81)) := by
  have hl : gb18030uni_ranges.len = 206 := rfl
  have h := bsF_le (g := uniG gb18030uni_uni2charset_ranges wc) 206 0 205 (by omega) (by omega)
  unfold gb_wuni Outcome.inW
  rw [bsearch_fast (uniG_ok rfl wc) 206 0 205 (by omega) (by omega) (by omega), bsThen_eq]
  simp only [forceN_eq]
  rw [Tab.rdW_eq (by omega)]
  rfl

noncomputable def pua2022G (wc k : Nat) : Nat :=
  Bool.rec (Bool.rec 2 1 (Nat.ble (Nat.succ (gb18030_2022_pua2charset.getF (Nat.succ (Nat.mul k 3)))) wc)) 0
    (Nat.ble (Nat.succ wc) (gb18030_2022_pua2charset.getF (Nat.mul k 3)))

theorem pua2022G_ok (wc k : Nat) (hk : k < 23) : pua2022Dir wc k = .ok (dirOf (pua2022G wc k)) := by
  have hl : gb18030_2022_pua2charset.len = 69 := rfl
  unfold pua2022Dir pua2022G
  rw [Tab.get_fast (by omega)]
  simp only [Outcome.bind]
  show (if wc + 1 ≤ gb18030_2022_pua2charset.getF (k * 3) then _ else _) =
    Outcome.ok (dirOf (Bool.rec _ 0 (Nat.ble (wc + 1) (gb18030_2022_pua2charset.getF (k * 3)))))
  rw [ite_le_fast]
  cases Nat.ble (wc + 1) (gb18030_2022_pua2charset.getF (k * 3)) with
  | true => rfl
  | false =>
    rw [Tab.get_fast (by omega)]
    show (if gb18030_2022_pua2charset.getF (k * 3 + 1) + 1 ≤ wc then _ else _) =
      Outcome.ok (dirOf (Bool.rec 2 1 (Nat.ble (gb18030_2022_pua2charset.getF (k * 3 + 1) + 1) wc)))
    rw [ite_le_fast]
    cases Nat.ble (gb18030_2022_pua2charset.getF (k * 3 + 1) + 1) wc <;> rfl

theorem gb_pua2022_fast (wc : Nat) (rest : W) : gb_pua2022 wc rest =
    bsThen (bsF (pua2022G wc) 24 0 23)
      (fun k => gb18030_2022_pua2charset.rdW (k * 3 + 2) fun cs =>
        gb18030_2022_pua2charset.rdW (k * 3 + 0) fun lo =>
        let c := (cs + (wc - lo)) % 65536
        .put [c / 256, c % 256]) (fun _ => rest) := by
  unfold gb_pua2022 Outcome.inW
  rw [bsearch_fast (pua2022G_ok wc) 24 0 23 (by omega) (by omega) (by omega), bsThen_eq]

/-- The registered encoding `euc_cn` (`lib/encodings.h.snippet:248-257`). -/
def euc_cn_entry : Entry :=
  simpleEntry ei_euc_cn 1 (by decide) (M.simple _ euc_cn_good) (W.senc _ euc_cn_wgood)
/-- The registered encoding `ces_gbk` (`lib/encodings.h.snippet:260-262`). -/
def ces_gbk_entry : Entry :=
  simpleEntry ei_ces_gbk 1 (by decide) (M.simple _ ces_gbk_good) (W.senc _ ces_gbk_wgood)
/-- The registered encoding `cp936` (`lib/encodings.h.snippet:264-271`). -/
def cp936_entry : Entry :=
  simpleEntry ei_cp936 1 (by decide) (M.simple _ cp936_good) (W.senc _ cp936_wgood)
/-- The registered encoding `gb18030_2022` (`lib/encodings.h.snippet:278-284`). -/
def gb18030_2022_entry : Entry :=
  simpleEntry ei_gb18030_2022 1 (by decide) (M.simple _ gb18030_2022_good) (W.senc _ gb18030_2022_wgood)

end Reiconv
