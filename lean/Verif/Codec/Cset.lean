import Verif.Codec.Kr
import Verif.Codec.Jp
import Verif.Codec.Cn

/-!
# Character sets used as encodings: KS_C_5601-1987, JIS_X0208, JIS_X0212, GB_2312-80, ISO-IR-165

In these encodings each character has two bytes (`lib/encodings.h.snippet:927-968`).
-/

namespace Reiconv

/-! ## ISO-IR-165 -/

/-- `iso646_cn_mbtowc` (`lib/converters/iso646_cn.h:34-48`) as a decoder program. -/
def iso646_cn_m : M MbRet :=
  .byte 0 fun c =>
    if c < 0x80 then
      if c = 0x24 then .ret (.char 0x00a5 1)
      else if c = 0x7e then .ret (.char 0x203e 1)
      else .ret (.char c 1)
    else .ret (.ilseq 0)

/-- `iso646_cn_wctomb` (`lib/converters/iso646_cn.h:50-68`) as an encoder program. -/
def iso646_cn_w (wc : Nat) : W :=
  if wc < 0x0080 ∧ ¬ (wc = 0x0024 ∨ wc = 0x007e) then .put [wc]
  else if wc = 0x00a5 then .put [0x24]
  else if wc = 0x203e then .put [0x7e]
  else .iluni

/-- Row 0x2A in `isoir165_mbtowc` (`lib/converters/isoir165.h:118-131`). -/
def isoir165_row2a : M MbRet :=
  .need 2 <| .byte 1 fun c2 =>
    if c2 ≥ 0x21 ∧ c2 < 0x7f then
      iso646_cn_m.on [c2] fun ret =>
        if ret.code ≠ 1 then .abort else .ret (.char ret.wc 2)
    else .ret (.ilseq 0)

/-- `isoir165_mbtowc` from the call of `gb2312_mbtowc` on (`lib/converters/isoir165.h:112-136`). -/
def isoir165_rest : M MbRet :=
  gb2312_mbtowc.andThen fun ret =>
    if ret.code ≠ RET_ILSEQ then .ret ret
    else .byte 0 fun c => if c = 0x2a then isoir165_row2a else isoir165ext_dec.mbtowc

/-- `isoir165_mbtowc` (`lib/converters/isoir165.h:92-137`). In row 0x28 the code tests `n >= 2`; with one byte
it goes on to `gb2312_mbtowc`, which returns `RET_TOOFEW(0)`. The model returns it directly. -/
def isoir165_mbtowc : M MbRet :=
  .byte 0 fun c =>
    if c = 0x28 then
      .need 2 <| .byte 1 fun c2 =>
        if c2 ≥ 0x21 ∧ c2 ≤ 0x40 then
          isoir165ext_dec.mbtowc.on [0x2b, c2] fun ret =>
            if ret.code ≠ RET_ILSEQ then .ret ret else isoir165_rest
        else isoir165_rest
    else isoir165_rest

/-- The end of `isoir165_wctomb` (`lib/converters/isoir165.h:162-181`). -/
def isoir165_wrest (wc : Nat) : W :=
  (iso646_cn_w wc).on 1 fun ret buf =>
    if ret ≠ RET_ILUNI then
      if ret ≠ 1 then .abort
      else if bufAt buf 0 ≥ 0x21 ∧ bufAt buf 0 < 0x7f then .room 2 <| .put [0x2a, bufAt buf 0]
      else isoir165ext_enc.wctomb wc
    else isoir165ext_enc.wctomb wc

/-- `isoir165_wctomb` (`lib/converters/isoir165.h:139-181`). -/
def isoir165_wctomb (wc : Nat) : W :=
  (gb2312_wctomb wc).on 2 fun ret buf =>
    if ret ≠ RET_ILUNI then
      if ret ≠ 2 then .abort
      else if ¬ (bufAt buf 0 = 0x28 ∧ bufAt buf 1 ≥ 0x21 ∧ bufAt buf 1 ≤ 0x40) then
        .room 2 <| .put [bufAt buf 0, bufAt buf 1]
      else isoir165_wrest wc
    else isoir165_wrest wc

theorem iso646_cn_m_one : M.One iso646_cn_m := by
  intro a
  by_cases h : a.toNat < 0x80
  · refine .inr ⟨if a.toNat = 0x24 then 0xa5 else if a.toNat = 0x7e then 0x203e else a.toNat, ?_⟩
    simp only [iso646_cn_m, M.run, List.getElem?_cons_zero, if_pos h]
    repeat' split
    all_goals rfl
  · exact .inl (by simp [iso646_cn_m, M.run, h])

theorem iso646_cn_w_one (wc : Nat) : W.One (iso646_cn_w wc) := by
  unfold iso646_cn_w
  repeat' split
  all_goals first | exact .inl rfl | exact .inr ⟨_, rfl⟩

theorem iso646_cn_on {α : Type} {b : Nat} (h : b < 0x80) (f : MbRet → M α) :
    iso646_cn_m.on [b] f = f (.char (if b = 0x24 then 0xa5 else if b = 0x7e then 0x203e else b) 1) := by
  have hb : (u8 b).toNat = b := by rw [u8_toNat]; omega
  have hr : iso646_cn_m.run [u8 b] = .ok (some (.char (if b = 0x24 then 0xa5 else if b = 0x7e then 0x203e else b) 1)) := by
    simp only [iso646_cn_m, M.run, List.getElem?_cons_zero, hb, if_pos h]
    repeat' split
    all_goals rfl
  unfold M.on
  simp only [List.map_cons, List.map_nil]
  rw [hr]

theorem isoir165_row2a_good {k : Nat} : M.Good M.RetOK k isoir165_row2a := by
  unfold isoir165_row2a
  refine M.good_need (M.good_byte (by omega) fun b _ => M.good_ite (fun h => ?_) fun _ => ?_)
  · rw [iso646_cn_on (by omega)]
    rw [if_neg code_char_one]
    exact ⟨by omega, by show 2 ≤ max k 2; omega⟩
  · exact ⟨rfl, by omega⟩

theorem isoir165_rest_good : M.Good M.RetOK 1 isoir165_rest := by
  have h1 := CsDec.good' gb2312_dec_safe
  have h2 := CsDec.good' isoir165ext_dec_safe
  unfold isoir165_rest
  mgood
  exact isoir165_row2a_good

theorem isoir165_good : M.Good M.RetOK 1 isoir165_mbtowc := by
  have h1 := CsDec.two isoir165ext_dec_safe
  have h2 := isoir165_rest_good
  unfold isoir165_mbtowc
  mgood

theorem isoir165_wrest_good (wc : Nat) : W.Good 0 (isoir165_wrest wc) := by
  have h1 := iso646_cn_w_one
  have h2 := isoir165ext_enc_safe
  unfold isoir165_wrest
  wgood

theorem isoir165_wgood (wc : Nat) : W.Good 0 (isoir165_wctomb wc) := by
  have h1 := CsEnc.two gb2312_enc_safe
  have h2 := isoir165_wrest_good wc
  unfold isoir165_wctomb
  wgood

theorem isoir165_wrest_two (wc : Nat) : W.Two (isoir165_wrest wc) := by
  have h2 := CsEnc.two isoir165ext_enc_safe wc
  unfold isoir165_wrest W.on
  rcases iso646_cn_w_one wc with h | ⟨a, h⟩
  · rw [h]; exact h2
  · rw [h]
    show W.Two (if (a.toNat ≥ 0x21 ∧ a.toNat < 0x7f) then _ else _)
    split
    · exact .inr ⟨_, _, rfl⟩
    · exact h2

theorem isoir165_w2 (wc : Nat) : W.Two (isoir165_wctomb wc) := by
  have h2 := isoir165_wrest_two wc
  unfold isoir165_wctomb W.on
  rcases CsEnc.two gb2312_enc_safe wc with h | ⟨a, b, h⟩
  · rw [h]; exact h2
  · rw [h]
    show W.Two (if ¬ (a.toNat = 0x28 ∧ b.toNat ≥ 0x21 ∧ b.toNat ≤ 0x40) then _ else _)
    split
    · exact .inr ⟨_, _, rfl⟩
    · exact h2

theorem CsEnc.fast_fun {e : CsEnc} (h : e.safeF = true) :
    e.wctomb = fun wc => .room 2 (Nat.rec .iluni
      (fun c _ => .put [Nat.shiftRight c 8, Nat.land c 0xff]) (e.encF wc)) := funext fun wc => CsEnc.fast h wc

theorem gb2312_good : M.Good M.RetOK 1 gb2312_mbtowc := CsDec.good' gb2312_dec_safe
theorem gb2312_wgood (wc : Nat) : W.Good 0 (gb2312_wctomb wc) := CsEnc.good gb2312_enc_safe wc
theorem ksc5601_good : M.Good M.RetOK 1 ksc5601_mbtowc := CsDec.good' ksc5601_dec_safe
theorem ksc5601_wgood (wc : Nat) : W.Good 0 (ksc5601_wctomb wc) := CsEnc.good ksc5601_enc_safe wc
theorem jisx0208_good : M.Good M.RetOK 1 jisx0208_mbtowc := CsDec.good' jisx0208_dec_safe
theorem jisx0208_wgood (wc : Nat) : W.Good 0 (jisx0208_wctomb wc) := CsEnc.good jisx0208_enc_safe wc
theorem jisx0212_good : M.Good M.RetOK 1 jisx0212_mbtowc := CsDec.good' jisx0212_dec_safe
theorem jisx0212_wgood (wc : Nat) : W.Good 0 (jisx0212_wctomb wc) := CsEnc.good jisx0212_enc_safe wc

/-- The registered encoding `gb2312` (`lib/encodings.h.snippet:951-955`). -/
def gb2312_entry : Entry :=
  simpleEntry ei_gb2312 1 (by decide) (M.simple _ gb2312_good) (W.senc _ gb2312_wgood)
/-- The registered encoding `ksc5601` (`lib/encodings.h.snippet:961-968`). -/
def ksc5601_entry : Entry :=
  simpleEntry ei_ksc5601 1 (by decide) (M.simple _ ksc5601_good) (W.senc _ ksc5601_wgood)
/-- The registered encoding `jisx0208` (`lib/encodings.h.snippet:928-934`). -/
def jisx0208_entry : Entry :=
  simpleEntry ei_jisx0208 1 (by decide) (M.simple _ jisx0208_good) (W.senc _ jisx0208_wgood)
/-- The registered encoding `jisx0212` (`lib/encodings.h.snippet:936-941`). -/
def jisx0212_entry : Entry :=
  simpleEntry ei_jisx0212 1 (by decide) (M.simple _ jisx0212_good) (W.senc _ jisx0212_wgood)
/-- The registered encoding `isoir165` (`lib/encodings.h.snippet:957-959`). -/
def isoir165_entry : Entry :=
  simpleEntry ei_isoir165 1 (by decide) (M.simple _ isoir165_good) (W.senc _ isoir165_wgood)

/-- One byte 28 is the beginning of a character for `gb2312_mbtowc`: the simplification in `isoir165_mbtowc`. -/
example : gb2312_mbtowc.run [0x28] = .ok none := by decide +kernel

end Reiconv
