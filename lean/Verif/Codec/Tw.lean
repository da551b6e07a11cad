import Verif.Gen.CsTw
import Verif.Codec.Fast
import Verif.Entry

/-!
# Encodings of CNS 11643: EUC-TW, DEC-HANYU
-/

namespace Reiconv

/-! ## Three-byte codes -/

/-- An encoder function that stores three bytes or returns `RET_ILUNI` without storing anything. -/
def W.Three (w : W) : Prop :=
  w.run 0 3 = .ok (.iluni 0) ∨ ∃ a b c : Byte, w.run 0 3 = .ok (.put [a, b, c] 0)

theorem W.good_on3 {w : W} {j : Nat} {k : Int → List Nat → W} (h : W.Three w)
    (h1 : W.Good j (k (-1) [])) (h2 : ∀ a b c, a < 256 → b < 256 → c < 256 → W.Good j (k 3 [a, b, c])) :
    W.Good j (W.on w 3 k) := by
  unfold W.on
  rcases h with h | ⟨a, b, c, h⟩
  · rw [h]; exact h1
  · rw [h]; exact h2 a.toNat b.toNat c.toNat (UInt8.toNat_lt _) (UInt8.toNat_lt _) (UInt8.toNat_lt _)

theorem CsEnc.wctomb3_eq {e : CsEnc} (h : e.safeF = true) (wc : Nat) :
    e.wctomb3 wc = .room 2 (match e.code wc with
      | some c => .put [c >>> 16, (c >>> 8) &&& 0xff, c &&& 0xff]
      | none => .iluni) := by
  unfold CsEnc.wctomb3
  rw [e.look_fast h]
  cases e.code wc <;> rfl

theorem CsEnc.three {e : CsEnc} (h : e.safeF = true) (wc : Nat) : W.Three (e.wctomb3 wc) := by
  rw [e.wctomb3_eq h]
  cases e.code wc with
  | none => exact .inl rfl
  | some c => exact .inr ⟨_, _, _, rfl⟩

theorem CsEnc.on_fast3 {e : CsEnc} (h : e.safeF = true) (wc : Nat) (k : Int → List Nat → W) :
    (e.wctomb3 wc).on 3 k = Nat.rec (k (-1) [])
      (fun c _ => k 3 [Nat.mod (Nat.shiftRight c 16) 256, Nat.mod (Nat.land (Nat.shiftRight c 8) 0xff) 256,
        Nat.mod (Nat.land c 0xff) 256]) (e.encF wc) := by
  unfold W.on
  rw [e.wctomb3_eq h]
  unfold CsEnc.code
  cases e.encF wc with
  | zero => rfl
  | succ c =>
    simp only [ofCode, W.run]
    show (if _ then _ else _) = _
    rw [if_pos (by simp [WcRes.put])]
    simp only [WcRes.put, List.map_cons, List.map_nil, u8_toNat]
    rfl

theorem three_iluni_fast {α : Type} (x y : α) : (if (3 : Int) = RET_ILUNI then x else y) = y := rfl
theorem three_three_fast {α : Type} (x y : α) : (if (3 : Int) = 3 then x else y) = x := rfl

theorem W.on_room_iluni3 (k : Int → List Nat → W) : (W.room 2 .iluni).on 3 k = k (-1) [] := rfl

theorem CsEnc.zero3 {e : CsEnc} (h : e.safeF = true) {wc : Nat} (h0 : e.encF wc = 0) :
    e.wctomb3 wc = .room 2 .iluni := by
  rw [CsEnc.wctomb3_eq h]; unfold CsEnc.code; rw [h0]; rfl

/-- `cns11643_1_mbtowc` (`lib/converters/cns11643_1.h:861-905`). -/
abbrev cns11643_1_mbtowc : M MbRet := cns11643_1_dec.mbtowc
/-- `cns11643_2_mbtowc` (`lib/converters/cns11643_2.h:1093-1120`). -/
abbrev cns11643_2_mbtowc : M MbRet := cns11643_2_dec.mbtowc
/-- `cns11643_3_mbtowc` (`lib/converters/cns11643_3.h:949-983`). -/
abbrev cns11643_3_mbtowc : M MbRet := cns11643_3_dec.mbtowc
/-- `cns11643_4_mbtowc` (`lib/converters/cns11643_4.h:38-68`). -/
abbrev cns11643_4_mbtowc : M MbRet := cns11643_4_dec.mbtowc
/-- `cns11643_5_mbtowc` (`lib/converters/cns11643_5.h:1258-1286`). -/
abbrev cns11643_5_mbtowc : M MbRet := cns11643_5_dec.mbtowc
/-- `cns11643_6_mbtowc` (`lib/converters/cns11643_6.h:948-976`). -/
abbrev cns11643_6_mbtowc : M MbRet := cns11643_6_dec.mbtowc
/-- `cns11643_7_mbtowc` (`lib/converters/cns11643_7.h:968-996`). -/
abbrev cns11643_7_mbtowc : M MbRet := cns11643_7_dec.mbtowc
/-- `cns11643_15_mbtowc` (`lib/converters/cns11643_15.h:1062-1090`). -/
abbrev cns11643_15_mbtowc : M MbRet := cns11643_15_dec.mbtowc
/-- `cns11643_wctomb`, a macro for `cns11643_inv_wctomb` (`lib/converters/cns11643.h`). -/
abbrev cns11643_wctomb : Nat → W := cns11643_inv_enc.wctomb3

/-! ## EUC-TW -/

/-- What `euc_tw_mbtowc` does with the result of the plane function (`lib/converters/euc_tw.h:112-116`). -/
def tw_four (ret : MbRet) : M MbRet :=
  if ret.code = RET_ILSEQ then .ret (.ilseq 0)
  else if ret.code ≠ 2 then .abort
  else .ret (.char ret.wc 4)

/-- `euc_tw_mbtowc` (`lib/converters/euc_tw.h:42-122`). -/
def euc_tw_mbtowc : M MbRet :=
  .byte 0 fun c =>
    if c < 0x80 then ascii_m
    else if c ≥ 0xa1 ∧ c < 0xff then
      .need 2 <| .byte 1 fun c2 =>
        if c2 ≥ 0xa1 ∧ c2 < 0xff then
          cns11643_1_mbtowc.on [c - 0x80, c2 - 0x80] .ret
        else .ret (.ilseq 0)
    else if c = 0x8e then
      .need 4 <| .byte 1 fun c2 =>
        if c2 ≥ 0xa1 ∧ c2 ≤ 0xb0 then
          .byte 2 fun c3 => .byte 3 fun c4 =>
            if c3 ≥ 0xa1 ∧ c3 < 0xff ∧ c4 ≥ 0xa1 ∧ c4 < 0xff then
              if c2 - 0xa0 = 1 then cns11643_1_mbtowc.on [c3 - 0x80, c4 - 0x80] tw_four
              else if c2 - 0xa0 = 2 then cns11643_2_mbtowc.on [c3 - 0x80, c4 - 0x80] tw_four
              else if c2 - 0xa0 = 3 then cns11643_3_mbtowc.on [c3 - 0x80, c4 - 0x80] tw_four
              else if c2 - 0xa0 = 4 then cns11643_4_mbtowc.on [c3 - 0x80, c4 - 0x80] tw_four
              else if c2 - 0xa0 = 5 then cns11643_5_mbtowc.on [c3 - 0x80, c4 - 0x80] tw_four
              else if c2 - 0xa0 = 6 then cns11643_6_mbtowc.on [c3 - 0x80, c4 - 0x80] tw_four
              else if c2 - 0xa0 = 7 then cns11643_7_mbtowc.on [c3 - 0x80, c4 - 0x80] tw_four
              else if c2 - 0xa0 = 15 then cns11643_15_mbtowc.on [c3 - 0x80, c4 - 0x80] tw_four
              else .ret (.ilseq 0)
            else .ret (.ilseq 0)
        else .ret (.ilseq 0)
    else .ret (.ilseq 0)

/-- `euc_tw_wctomb` (`lib/converters/euc_tw.h:124-161`). -/
def euc_tw_wctomb (wc : Nat) : W :=
  (ascii_w wc).orElse <|
  (cns11643_wctomb wc).on 3 fun ret buf =>
    if ret ≠ RET_ILUNI then
      if ret ≠ 3 then .abort
      else if bufAt buf 0 = 1 then
        .room 2 <| .put [bufAt buf 1 + 0x80, bufAt buf 2 + 0x80]
      else
        .room 4 <| .put [0x8e, bufAt buf 0 + 0xa0, bufAt buf 1 + 0x80, bufAt buf 2 + 0x80]
    else .iluni

/-! ## DEC-HANYU -/

/-- `dec_hanyu_mbtowc` (`lib/converters/dec_hanyu.h:36-90`). -/
def dec_hanyu_mbtowc : M MbRet :=
  .byte 0 fun c =>
    if c < 0x80 then ascii_m
    else if c ≥ 0xa1 ∧ c < 0xff then
      .need 2 <| .byte 1 fun c2 =>
        if c = 0xc2 ∧ c2 = 0xcb then
          .need 4 <| .byte 2 fun s2 => .byte 3 fun s3 =>
            if s2 ≥ 0xa1 ∧ s2 < 0xff ∧ s3 ≥ 0xa1 ∧ s3 < 0xff then
              cns11643_3_mbtowc.on [s2 - 0x80, s3 - 0x80] tw_four
            else .ret (.ilseq 0)
        else if c2 ≥ 0xa1 ∧ c2 < 0xff then
          if c ≠ 0xc2 ∨ c2 < 0xc2 then
            cns11643_1_mbtowc.on [c - 0x80, c2 - 0x80] .ret
          else .ret (.ilseq 0)
        else if c2 ≥ 0x21 ∧ c2 < 0x7f then
          cns11643_2_mbtowc.on [c - 0x80, c2] .ret
        else .ret (.ilseq 0)
    else .ret (.ilseq 0)

/-- `dec_hanyu_wctomb` (`lib/converters/dec_hanyu.h:92-142`). -/
def dec_hanyu_wctomb (wc : Nat) : W :=
  (ascii_w wc).orElse <|
  (cns11643_wctomb wc).on 3 fun ret buf =>
    if ret ≠ RET_ILUNI then
      if ret ≠ 3 then .abort
      else if bufAt buf 0 = 1 ∧ (bufAt buf 1 ≠ 0x42 ∨ bufAt buf 2 < 0x42) then
        .room 2 <| .put [bufAt buf 1 + 0x80, bufAt buf 2 + 0x80]
      else if bufAt buf 0 = 2 then
        .room 2 <| .put [bufAt buf 1 + 0x80, bufAt buf 2]
      else if bufAt buf 0 = 3 then
        .room 4 <| .put [0xc2, 0xcb, bufAt buf 1 + 0x80, bufAt buf 2 + 0x80]
      else .iluni
    else .iluni

/-! ## The functions are well behaved -/

theorem euc_tw_good : M.Good M.RetOK 1 euc_tw_mbtowc := by
  have h0 := ascii_m_good
  have h1 := CsDec.two cns11643_1_dec_safe
  have h2 := CsDec.two cns11643_2_dec_safe
  have h3 := CsDec.two cns11643_3_dec_safe
  have h4 := CsDec.two cns11643_4_dec_safe
  have h5 := CsDec.two cns11643_5_dec_safe
  have h6 := CsDec.two cns11643_6_dec_safe
  have h7 := CsDec.two cns11643_7_dec_safe
  have h15 := CsDec.two cns11643_15_dec_safe
  unfold euc_tw_mbtowc tw_four
  mgood

theorem dec_hanyu_good : M.Good M.RetOK 1 dec_hanyu_mbtowc := by
  have h0 := ascii_m_good
  have h1 := CsDec.two cns11643_1_dec_safe
  have h2 := CsDec.two cns11643_2_dec_safe
  have h3 := CsDec.two cns11643_3_dec_safe
  unfold dec_hanyu_mbtowc tw_four
  mgood

theorem euc_tw_wgood (wc : Nat) : W.Good 0 (euc_tw_wctomb wc) := by
  refine W.good_orElse0 _ _ (ascii_w_need _) (ascii_w_good _) ?_
  refine W.good_on3 (CsEnc.three cns11643_inv_enc_safe wc) ?_ ?_
  · rw [if_neg (by decide)]; exact W.good_iluni (by omega)
  · intro a b c _ _ _
    rw [if_pos (by decide), if_neg (by decide)]
    wgood

theorem dec_hanyu_wgood (wc : Nat) : W.Good 0 (dec_hanyu_wctomb wc) := by
  refine W.good_orElse0 _ _ (ascii_w_need _) (ascii_w_good _) ?_
  refine W.good_on3 (CsEnc.three cns11643_inv_enc_safe wc) ?_ ?_
  · rw [if_neg (by decide)]; exact W.good_iluni (by omega)
  · intro a b c _ _ _
    rw [if_pos (by decide), if_neg (by decide)]
    wgood

/-- The registered encoding `euc_tw` (`lib/encodings.h.snippet:310-316`). -/
def euc_tw_entry : Entry :=
  simpleEntry ei_euc_tw 1 (by decide) (M.simple _ euc_tw_good) (W.senc _ euc_tw_wgood)
/-- The registered encoding `dec_hanyu` (`lib/encodings.h.snippet:390-392`). -/
def dec_hanyu_entry : Entry :=
  simpleEntry ei_dec_hanyu 1 (by decide) (M.simple _ dec_hanyu_good) (W.senc _ dec_hanyu_wgood)

end Reiconv
