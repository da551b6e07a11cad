import Verif.Gen.JpmsTables
import Verif.Codec.SimIso

/-!
# CP50221 (ISO-2022-JP-MS)

States: 0 ASCII, 1 JIS X 0201 Roman (only read), 2 JIS X 0201 Katakana, 3 JIS X 0208 extended, 4 JIS X 0212
extended.
-/

namespace Reiconv

/-- The use of the result of a one-byte function for a two-byte character: `if (ret == 1) ret = 2;`. -/
def jpms_ext (rs : List DRule) (i : Nat) : M MbRet :=
  (sbM rs).on [i] fun ret => if ret.code = 1 then .ret (.char ret.wc 2) else .ret ret

/-- The table of CP932 and the private use area in rows 0x79 to 0x7c
(`lib/converters/iso2022_jpms.h:269-275`). -/
def jpms_pua (c0 c1 : Nat) : M MbRet :=
  if 0x79 ≤ c0 ∧ c0 ≤ 0x7c then
    match cp932ext_2uni_pageed.get ((c0 - 0x79) * 94 + (c1 - 0x21)) with
    | .ok wc => if wc = 0xfffd then .ret (.char ((c0 - 0x75) * 94 + (c1 - 0x21) + 0xe000) 2) else .ret (.char wc 2)
    | _ => .ub
  else .ret (.char ((c0 - 0x75) * 94 + (c1 - 0x21) + 0xe000) 2)

/-- The computation of `ret` for two bytes below 0x80 in the state for JIS X 0208
(`lib/converters/iso2022_jpms.h:240-279`). -/
def jpms_0208 : M MbRet :=
  .byte 0 fun c0 => .byte 1 fun c1 =>
    if c0 < 0x75 then
      if c0 = 0x2d then
        if 0x21 ≤ c1 ∧ c1 ≤ 0x79 then jpms_ext cp50221_0208_ext_d ((c1 - 0x21) + 1)
        else .ret (.ilseq 0)
      else jisx0208_dec.mbtowc.on [c0, c1] fun ret => .ret ret
    else if c0 ≤ 0x7e ∧ (0x21 ≤ c1 ∧ c1 ≤ 0x7e) then jpms_pua c0 c1
    else .ret (.ilseq 0)

/-- The same in the state for JIS X 0212 (`lib/converters/iso2022_jpms.h:294-327`). -/
def jpms_0212 : M MbRet :=
  .byte 0 fun c0 => .byte 1 fun c1 =>
    if c0 < 0x73 then jisx0212_dec.mbtowc.on [c0, c1] fun ret => .ret ret
    else if c0 < 0x75 then
      if 0x21 ≤ c1 ∧ c1 ≤ 0x7e then jpms_ext cp50221_0212_ext_d ((c0 - 0x73) * 94 + (c1 - 0x21) + 1)
      else .ret (.ilseq 0)
    else if c0 ≤ 0x7e ∧ (0x21 ≤ c1 ∧ c1 ≤ 0x7e) then
      .ret (.char ((c0 - 0x75) * 94 + (c1 - 0x21) + 0xe3ac) 2)
    else .ret (.ilseq 0)

/-- The loop body of `iso2022_jpms_mbtowc` and what follows the loop
(`lib/converters/iso2022_jpms.h:103-338`). -/
def iso2022_jpms_item (st : Nat) : M SItem :=
  .byte 0 fun c =>
    if c = 0x1b then
      .need 3 <| .byte 1 fun c1 => .byte 2 fun c2 =>
        if c1 = 0x28 then
          if c2 = 0x42 then .ret (.shift 3 0)
          else if c2 = 0x49 then .ret (.shift 3 2)
          else if c2 = 0x4a then .ret (.shift 3 1)
          else .ret .ilseq
        else if c1 = 0x24 then
          if c2 = 0x40 ∨ c2 = 0x42 then .ret (.shift 3 3)
          else if c2 = 0x28 then
            .need 4 <| .byte 3 fun c3 =>
              if c3 = 0x44 then .ret (.shift 4 4) else .ret .ilseq
          else .ret .ilseq
        else .ret .ilseq
    else if c = 0x0e then .ret (.shift 1 (if st = 1 then 2 else st))
    else if c = 0x0f then .ret (.shift 1 (if st = 2 then 1 else st))
    else if st = 0 then
      if c < 0x80 then sOne ascii_m c fun wc => .ret (.char wc 1 st) else .ret .ilseq
    else if st = 1 then
      if c < 0x80 then sOne jisx0201_m c fun wc => .ret (.char wc 1 st) else .ret .ilseq
    else if st = 2 then
      if c < 0x80 then sOne jisx0201_m (c + 0x80) fun wc => .ret (.char wc 1 st) else .ret .ilseq
    else if st = 3 then sPair jpms_0208 st
    else if st = 4 then sPair jpms_0212 st
    else .abort

/-- `iso2022_jpms_mbtowc` (`lib/converters/iso2022_jpms.h:98-348`). -/
def iso2022_jpms_decoder : Decoder where
  mbtowc := sdecode iso2022_jpms_item
  flushwc := none

/-- The extension of JIS X 0208 in the encoder (`lib/converters/iso2022_jpms.h:420-446`). -/
def jpms_0208_x (wc : Nat) : W :=
  W.on (sbW cp50221_0208_ext_e wc) 1 fun ret buf =>
    if ret = 1 then .put [0x2d, bufAt buf 0 - 1 + 0x21]
    else if wc = 0x663b then .put [0x7a, 0x36]
    else if wc = 0xffe2 then .put [0x7c, 0x7b]
    else if wc = 0xffe4 then .put [0x7c, 0x7c]
    else .iluni

/-- The computation of `ret` and `buf` for JIS X 0208 (`lib/converters/iso2022_jpms.h:408-448`). -/
def jpms_0208_w (wc : Nat) : W :=
  if 0xe000 ≤ wc ∧ wc < 0xe3ac then .put [(wc - 0xe000) / 94 + 0x75, (wc - 0xe000) % 94 + 0x21]
  else W.on (jisx0208_enc.wctomb wc) 2 fun ret buf =>
    if ret = RET_ILUNI then jpms_0208_x wc
    else if ret = 2 then .put [bufAt buf 0, bufAt buf 1] else .abort

/-- The extension of JIS X 0212 in the encoder (`lib/converters/iso2022_jpms.h:486-495`). -/
def jpms_0212_x (wc : Nat) : W :=
  W.on (sbW cp50221_0212_ext_e wc) 1 fun ret buf =>
    if ret = 1 then .put [(bufAt buf 0 - 1) / 94 + 0x73, (bufAt buf 0 - 1) % 94 + 0x21]
    else .iluni

/-- The computation of `ret` and `buf` for JIS X 0212 (`lib/converters/iso2022_jpms.h:474-497`). -/
def jpms_0212_w (wc : Nat) : W :=
  if 0xe3ac ≤ wc ∧ wc < 0xe758 then .put [(wc - 0xe3ac) / 94 + 0x75, (wc - 0xe3ac) % 94 + 0x21]
  else W.on (jisx0212_enc.wctomb wc) 2 fun ret buf =>
    if ret = RET_ILUNI then jpms_0212_x wc
    else if ret = 2 then .put [bufAt buf 0, bufAt buf 1] else .abort

/-- `iso2022_jpms_wctomb` (`lib/converters/iso2022_jpms.h:350-524`). The condition `ret != 2` after the
computation of `ret` is the test in `SW.try2`. -/
def iso2022_jpms_wctomb (st wc : Nat) : SW :=
  .try1 (ascii_w wc) (fun b => b < 0x80) (jpOne st 0 0x42) <|
  .try1 (jisx0201_w wc) (fun b => 0x80 ≤ b) (fun b => jpOne st 2 0x49 (b - 0x80)) <|
  .try2 (jpms_0208_w wc) (jpTwo st 3 [0x1b, 0x24, 0x42] 5) <|
  .try2 (jpms_0212_w wc) (jpTwo st 4 [0x1b, 0x24, 0x28, 0x44] 6)
  .iluni

/-- `iso2022_jpms_reset` (`lib/converters/iso2022_jpms.h:526-541`) is the same as `iso2022_jp_reset`. -/
def iso2022_jpms_encoder : Encoder := sencoder iso2022_jpms_wctomb iso2022_jp_reset

/-! ## No undefined behaviour -/

theorem cp50221_0208_ext_d_safe : cp50221_0208_ext_d.all DRule.safe = true := by decide +kernel
theorem cp50221_0208_ext_e_safe : cp50221_0208_ext_e.all ERule.safe = true := by decide +kernel
theorem cp50221_0212_ext_d_safe : cp50221_0212_ext_d.all DRule.safe = true := by decide +kernel
theorem cp50221_0212_ext_e_safe : cp50221_0212_ext_e.all ERule.safe = true := by decide +kernel

theorem jpms_ext_eq {rs : List DRule} (h : rs.all DRule.safe = true) (i : Nat) : jpms_ext rs i =
    .ret (match ofCode (decF rs (i % 256)) with
      | some wc => .char wc 2
      | none => .ilseq 0) := by
  unfold jpms_ext M.on
  simp only [List.map_cons, List.map_nil, sbM_run h, u8_toNat]
  cases ofCode (decF rs (i % 256)) <;> rfl

theorem m_on_two {m : M MbRet} (h : M.Two m) (a b : Byte) : ∃ r, m.on [a.toNat, b.toNat] (fun ret => M.ret ret) = .ret r ∧
    m.run [a, b] = .ok (some r) ∧ (r = .ilseq 0 ∨ ∃ wc, r = .char wc 2) := by
  unfold M.on
  simp only [List.map_cons, List.map_nil, u8_of_toNat]
  rcases h a b with h | ⟨wc, h⟩
  · rw [h]; exact ⟨_, rfl, rfl, .inl rfl⟩
  · rw [h]; exact ⟨_, rfl, rfl, .inr ⟨wc, rfl⟩⟩

theorem jpms_pua_get {c0 c1 : Nat} (h : 0x79 ≤ c0 ∧ c0 ≤ 0x7c) (h1 : 0x21 ≤ c1 ∧ c1 ≤ 0x7e) :
    ∃ wc, cp932ext_2uni_pageed.get ((c0 - 0x79) * 94 + (c1 - 0x21)) = .ok wc := by
  unfold Tab.get
  rw [if_pos (by show _ < 376; omega)]
  exact ⟨_, rfl⟩

theorem jpms_0208_two : M.Two jpms_0208 := by
  intro a b
  unfold jpms_0208
  rw [M.run_byte0, M.run_byte1]
  split
  · split
    · split
      · rw [jpms_ext_eq cp50221_0208_ext_d_safe]
        cases ofCode (decF cp50221_0208_ext_d ((b.toNat - 0x21 + 1) % 256)) with
        | none => exact .inl rfl
        | some wc => exact .inr ⟨wc, rfl⟩
      · exact .inl rfl
    · obtain ⟨r, h1, _, h2⟩ := m_on_two jisx0208_m2 a b
      rw [h1]
      rcases h2 with rfl | ⟨wc, rfl⟩
      · exact .inl rfl
      · exact .inr ⟨wc, rfl⟩
  · split
    · rename_i h
      unfold jpms_pua
      split
      · rename_i h9
        obtain ⟨wc, hg⟩ := jpms_pua_get h9 h.2
        rw [hg]
        dsimp only
        split <;> exact .inr ⟨_, rfl⟩
      · exact .inr ⟨_, rfl⟩
    · exact .inl rfl

theorem jpms_0212_two : M.Two jpms_0212 := by
  intro a b
  unfold jpms_0212
  rw [M.run_byte0, M.run_byte1]
  split
  · obtain ⟨r, h1, _, h2⟩ := m_on_two jisx0212_m2 a b
    rw [h1]
    rcases h2 with rfl | ⟨wc, rfl⟩
    · exact .inl rfl
    · exact .inr ⟨wc, rfl⟩
  · split
    · split
      · rw [jpms_ext_eq cp50221_0212_ext_d_safe]
        cases ofCode (decF cp50221_0212_ext_d (((a.toNat - 0x73) * 94 + (b.toNat - 0x21) + 1) % 256)) with
        | none => exact .inl rfl
        | some wc => exact .inr ⟨wc, rfl⟩
      · exact .inl rfl
    · split
      · exact .inr ⟨_, rfl⟩
      · exact .inl rfl

theorem w_on_two {w : W} (h : W.Two w) (k : W) :
    (∃ a b, w.run 0 2 = .ok (.put [a, b] 0) ∧ (W.on w 2 fun ret buf =>
      if ret = RET_ILUNI then k else if ret = 2 then .put [bufAt buf 0, bufAt buf 1] else .abort) = .put [a.toNat, b.toNat]) ∨
    (w.run 0 2 = .ok (.iluni 0) ∧ (W.on w 2 fun ret buf =>
      if ret = RET_ILUNI then k else if ret = 2 then .put [bufAt buf 0, bufAt buf 1] else .abort) = k) := by
  unfold W.on
  rcases h with h | ⟨a, b, h⟩
  · rw [h]; exact .inr ⟨rfl, rfl⟩
  · rw [h]; exact .inl ⟨a, b, rfl, rfl⟩

theorem jpms_0208_x_eq (wc : Nat) : jpms_0208_x wc = match ofCode (encF cp50221_0208_ext_e wc) with
    | some b => .put [0x2d, b % 256 - 1 + 0x21]
    | none => if wc = 0x663b then .put [0x7a, 0x36] else if wc = 0xffe2 then .put [0x7c, 0x7b]
      else if wc = 0xffe4 then .put [0x7c, 0x7c] else .iluni := by
  unfold jpms_0208_x W.on
  rw [sbW_eq cp50221_0208_ext_e_safe]
  cases ofCode (encF cp50221_0208_ext_e wc) with
  | none => rfl
  | some b => simp [W.run, WcRes.put, bufAt, u8_toNat, WcRet.code]

theorem jpms_0212_x_eq (wc : Nat) : jpms_0212_x wc = match ofCode (encF cp50221_0212_ext_e wc) with
    | some b => .put [(b % 256 - 1) / 94 + 0x73, (b % 256 - 1) % 94 + 0x21]
    | none => .iluni := by
  unfold jpms_0212_x W.on
  rw [sbW_eq cp50221_0212_ext_e_safe]
  cases ofCode (encF cp50221_0212_ext_e wc) with
  | none => rfl
  | some b => simp [W.run, WcRes.put, bufAt, u8_toNat, WcRet.code]

theorem w_two_put (a b : Nat) : W.Two (.put [a, b]) := .inr ⟨_, _, rfl⟩

theorem jpms_0208_w2 (wc : Nat) : W.Two (jpms_0208_w wc) := by
  unfold jpms_0208_w
  split
  · exact w_two_put _ _
  · rcases w_on_two (jisx0208_w2 wc) (jpms_0208_x wc) with ⟨a, b, _, h⟩ | ⟨_, h⟩
    · rw [h]; exact w_two_put _ _
    · rw [h, jpms_0208_x_eq]
      split
      · exact w_two_put _ _
      · (repeat' split)
        all_goals first | exact w_two_put _ _ | exact .inl rfl

theorem jpms_0212_w2 (wc : Nat) : W.Two (jpms_0212_w wc) := by
  unfold jpms_0212_w
  split
  · exact w_two_put _ _
  · rcases w_on_two (jisx0212_w2 wc) (jpms_0212_x wc) with ⟨a, b, _, h⟩ | ⟨_, h⟩
    · rw [h]; exact w_two_put _ _
    · rw [h, jpms_0212_x_eq]
      split
      · exact w_two_put _ _
      · exact .inl rfl

/-- The values of the state that occur. -/
def jpmsI (st : Nat) : Prop := st ≤ 4

/-- Proof that `iso2022_jpms_decoder` satisfies the contract `StDec`. -/
def iso2022_jpms_dec : StDec iso2022_jpms_decoder where
  item := iso2022_jpms_item
  I := jpmsI
  pend := fun _ => false
  eq := rfl
  init := by unfold jpmsI; omega
  good := by
    intro st hI
    have h1 := ascii_one
    have h2 := jisx0201_m_one
    have h3 := jpms_0208_two
    have h4 := jpms_0212_two
    unfold iso2022_jpms_item
    sgood
    all_goals first
      | (refine itemOK_shift ?_ (by omega) (by omega); unfold jpmsI at *; split <;> omega)
      | skip
    sitem jpmsI
  flush_ok := by intro f hf; cases hf

/-- Proof that `iso2022_jpms_encoder` satisfies the contract `StEnc`. -/
def iso2022_jpms_enc : StEnc iso2022_jpms_encoder := SW.toSt (I := jpmsI) (by unfold jpmsI; omega)
  (by
    intro st wc hI
    unfold iso2022_jpms_wctomb
    refine SW.good_try1 (ascii_wOne wc) (fun a _ _ => good_jpOne (by unfold jpmsI; omega)) ?_
    refine SW.good_try1 (jisx0201_w_one wc) (fun a _ _ => good_jpOne (by unfold jpmsI; omega)) ?_
    refine SW.good_try2 (jpms_0208_w2 wc) (fun a b _ _ => good_jpTwo (by unfold jpmsI; omega) rfl (by omega)) ?_
    refine SW.good_try2 (jpms_0212_w2 wc) (fun a b _ _ => good_jpTwo (by unfold jpmsI; omega) rfl (by omega)) ?_
    exact SW.good_iluni (by omega))
  (by intro st _; unfold iso2022_jp_reset; split <;> simp)

/-- The registered encoding `iso2022_jpms` (`lib/encodings.h.snippet:241-245`). -/
def iso2022_jpms_entry : Entry := stEntry ei_iso2022_jpms rfl iso2022_jpms_dec iso2022_jpms_enc

end Reiconv
