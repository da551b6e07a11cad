import Verif.Codec.TreeTac
import Verif.Entry

/-!
# C99 and JAVA

Model of `lib/converters/c99.h` and `lib/converters/java.h`: ASCII (Latin-1 when decoding JAVA) with
`\u` escapes.
-/

namespace Reiconv

/-! ## Model -/

/-- The digits that the loops of `c99_mbtowc` and `java_mbtowc` accept, and their values
(`lib/converters/c99.h:62-69`, `86-93`, `lib/converters/java.h:58-65`, `89-96`): `c` is an
`unsigned char`, the letters go up to `Z`. -/
def escDigit (c : Nat) : Option Nat :=
  if c ≥ 0x30 ∧ c ≤ 0x39 then some (c - 0x30)
  else if c ≥ 0x41 ∧ c ≤ 0x5a then some (c - (0x41 - 10))
  else if c ≥ 0x61 ∧ c ≤ 0x7a then some (c - (0x61 - 10))
  else none

/-- The loops over the digits (`lib/converters/c99.h:57-71`, `81-95`, `lib/converters/java.h:53-67`,
`84-98`): `k` digits from `s[i]` on, collected in `wc`, a 32 bit variable; then `f wc`, or `bs` (the
label `simply_backslash`). -/
def escLoop (f : Nat → M MbRet) (bs : M MbRet) : Nat → Nat → Nat → M MbRet
  | _, 0, wc => f wc
  | i, k + 1, wc =>
    .need (i + 1) <| .byte i fun c =>
      match escDigit c with
      | some d => escLoop f bs (i + 1) k (wc ||| (d <<< (4 * k)) % 4294967296)
      | none => bs

/-- `simply_backslash` (`lib/converters/c99.h:106-108`, `lib/converters/java.h:103-105`). -/
def simplyBackslash : M MbRet := .ret (.char 0x5c 1)

/-- The characters that C99 allows as escapes (`lib/converters/c99.h:72`, `96`). -/
def c99Allowed (wc : Nat) : Prop :=
  (wc ≥ 0xa0 ∧ ¬ (wc ≥ 0xd800 ∧ wc < 0xe000)) ∨ wc = 0x24 ∨ wc = 0x40 ∨ wc = 0x60

instance (wc : Nat) : Decidable (c99Allowed wc) := by unfold c99Allowed; infer_instance

/-- `c99_mbtowc` (`lib/converters/c99.h:37-109`). -/
def c99_mbtowc : M MbRet :=
  .byte 0 fun c =>
    if c < 0xa0 then
      if c ≠ 0x5c then .ret (.char c 1)
      else .need 2 <| .byte 1 fun c =>
        if c = 0x75 then
          escLoop (fun wc => if c99Allowed wc then .ret (.char wc 6) else .ret (.ilseq 0))
            simplyBackslash 2 4 0
        else if c = 0x55 then
          escLoop (fun wc => if c99Allowed wc then .ret (.char wc 10) else .ret (.ilseq 0))
            simplyBackslash 2 8 0
        else simplyBackslash
    else .ret (.ilseq 0)

/-- `java_mbtowc` (`lib/converters/java.h:36-106`). -/
def java_mbtowc : M MbRet :=
  .byte 0 fun c =>
    if c ≠ 0x5c then .ret (.char c 1)
    else .need 2 <| .byte 1 fun c =>
      if c ≠ 0x75 then simplyBackslash
      else escLoop (fun wc =>
        if ¬ (wc ≥ 0xd800 ∧ wc < 0xe000) then .ret (.char wc 6)
        else if wc ≥ 0xdc00 then simplyBackslash
        else .need 7 <| .byte 6 fun c =>
          if c ≠ 0x5c then simplyBackslash
          else .need 8 <| .byte 7 fun c =>
            if c ≠ 0x75 then simplyBackslash
            else escLoop (fun wc2 =>
              if ¬ (wc2 ≥ 0xdc00 ∧ wc2 < 0xe000) then simplyBackslash
              else .ret (.char (0x10000 + ((wc - 0xd800) <<< 10) + (wc2 - 0xdc00)) 12))
              simplyBackslash 8 4 0) simplyBackslash 2 4 0

/-- One stored digit (`lib/converters/c99.h:141`, `lib/converters/java.h:122-129`, `144-161`). -/
def escHex (i : Nat) : Nat := if i < 10 then 0x30 + i else 0x61 - 10 + i

/-- The loop of `c99_wctomb` over the digits, with `count` from `k - 1` down to 0
(`lib/converters/c99.h:138-142`). -/
def escStore (wc : Nat) : Nat → List Byte
  | 0 => []
  | k + 1 => u8 (escHex ((wc >>> (4 * k)) &&& 0x0f)) :: escStore wc k

/-- `c99_wctomb` (`lib/converters/c99.h:111-148`). -/
def c99_wctomb (os wc n : Nat) : Outcome WcRes :=
  if wc < 0xa0 then .ok (.put [u8 wc] os)
  else
    let result := if wc < 0x10000 then 6 else 10
    let u := if wc < 0x10000 then 0x75 else 0x55
    if n ≥ result then .ok (.put (u8 0x5c :: u8 u :: escStore wc (result - 2)) os)
    else .ok (.small os)

/-- `java_wctomb` (`lib/converters/java.h:108-168`). -/
def java_wctomb (os wc n : Nat) : Outcome WcRes :=
  if wc < 0x80 then .ok (.put [u8 wc] os)
  else if wc < 0x10000 then
    if n ≥ 6 then
      .ok (.put [u8 0x5c, u8 0x75, u8 (escHex ((wc >>> 12) &&& 0x0f)), u8 (escHex ((wc >>> 8) &&& 0x0f)),
        u8 (escHex ((wc >>> 4) &&& 0x0f)), u8 (escHex (wc &&& 0x0f))] os)
    else .ok (.small os)
  else if wc < 0x110000 then
    if n ≥ 12 then
      let wc1 := 0xd800 + ((wc - 0x10000) >>> 10)
      let wc2 := 0xdc00 + ((wc - 0x10000) &&& 0x3ff)
      .ok (.put [u8 0x5c, u8 0x75, u8 (escHex ((wc1 >>> 12) &&& 0x0f)), u8 (escHex ((wc1 >>> 8) &&& 0x0f)),
        u8 (escHex ((wc1 >>> 4) &&& 0x0f)), u8 (escHex (wc1 &&& 0x0f)),
        u8 0x5c, u8 0x75, u8 (escHex ((wc2 >>> 12) &&& 0x0f)), u8 (escHex ((wc2 >>> 8) &&& 0x0f)),
        u8 (escHex ((wc2 >>> 4) &&& 0x0f)), u8 (escHex (wc2 &&& 0x0f))] os)
    else .ok (.small os)
  else .ok (.iluni os)

/-- The functions `c99_wctomb` (`lib/converters/c99.h:111-148`). -/
def c99_enc : Encoder := ⟨c99_wctomb, none⟩
/-- The functions `java_wctomb` (`lib/converters/java.h:108-168`). -/
def java_enc : Encoder := ⟨java_wctomb, none⟩

/-! ## The decoders are well behaved -/

theorem escLoop_good {f : Nat → M MbRet} {bs : M MbRet} (hb : ∀ k, 1 ≤ k → M.Good M.RetOK k bs) :
    ∀ (k i wc l : Nat), 1 ≤ l → (∀ wc j, l ≤ j → i + k ≤ j → M.Good M.RetOK j (f wc)) →
      (i ≤ l) → M.Good M.RetOK l (escLoop f bs i k wc) := by
  intro k
  induction k with
  | zero => intro i wc l hl hf hi; exact hf wc l (Nat.le_refl _) hi
  | succ k ih =>
    intro i wc l hl hf hi
    refine ⟨by omega, fun b _ => ?_⟩
    show M.Good _ _ (match escDigit b with | some d => _ | none => _)
    cases escDigit b with
    | none => exact hb _ (by omega)
    | some d => exact ih _ _ _ (by omega) (fun wc j h1 h2 => hf wc j (by omega) (by omega)) (by omega)

theorem simplyBackslash_good (k : Nat) (h : 1 ≤ k) : M.Good M.RetOK k simplyBackslash :=
  M.retOK_char (Nat.le_refl 1) h

theorem c99_good : M.Good M.RetOK 1 c99_mbtowc := by
  refine ⟨by omega, fun c _ => ?_⟩
  show M.Good _ _ (ite _ _ _)
  split
  · split
    · exact M.retOK_char (Nat.le_refl 1) (Nat.le_refl 1)
    · refine ⟨by omega, fun c _ => ?_⟩
      show M.Good _ _ (ite _ _ _)
      split
      · refine escLoop_good simplyBackslash_good _ _ _ _ (by omega) (fun wc j h1 h2 => ?_) (by omega)
        split
        · exact M.retOK_char (by omega) (by omega)
        · exact M.retOK_ilseq (by omega)
      split
      · refine escLoop_good simplyBackslash_good _ _ _ _ (by omega) (fun wc j h1 h2 => ?_) (by omega)
        split
        · exact M.retOK_char (by omega) (by omega)
        · exact M.retOK_ilseq (by omega)
      · exact simplyBackslash_good _ (by omega)
  · exact M.retOK_ilseq (Nat.le_refl 1)

theorem java_good : M.Good M.RetOK 1 java_mbtowc := by
  refine ⟨by omega, fun c _ => ?_⟩
  show M.Good _ _ (ite _ _ _)
  split
  · exact M.retOK_char (Nat.le_refl 1) (Nat.le_refl 1)
  refine ⟨by omega, fun c _ => ?_⟩
  show M.Good _ _ (ite _ _ _)
  split
  · exact simplyBackslash_good _ (by omega)
  refine escLoop_good simplyBackslash_good _ _ _ _ (by omega) (fun wc j h1 h2 => ?_) (by omega)
  split
  · exact M.retOK_char (by omega) (by omega)
  split
  · exact simplyBackslash_good _ (by omega)
  refine ⟨by omega, fun c _ => ?_⟩
  show M.Good _ _ (ite _ _ _)
  split
  · exact simplyBackslash_good _ (by omega)
  refine ⟨by omega, fun c _ => ?_⟩
  show M.Good _ _ (ite _ _ _)
  split
  · exact simplyBackslash_good _ (by omega)
  refine escLoop_good simplyBackslash_good _ _ _ _ (by omega) (fun wc j h1 h2 => ?_) (by omega)
  split
  · exact simplyBackslash_good _ (by omega)
  · exact M.retOK_char (by omega) (by omega)

/-! ## Specification of the written form -/

/-- The hexadecimal digit with value `i < 16`, lower case. -/
def hexChar (i : Nat) : Byte := u8 (if i < 10 then 48 + i else 87 + i)

/-- `v` as `k` hexadecimal digits. -/
def hexStr : Nat → Nat → List Byte
  | 0, _ => []
  | k + 1, v => hexChar (v / 16 ^ k % 16) :: hexStr k v

/-- A C99 universal character name, `\uXXXX` or `\UXXXXXXXX`; characters below U+00A0 stand for
themselves. -/
def c99Str (wc : Nat) : List Byte :=
  if wc < 0xa0 then [u8 wc]
  else if wc < 0x10000 then u8 0x5c :: u8 0x75 :: hexStr 4 wc
  else u8 0x5c :: u8 0x55 :: hexStr 8 wc

/-- Java source text: ASCII characters stand for themselves, all others are the `\uXXXX` escapes of
their UTF-16 units. -/
def javaStr (wc : Nat) : List Byte :=
  if wc < 0x80 then [u8 wc]
  else if wc < 0x10000 then u8 0x5c :: u8 0x75 :: hexStr 4 wc
  else u8 0x5c :: u8 0x75 :: hexStr 4 (0xd800 + (wc - 0x10000) / 1024) ++
    (u8 0x5c :: u8 0x75 :: hexStr 4 (0xdc00 + (wc - 0x10000) % 1024))

theorem hexStr_length (k v : Nat) : (hexStr k v).length = k := by
  induction k with
  | zero => rfl
  | succ k ih => simp [hexStr, ih]

/-! ## The encoders -/

theorem escHex_eq (i : Nat) : u8 (escHex i) = hexChar i := rfl

theorem and15 (x : Nat) : x &&& 0x0f = x % 16 := Nat.and_two_pow_sub_one_eq_mod x 4

theorem escStore_eq (wc k : Nat) : escStore wc k = hexStr k wc := by
  induction k with
  | zero => rfl
  | succ k ih =>
    simp only [escStore, hexStr, ih, escHex_eq, and15, Nat.shiftRight_eq_div_pow, Nat.pow_mul]

theorem hexStr4 (wc : Nat) : hexStr 4 wc = [u8 (escHex ((wc >>> 12) &&& 0x0f)),
    u8 (escHex ((wc >>> 8) &&& 0x0f)), u8 (escHex ((wc >>> 4) &&& 0x0f)), u8 (escHex (wc &&& 0x0f))] := by
  rw [← escStore_eq]; rfl

theorem c99Str_length (wc : Nat) :
    (c99Str wc).length = if wc < 0xa0 then 1 else if wc < 0x10000 then 6 else 10 := by
  unfold c99Str
  split
  · rfl
  split <;> simp [hexStr_length]

theorem javaStr_length (wc : Nat) :
    (javaStr wc).length = if wc < 0x80 then 1 else if wc < 0x10000 then 6 else 12 := by
  unfold javaStr
  split
  · rfl
  split <;> simp [hexStr_length]

/-- Proof that `c99_enc` satisfies the contract `SimpleEnc`. -/
def c99_senc : SimpleEnc c99_enc where
  minRoom := 1
  minRoom_le := Nat.le_refl 1
  enc := fun wc => some (c99Str wc)
  need := fun wc => if wc < 0xa0 then 0 else if wc < 0x10000 then 6 else 10
  eq := by
    intro os wc n
    show c99_wctomb os wc n = _
    unfold c99_wctomb c99Str
    by_cases h1 : wc < 0xa0
    · simp only [if_pos h1, Nat.zero_le, if_true]
    · simp only [if_neg h1]
      by_cases h2 : wc < 0x10000
      · simp only [if_pos h2, escStore_eq, ge_iff_le]
        split <;> rfl
      · simp only [if_neg h2, escStore_eq, ge_iff_le]
        split <;> rfl
  need_le := by intro wc; split <;> (try split) <;> omega
  len := by
    intro wc bs h
    cases h
    refine ⟨?_, ?_⟩
    · intro h
      have := c99Str_length wc
      rw [h] at this
      simp only [List.length_nil] at this
      split at this <;> (try split at this) <;> omega
    · rw [c99Str_length]
      split <;> (try split) <;> omega
  reset := rfl

/-- Proof that `java_enc` satisfies the contract `SimpleEnc`. -/
def java_senc : SimpleEnc java_enc where
  minRoom := 1
  minRoom_le := Nat.le_refl 1
  enc := fun wc => if wc < 0x110000 then some (javaStr wc) else none
  need := fun wc => if wc < 0x80 then 0 else if wc < 0x10000 then 6 else if wc < 0x110000 then 12 else 0
  eq := by
    intro os wc n
    show java_wctomb os wc n = _
    unfold java_wctomb javaStr
    by_cases h1 : wc < 0x80
    · simp only [if_pos h1, Nat.zero_le, if_true, if_pos (show wc < 0x110000 by omega)]
    · simp only [if_neg h1]
      by_cases h2 : wc < 0x10000
      · simp only [if_pos h2, hexStr4, ge_iff_le, if_pos (show wc < 0x110000 by omega)]
        split <;> rfl
      · simp only [if_neg h2]
        by_cases h3 : wc < 0x110000
        · simp only [if_pos h3, hexStr4, ge_iff_le]
          have e1 : (wc - 0x10000) >>> 10 = (wc - 0x10000) / 1024 := Nat.shiftRight_eq_div_pow _ 10
          have e2 : (wc - 0x10000) &&& 0x3ff = (wc - 0x10000) % 1024 :=
            Nat.and_two_pow_sub_one_eq_mod _ 10
          rw [e1, e2]
          split <;> rfl
        · simp only [if_neg h3, Nat.zero_le, if_true]
  need_le := by intro wc; split <;> (try split) <;> (try split) <;> omega
  len := by
    intro wc bs h
    split at h
    · cases h
      have hl := javaStr_length wc
      refine ⟨?_, ?_⟩
      · intro h
        rw [h] at hl
        simp only [List.length_nil] at hl
        split at hl <;> (try split at hl) <;> omega
      · rw [hl]
        split <;> (try split) <;> (try split) <;> omega
    · cases h
  reset := rfl

/-- The registered encoding `c99` (`lib/encodings.h.snippet:190-190`). -/
def c99_entry : Entry := simpleEntry ei_c99 1 (by decide) (M.simple _ c99_good) c99_senc
/-- The registered encoding `java` (`lib/encodings.h.snippet:192-192`). -/
def java_entry : Entry := simpleEntry ei_java 1 (by decide) (M.simple _ java_good) java_senc

end Reiconv
