import Verif.Codec.Utf8

/-!
# UTF-8: contracts and correctness
-/

namespace Reiconv

theorem byte_lt (b : Byte) : b.toNat < 256 := b.toNat_lt

theorem u8_of_toNat (b : Byte) : u8 b.toNat = b := by simp [u8]

theorem byte_ext {a b : Byte} (h : a.toNat = b.toNat) : a = b := UInt8.toNat_inj.1 h

theorem xor80 : ∀ n, n < 256 → (n ^^^ 0x80 < 0x40 ↔ 0x80 ≤ n ∧ n < 0xc0) ∧
    (0x80 ≤ n ∧ n < 0xc0 → n ^^^ 0x80 = n - 0x80) := by decide +kernel

/-- A continuation byte 10xxxxxx. -/
def isCont (b : Byte) : Prop := 0x80 ≤ b.toNat ∧ b.toNat < 0xc0

instance (b : Byte) : Decidable (isCont b) := by unfold isCont; infer_instance

theorem cont_iff (b : Byte) : (b.toNat ^^^ 0x80 < 0x40) ↔ isCont b :=
  (xor80 _ (byte_lt b)).1

theorem cont_val (b : Byte) (h : 0x80 ≤ b.toNat ∧ b.toNat < 0xc0) :
    b.toNat ^^^ 0x80 = b.toNat - 0x80 := (xor80 _ (byte_lt b)).2 h

theorem and1f : ∀ n, n < 256 → 0xc0 ≤ n → n < 0xe0 → n &&& 0x1f = n - 0xc0 := by decide +kernel
theorem and0f : ∀ n, n < 256 → 0xe0 ≤ n → n < 0xf0 → n &&& 0x0f = n - 0xe0 := by decide +kernel
theorem and07 : ∀ n, n < 256 → 0xf0 ≤ n → n < 0xf8 → n &&& 0x07 = n - 0xf0 := by decide +kernel

theorem shl_or {a b i : Nat} (h : b < 2 ^ i) : a <<< i ||| b = a * 2 ^ i + b := by
  rw [← Nat.shiftLeft_add_eq_or_of_lt h, Nat.shiftLeft_eq]

theorem shl_or6 {a b : Nat} (h : b < 64) : a <<< 6 ||| b = a * 64 + b := shl_or (i := 6) h

theorem shl_or12 {a b c : Nat} (hb : b < 64) (hc : c < 64) :
    a <<< 12 ||| b <<< 6 ||| c = a * 4096 + b * 64 + c := by
  rw [Nat.or_assoc, shl_or6 hc, shl_or (i := 12) (by omega)]; omega

theorem shl_or18 {a b c d : Nat} (hb : b < 64) (hc : c < 64) (hd : d < 64) :
    a <<< 18 ||| b <<< 12 ||| c <<< 6 ||| d = a * 262144 + b * 4096 + c * 64 + d := by
  rw [Nat.or_assoc, Nat.or_assoc, ← Nat.or_assoc (b <<< 12), shl_or12 hc hd,
    shl_or (i := 18) (by omega)]; omega

/-- The result of the UTF-8 decoder in arithmetic form. -/
def utf8Item : List Byte → MbRet
  | [] => .toofew 0
  | b0 :: s =>
    let c := b0.toNat
    if c < 0x80 then .char c 1
    else if c < 0xc2 then .ilseq 0
    else if c < 0xe0 then
      match s with
      | b1 :: _ =>
        if isCont b1 then .char ((c - 0xc0) * 64 + (b1.toNat - 0x80)) 2 else .ilseq 0
      | _ => .toofew 0
    else if c < 0xf0 then
      match s with
      | b1 :: b2 :: _ =>
        if isCont b1 ∧ isCont b2 ∧ (c ≥ 0xe1 ∨ b1.toNat ≥ 0xa0) ∧ (c ≠ 0xed ∨ b1.toNat < 0xa0) then
          .char ((c - 0xe0) * 4096 + (b1.toNat - 0x80) * 64 + (b2.toNat - 0x80)) 3
        else .ilseq 0
      | _ => .toofew 0
    else if c < 0xf8 then
      match s with
      | b1 :: b2 :: b3 :: _ =>
        if isCont b1 ∧ isCont b2 ∧ isCont b3 ∧ (c ≥ 0xf1 ∨ b1.toNat ≥ 0x90) ∧
            (c < 0xf4 ∨ (c = 0xf4 ∧ b1.toNat < 0x90)) then
          .char ((c - 0xf0) * 262144 + (b1.toNat - 0x80) * 4096 + (b2.toNat - 0x80) * 64 +
            (b3.toNat - 0x80)) 4
        else .ilseq 0
      | _ => .toofew 0
    else .ilseq 0

theorem utf8_mbtowc_eq (is : IState) (s : List Byte) (hne : s ≠ []) :
    utf8_mbtowc is s = .ok (utf8Item s, is) := by
  obtain ⟨b0, s, rfl⟩ := List.exists_cons_of_ne_nil hne
  have hb0 := byte_lt b0
  unfold utf8_mbtowc utf8Item
  simp only [rd_zero, Outcome.bind_ok, Outcome.pure_eq]
  by_cases h1 : b0.toNat < 0x80
  · simp only [if_pos h1]
  simp only [if_neg h1]
  by_cases h2 : b0.toNat < 0xc2
  · simp only [if_pos h2]
  simp only [if_neg h2]
  by_cases h3 : b0.toNat < 0xe0
  · simp only [if_pos h3]
    match s with
    | [] => simp
    | b1 :: s =>
      simp only [List.length_cons, rd_succ, rd_zero, Outcome.bind_ok, cont_iff]
      rw [if_neg (by omega)]
      by_cases hc : isCont b1
      · rw [if_neg (not_not_intro hc), if_pos hc, cont_val _ hc, and1f _ hb0 (by omega) h3,
          shl_or6 (by unfold isCont at hc; omega)]
      · rw [if_pos hc, if_neg hc]
  simp only [if_neg h3]
  by_cases h4 : b0.toNat < 0xf0
  · simp only [if_pos h4]
    match s with
    | [] => simp
    | [_] => simp
    | b1 :: b2 :: s =>
      simp only [List.length_cons, rd_succ, rd_zero, Outcome.bind_ok, cont_iff]
      rw [if_neg (by omega)]
      by_cases hc : isCont b1 ∧ isCont b2 ∧ (b0.toNat ≥ 0xe1 ∨ b1.toNat ≥ 0xa0) ∧
          (b0.toNat ≠ 0xed ∨ b1.toNat < 0xa0)
      · rw [if_neg (not_not_intro hc), if_pos hc, cont_val _ hc.1, cont_val _ hc.2.1,
          and0f _ hb0 (by omega) h4]
        have h1 := hc.1; have h2 := hc.2.1; unfold isCont at h1 h2
        rw [shl_or12 (by omega) (by omega)]
      · rw [if_pos hc, if_neg hc]
  simp only [if_neg h4]
  by_cases h5 : b0.toNat < 0xf8
  · simp only [if_pos h5]
    match s with
    | [] => simp
    | [_] => simp
    | [_, _] => simp
    | b1 :: b2 :: b3 :: s =>
      simp only [List.length_cons, rd_succ, rd_zero, Outcome.bind_ok, cont_iff]
      rw [if_neg (by omega)]
      by_cases hc : isCont b1 ∧ isCont b2 ∧ isCont b3 ∧ (b0.toNat ≥ 0xf1 ∨ b1.toNat ≥ 0x90) ∧
          (b0.toNat < 0xf4 ∨ (b0.toNat = 0xf4 ∧ b1.toNat < 0x90))
      · rw [if_neg (not_not_intro hc), if_pos hc, cont_val _ hc.1, cont_val _ hc.2.1,
          cont_val _ hc.2.2.1, and07 _ hb0 (by omega) h5]
        have h1 := hc.1; have h2 := hc.2.1; have h3 := hc.2.2.1; unfold isCont at h1 h2 h3
        rw [shl_or18 (by omega) (by omega) (by omega)]
      · rw [if_pos hc, if_neg hc]
  simp only [if_neg h5]

theorem utf8Item_char {s wc n} (h : utf8Item s = .char wc n) : 1 ≤ n ∧ n ≤ s.length := by
  match s with
  | [] => cases h
  | b0 :: s =>
    unfold utf8Item at h
    simp only at h
    split at h
    · cases h; simp
    split at h
    · cases h
    split at h
    · split at h
      · split at h
        · simp only [MbRet.char.injEq] at h
          simp only [List.length_cons]; omega
        · cases h
      · cases h
    split at h
    · split at h
      · split at h
        · simp only [MbRet.char.injEq] at h
          simp only [List.length_cons]; omega
        · cases h
      · cases h
    split at h
    · split at h
      · split at h
        · simp only [MbRet.char.injEq] at h
          simp only [List.length_cons]; omega
        · cases h
      · cases h
    · cases h

theorem utf8Item_ilseq {s k} (h : utf8Item s = .ilseq k) : k = 0 ∧ 1 ≤ s.length := by
  match s with
  | [] => cases h
  | b0 :: s =>
    refine ⟨?_, by simp⟩
    unfold utf8Item at h
    simp only at h
    split at h
    · cases h
    split at h
    · cases h; rfl
    split at h
    · split at h
      · split at h <;> cases h; rfl
      · cases h
    split at h
    · split at h
      · split at h <;> cases h; rfl
      · cases h
    split at h
    · split at h
      · split at h <;> cases h; rfl
      · cases h
    · cases h; rfl

theorem utf8Item_toofew {s k} (h : utf8Item s = .toofew k) : k = 0 := by
  match s with
  | [] => cases h; rfl
  | b0 :: s =>
    unfold utf8Item at h
    simp only at h
    split at h
    · cases h
    split at h
    · cases h
    split at h
    · split at h
      · split at h <;> cases h
      · cases h; rfl
    split at h
    · split at h
      · split at h <;> cases h
      · cases h; rfl
    split at h
    · split at h
      · split at h <;> cases h
      · cases h; rfl
    · cases h

theorem utf8Item_ext {s t} (hne : s ≠ []) (h : utf8Item s ≠ .toofew 0) :
    utf8Item (s ++ t) = utf8Item s := by
  obtain ⟨b0, s, rfl⟩ := List.exists_cons_of_ne_nil hne
  unfold utf8Item at h ⊢
  simp only [List.cons_append] at h ⊢
  by_cases h1 : b0.toNat < 0x80
  · simp only [if_pos h1]
  simp only [if_neg h1] at h ⊢
  by_cases h2 : b0.toNat < 0xc2
  · simp only [if_pos h2]
  simp only [if_neg h2] at h ⊢
  by_cases h3 : b0.toNat < 0xe0
  · simp only [if_pos h3] at h ⊢
    match s with
    | [] => exact absurd rfl h
    | b1 :: s => rfl
  simp only [if_neg h3] at h ⊢
  by_cases h4 : b0.toNat < 0xf0
  · simp only [if_pos h4] at h ⊢
    match s with
    | [] => exact absurd rfl h
    | [_] => exact absurd rfl h
    | b1 :: b2 :: s => rfl
  simp only [if_neg h4] at h ⊢
  by_cases h5 : b0.toNat < 0xf8
  · simp only [if_pos h5] at h ⊢
    match s with
    | [] => exact absurd rfl h
    | [_] => exact absurd rfl h
    | [_, _] => exact absurd rfl h
    | b1 :: b2 :: b3 :: s => rfl
  simp only [if_neg h5]

/-- Proof that `utf8_dec` satisfies the contract `SimpleDec`. -/
def utf8_simple : SimpleDec utf8_dec 1 where
  g := utf8Item
  eq := utf8_mbtowc_eq
  flush := rfl
  unit_pos := Nat.le_refl 1
  char_ok := fun _ _ _ _ h => utf8Item_char h
  ilseq_ok := fun _ _ _ h => utf8Item_ilseq h
  toofew_ok := fun _ _ _ h => utf8Item_toofew h
  ext := fun _ _ h1 h2 => utf8Item_ext h1 h2

/-! ## Encoder -/

theorem or80 {x : Nat} : 0x80 ||| (x &&& 0x3f) = 0x80 + x % 64 := by
  have h1 : x &&& 0x3f = x % 64 := Nat.and_two_pow_sub_one_eq_mod x 6
  rw [h1]
  have h2 := Nat.two_pow_add_eq_or_of_lt (b := x % 64) (i := 7) (by omega) 1
  simpa using h2.symm

theorem or_mod64 {a b : Nat} (hb : b % 64 = 0) : (a ||| b) % 64 = a % 64 := by
  have := Nat.or_mod_two_pow (a := a) (b := b) (n := 6)
  simp only [Nat.reducePow, hb, Nat.or_zero] at this
  exact this

theorem or_c0 : ∀ x, x < 32 → x ||| 0xc0 = 0xc0 + x := by decide +kernel
theorem or_e0 : ∀ x, x < 16 → x ||| 0x20 ||| 0xc0 = 0xe0 + x := by decide +kernel
theorem or_f0 : ∀ x, x < 8 → x ||| 0x10 ||| 0x20 ||| 0xc0 = 0xf0 + x := by decide +kernel

theorem utf8Store_1 {wc : Nat} (h : wc < 0x80) : utf8Store 1 wc = utf8Enc wc := by
  simp [utf8Store, utf8Enc, h]

theorem utf8Store_2 {wc : Nat} (h1 : 0x80 ≤ wc) (h : wc < 0x800) : utf8Store 2 wc = utf8Enc wc := by
  unfold utf8Store utf8Enc
  rw [if_neg (by omega : ¬ wc < 0x80), if_pos h]
  simp only [Nat.shiftRight_eq_div_pow, Nat.reducePow, or80, Nat.reduceLeDiff, Nat.reduceEqDiff,
    if_true, if_false, List.take_succ_cons, List.take_zero, Nat.le_refl]
  rw [or_c0 _ (by omega)]

theorem utf8Store_3 {wc : Nat} (h1 : 0x800 ≤ wc) (h : wc < 0x10000) :
    utf8Store 3 wc = utf8Enc wc := by
  unfold utf8Store utf8Enc
  rw [if_neg (by omega : ¬ wc < 0x80), if_neg (by omega : ¬ wc < 0x800), if_pos h]
  simp only [or80, Nat.reduceLeDiff, Nat.reduceEqDiff, Nat.le_refl,
    if_true, if_false, List.take_succ_cons, List.take_zero, Nat.shiftRight_or_distrib,
    Nat.reduceShiftRight, ← Nat.shiftRight_add, Nat.reduceAdd]
  simp only [Nat.shiftRight_eq_div_pow, Nat.reducePow]
  rw [or_e0 _ (by omega), or_mod64 (by decide)]

theorem utf8Store_4 {wc : Nat} (h1 : 0x10000 ≤ wc) (h : wc < 0x110000) :
    utf8Store 4 wc = utf8Enc wc := by
  unfold utf8Store utf8Enc
  rw [if_neg (by omega : ¬ wc < 0x80), if_neg (by omega : ¬ wc < 0x800),
    if_neg (by omega : ¬ wc < 0x10000)]
  simp only [or80, Nat.reduceLeDiff,
    if_true, List.take_succ_cons, List.take_zero, Nat.shiftRight_or_distrib,
    Nat.reduceShiftRight, ← Nat.shiftRight_add, Nat.reduceAdd]
  simp only [Nat.shiftRight_eq_div_pow, Nat.reducePow]
  rw [or_f0 _ (by omega), or_mod64 (by decide), or_mod64 (by decide), or_mod64 (by decide)]

theorem utf8Enc_length (wc : Nat) : (utf8Enc wc).length =
    if wc < 0x80 then 1 else if wc < 0x800 then 2 else if wc < 0x10000 then 3 else 4 := by
  unfold utf8Enc; split
  · rfl
  split
  · rfl
  split <;> rfl

theorem utf8_wctomb_eq (os wc n : Nat) : utf8_wctomb os wc n =
    .ok (if Scalar wc then
      (if (utf8Enc wc).length ≤ n then .put (utf8Enc wc) os else .small os)
      else .iluni os) := by
  unfold utf8_wctomb
  rw [utf8Enc_length]
  by_cases h1 : wc < 0x80
  · simp only [if_pos h1, utf8Store_1 h1]
    rw [if_pos (show Scalar wc by unfold Scalar; omega)]
    by_cases hn : n < 1
    · rw [if_pos hn, if_neg (by omega)]
    · rw [if_neg hn, if_pos (by omega)]
  simp only [if_neg h1]
  by_cases h2 : wc < 0x800
  · simp only [if_pos h2, utf8Store_2 (by omega) h2]
    rw [if_pos (show Scalar wc by unfold Scalar; omega)]
    by_cases hn : n < 2
    · rw [if_pos hn, if_neg (by omega)]
    · rw [if_neg hn, if_pos (by omega)]
  simp only [if_neg h2]
  by_cases h3 : wc < 0x10000
  · simp only [if_pos h3]
    by_cases hs : wc < 0xd800 ∨ wc ≥ 0xe000
    · simp only [if_pos hs, utf8Store_3 (by omega) h3]
      rw [if_pos (show Scalar wc by unfold Scalar; omega)]
      by_cases hn : n < 3
      · rw [if_pos hn, if_neg (by omega)]
      · rw [if_neg hn, if_pos (by omega)]
    · simp only [if_neg hs]
      rw [if_neg (show ¬ Scalar wc by unfold Scalar; omega)]
  simp only [if_neg h3]
  by_cases h4 : wc < 0x110000
  · simp only [if_pos h4, utf8Store_4 (by omega) h4]
    rw [if_pos (show Scalar wc by unfold Scalar; omega)]
    by_cases hn : n < 4
    · rw [if_pos hn, if_neg (by omega)]
    · rw [if_neg hn, if_pos (by omega)]
  · simp only [if_neg h4]
    rw [if_neg (show ¬ Scalar wc by unfold Scalar; omega)]

/-- Proof that `utf8_enc` satisfies the contract `SimpleEnc`. -/
def utf8_senc : SimpleEnc utf8_enc where
  minRoom := 0
  minRoom_le := by omega
  enc := fun wc => if Scalar wc then some (utf8Enc wc) else none
  need := fun wc => if Scalar wc then (utf8Enc wc).length else 0
  eq := by
    intro os wc n
    show utf8_wctomb os wc n = _
    rw [utf8_wctomb_eq]
    by_cases h : Scalar wc
    · simp only [if_pos h]
    · simp only [if_neg h, Nat.zero_le, if_true]
  need_le := by
    intro wc
    split
    · rw [utf8Enc_length]; repeat' split
      all_goals omega
    · omega
  len := by
    intro wc bs h
    by_cases hs : Scalar wc
    · simp only [if_pos hs, Option.some.injEq] at h ⊢
      subst h
      refine ⟨?_, by omega, by omega⟩
      intro hc
      have := utf8Enc_length wc
      rw [hc] at this
      simp only [List.length_nil] at this
      repeat' split at this
      all_goals omega
    · rw [if_neg hs] at h; cases h
  reset := rfl

/-! ## The decoder inverts the encoding -/

theorem utf8Item_enc {wc : Nat} (h : Scalar wc) (t : List Byte) :
    utf8Item (utf8Enc wc ++ t) = .char wc (utf8Enc wc).length := by
  unfold Scalar at h
  unfold utf8Enc
  by_cases h1 : wc < 0x80
  · simp only [if_pos h1, List.cons_append, List.nil_append, utf8Item, u8_toNat]
    rw [if_pos (by omega)]
    simp; omega
  simp only [if_neg h1]
  by_cases h2 : wc < 0x800
  · simp only [if_pos h2, List.cons_append, List.nil_append, utf8Item, u8_toNat, isCont]
    rw [if_neg (by omega), if_neg (by omega), if_pos (by omega), if_pos (by omega)]
    simp; omega
  simp only [if_neg h2]
  by_cases h3 : wc < 0x10000
  · simp only [if_pos h3, List.cons_append, List.nil_append, utf8Item, u8_toNat, isCont]
    rw [if_neg (by omega), if_neg (by omega), if_neg (by omega), if_pos (by omega),
      if_pos (by omega)]
    simp; omega
  · simp only [if_neg h3, List.cons_append, List.nil_append, utf8Item, u8_toNat, isCont]
    rw [if_neg (by omega), if_neg (by omega), if_neg (by omega), if_neg (by omega),
      if_pos (by omega), if_pos (by omega)]
    simp; omega

theorem utf8Item_char_enc {s wc n} (h : utf8Item s = .char wc n) :
    Scalar wc ∧ n = (utf8Enc wc).length ∧ s.take n = utf8Enc wc := by
  match s with
  | [] => cases h
  | b0 :: s =>
    have hb0 := byte_lt b0
    unfold utf8Item at h
    simp only at h
    split at h
    · next h1 =>
      cases h
      unfold Scalar utf8Enc
      rw [if_pos h1]
      exact ⟨by omega, rfl, by simp [u8]⟩
    split at h
    · cases h
    split at h
    · split at h
      · next b1 s =>
        split at h
        case isFalse => cases h
        next hc =>
        simp only [MbRet.char.injEq] at h
        obtain ⟨h, rfl⟩ := h
        unfold isCont at hc
        unfold Scalar utf8Enc
        rw [if_neg (by omega), if_pos (by omega)]
        refine ⟨by omega, rfl, ?_⟩
        simp only [List.take_succ_cons, List.take_zero, List.cons.injEq, and_true]
        exact ⟨byte_ext (by rw [u8_toNat]; omega), byte_ext (by rw [u8_toNat]; omega)⟩
      · cases h
    split at h
    · split at h
      · next b1 b2 s =>
        split at h
        case isFalse => cases h
        next hc =>
        simp only [MbRet.char.injEq] at h
        obtain ⟨h, rfl⟩ := h
        unfold isCont at hc
        unfold Scalar utf8Enc
        rw [if_neg (by omega), if_neg (by omega), if_pos (by omega)]
        refine ⟨by omega, rfl, ?_⟩
        simp only [List.take_succ_cons, List.take_zero, List.cons.injEq, and_true]
        exact ⟨byte_ext (by rw [u8_toNat]; omega), byte_ext (by rw [u8_toNat]; omega),
          byte_ext (by rw [u8_toNat]; omega)⟩
      · cases h
    split at h
    · split at h
      · next b1 b2 b3 s =>
        split at h
        case isFalse => cases h
        next hc =>
        simp only [MbRet.char.injEq] at h
        obtain ⟨h, rfl⟩ := h
        unfold isCont at hc
        unfold Scalar utf8Enc
        rw [if_neg (by omega), if_neg (by omega), if_neg (by omega)]
        refine ⟨by omega, rfl, ?_⟩
        simp only [List.take_succ_cons, List.take_zero, List.cons.injEq, and_true]
        exact ⟨byte_ext (by rw [u8_toNat]; omega), byte_ext (by rw [u8_toNat]; omega),
          byte_ext (by rw [u8_toNat]; omega), byte_ext (by rw [u8_toNat]; omega)⟩
      · cases h
    · cases h

/-! ## ASCII and ISO-8859-1 -/

/-- Proof that `ascii_dec` satisfies the contract `SimpleDec`. -/
def ascii_simple : SimpleDec ascii_dec 1 where
  g := fun s => match s with
    | [] => .toofew 0
    | b :: _ => if b.toNat < 0x80 then .char b.toNat 1 else .ilseq 0
  eq := by
    intro is s hne
    obtain ⟨b, s, rfl⟩ := List.exists_cons_of_ne_nil hne
    simp only [ascii_dec, ascii_mbtowc, rd_zero, Outcome.bind_ok, Outcome.pure_eq]
    split <;> rfl
  flush := rfl
  unit_pos := Nat.le_refl 1
  char_ok := by
    intro s wc n hne h
    obtain ⟨b, s, rfl⟩ := List.exists_cons_of_ne_nil hne
    simp only at h
    split at h <;> cases h
    simp
  ilseq_ok := by
    intro s k hne h
    obtain ⟨b, s, rfl⟩ := List.exists_cons_of_ne_nil hne
    simp only at h
    split at h <;> cases h
    simp
  toofew_ok := by
    intro s k hne h
    obtain ⟨b, s, rfl⟩ := List.exists_cons_of_ne_nil hne
    simp only at h
    split at h <;> cases h
  ext := by
    intro s t hne h
    obtain ⟨b, s, rfl⟩ := List.exists_cons_of_ne_nil hne
    rfl

/-- Proof that `ascii_enc` satisfies the contract `SimpleEnc`. -/
def ascii_senc : SimpleEnc ascii_enc where
  minRoom := 1
  minRoom_le := by omega
  enc := fun wc => if wc < 0x80 then some [u8 wc] else none
  need := fun _ => 0
  eq := by
    intro os wc n
    simp only [ascii_enc, ascii_wctomb]
    split <;> simp
  need_le := by intro wc; omega
  len := by
    intro wc bs h
    split at h <;> cases h
    simp
  reset := rfl

/-- Proof that `iso8859_1_dec` satisfies the contract `SimpleDec`. -/
def iso8859_1_simple : SimpleDec iso8859_1_dec 1 where
  g := fun s => match s with
    | [] => .toofew 0
    | b :: _ => .char b.toNat 1
  eq := by
    intro is s hne
    obtain ⟨b, s, rfl⟩ := List.exists_cons_of_ne_nil hne
    simp only [iso8859_1_dec, iso8859_1_mbtowc, rd_zero, Outcome.bind_ok, Outcome.pure_eq]
  flush := rfl
  unit_pos := Nat.le_refl 1
  char_ok := by
    intro s wc n hne h
    obtain ⟨b, s, rfl⟩ := List.exists_cons_of_ne_nil hne
    cases h
    simp
  ilseq_ok := by
    intro s k hne h
    obtain ⟨b, s, rfl⟩ := List.exists_cons_of_ne_nil hne
    cases h
  toofew_ok := by
    intro s k hne h
    obtain ⟨b, s, rfl⟩ := List.exists_cons_of_ne_nil hne
    cases h
  ext := by
    intro s t hne h
    obtain ⟨b, s, rfl⟩ := List.exists_cons_of_ne_nil hne
    rfl

/-- Proof that `iso8859_1_enc` satisfies the contract `SimpleEnc`. -/
def iso8859_1_senc : SimpleEnc iso8859_1_enc where
  minRoom := 1
  minRoom_le := by omega
  enc := fun wc => if wc < 0x100 then some [u8 wc] else none
  need := fun _ => 0
  eq := by
    intro os wc n
    simp only [iso8859_1_enc, iso8859_1_wctomb]
    split <;> simp
  need_le := by intro wc; omega
  len := by
    intro wc bs h
    split at h <;> cases h
    simp
  reset := rfl

end Reiconv
