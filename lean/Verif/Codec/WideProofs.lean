import Verif.Codec.Wide
import Verif.Codec.Utf8Proofs

/-!
# UCS-2, UCS-4, UTF-16, UTF-32: contracts and correctness
-/

namespace Reiconv

/-! ## Units -/

/-- Big endian 16 bit unit at the start of `s`. -/
def u16be : List Byte → Nat
  | a :: b :: _ => a.toNat * 256 + b.toNat
  | _ => 0

def u16le : List Byte → Nat
  | a :: b :: _ => a.toNat + b.toNat * 256
  | _ => 0

def u32be : List Byte → Nat
  | a :: b :: c :: d :: _ => a.toNat * 16777216 + b.toNat * 65536 + c.toNat * 256 + d.toNat
  | _ => 0

def u32le : List Byte → Nat
  | a :: b :: c :: d :: _ => a.toNat + b.toNat * 256 + c.toNat * 65536 + d.toNat * 16777216
  | _ => 0

/-- Big endian bytes of a 16 bit unit. -/
def b16 (v : Nat) : List Byte := [u8 (v / 256), u8 v]
/-- Little endian bytes of a 16 bit unit. -/
def l16 (v : Nat) : List Byte := [u8 v, u8 (v / 256)]
def b32 (v : Nat) : List Byte := [u8 (v / 16777216), u8 (v / 65536), u8 (v / 256), u8 v]
def l32 (v : Nat) : List Byte := [u8 v, u8 (v / 256), u8 (v / 65536), u8 (v / 16777216)]

theorem len2 {s : List Byte} (h : 2 ≤ s.length) : ∃ a b t, s = a :: b :: t := by
  match s with
  | a :: b :: t => exact ⟨a, b, t, rfl⟩
  | [_] => simp at h
  | [] => simp at h

theorem len4 {s : List Byte} (h : 4 ≤ s.length) : ∃ a b c d t, s = a :: b :: c :: d :: t := by
  match s with
  | a :: b :: c :: d :: t => exact ⟨a, b, c, d, t, rfl⟩
  | [_, _, _] => simp at h
  | [_, _] => simp at h
  | [_] => simp at h
  | [] => simp at h

theorem be16At_eq {s : List Byte} (h : 2 ≤ s.length) : be16At s 0 = .ok (u16be s) := by
  obtain ⟨a, b, t, rfl⟩ := len2 h
  simp [be16At, u16be, Nat.shiftLeft_eq]

theorem le16At_eq {s : List Byte} (h : 2 ≤ s.length) : le16At s 0 = .ok (u16le s) := by
  obtain ⟨a, b, t, rfl⟩ := len2 h
  simp [le16At, u16le, Nat.shiftLeft_eq]

theorem be16At2_eq {s : List Byte} (h : 4 ≤ s.length) : be16At s 2 = .ok (u16be (s.drop 2)) := by
  obtain ⟨a, b, c, d, t, rfl⟩ := len4 h
  simp [be16At, u16be, Nat.shiftLeft_eq]

theorem le16At2_eq {s : List Byte} (h : 4 ≤ s.length) : le16At s 2 = .ok (u16le (s.drop 2)) := by
  obtain ⟨a, b, c, d, t, rfl⟩ := len4 h
  simp [le16At, u16le, Nat.shiftLeft_eq]

theorem be32At_eq {s : List Byte} (h : 4 ≤ s.length) : be32At s = .ok (u32be s) := by
  obtain ⟨a, b, c, d, t, rfl⟩ := len4 h
  simp [be32At, u32be, Nat.shiftLeft_eq]

theorem le32At_eq {s : List Byte} (h : 4 ≤ s.length) : le32At s = .ok (u32le s) := by
  obtain ⟨a, b, c, d, t, rfl⟩ := len4 h
  simp [le32At, u32le, Nat.shiftLeft_eq]

theorem u16be_lt (s : List Byte) : u16be s < 65536 := by
  unfold u16be; split
  · next a b _ => have := byte_lt a; have := byte_lt b; omega
  · omega

theorem u16le_lt (s : List Byte) : u16le s < 65536 := by
  unfold u16le; split
  · next a b _ => have := byte_lt a; have := byte_lt b; omega
  · omega

theorem u32be_lt (s : List Byte) : u32be s < 4294967296 := by
  unfold u32be; split
  · next a b c d _ =>
    have := byte_lt a; have := byte_lt b; have := byte_lt c; have := byte_lt d; omega
  · omega

theorem u32le_lt (s : List Byte) : u32le s < 4294967296 := by
  unfold u32le; split
  · next a b c d _ =>
    have := byte_lt a; have := byte_lt b; have := byte_lt c; have := byte_lt d; omega
  · omega

theorem u16be_append {s t : List Byte} (h : 2 ≤ s.length) : u16be (s ++ t) = u16be s := by
  obtain ⟨a, b, t, rfl⟩ := len2 h; rfl
theorem u16le_append {s t : List Byte} (h : 2 ≤ s.length) : u16le (s ++ t) = u16le s := by
  obtain ⟨a, b, t, rfl⟩ := len2 h; rfl
theorem u32be_append {s t : List Byte} (h : 4 ≤ s.length) : u32be (s ++ t) = u32be s := by
  obtain ⟨a, b, c, d, t, rfl⟩ := len4 h; rfl
theorem u32le_append {s t : List Byte} (h : 4 ≤ s.length) : u32le (s ++ t) = u32le s := by
  obtain ⟨a, b, c, d, t, rfl⟩ := len4 h; rfl

theorem u16be_b16 {v : Nat} (h : v < 65536) (t : List Byte) : u16be (b16 v ++ t) = v := by
  simp only [b16, List.cons_append, List.nil_append, u16be, u8_toNat]; omega
theorem u16le_l16 {v : Nat} (h : v < 65536) (t : List Byte) : u16le (l16 v ++ t) = v := by
  simp only [l16, List.cons_append, List.nil_append, u16le, u8_toNat]; omega
theorem u32be_b32 {v : Nat} (h : v < 4294967296) (t : List Byte) : u32be (b32 v ++ t) = v := by
  simp only [b32, List.cons_append, List.nil_append, u32be, u8_toNat]; omega
theorem u32le_l32 {v : Nat} (h : v < 4294967296) (t : List Byte) : u32le (l32 v ++ t) = v := by
  simp only [l32, List.cons_append, List.nil_append, u32le, u8_toNat]; omega

theorem b16_u16be {s : List Byte} (h : 2 ≤ s.length) : b16 (u16be s) = s.take 2 := by
  obtain ⟨a, b, t, rfl⟩ := len2 h
  have := byte_lt a; have := byte_lt b
  simp only [b16, u16be, List.take_succ_cons, List.take_zero, List.cons.injEq, and_true]
  exact ⟨byte_ext (by rw [u8_toNat]; omega), byte_ext (by rw [u8_toNat]; omega)⟩
theorem l16_u16le {s : List Byte} (h : 2 ≤ s.length) : l16 (u16le s) = s.take 2 := by
  obtain ⟨a, b, t, rfl⟩ := len2 h
  have := byte_lt a; have := byte_lt b
  simp only [l16, u16le, List.take_succ_cons, List.take_zero, List.cons.injEq, and_true]
  exact ⟨byte_ext (by rw [u8_toNat]; omega), byte_ext (by rw [u8_toNat]; omega)⟩
theorem b32_u32be {s : List Byte} (h : 4 ≤ s.length) : b32 (u32be s) = s.take 4 := by
  obtain ⟨a, b, c, d, t, rfl⟩ := len4 h
  have := byte_lt a; have := byte_lt b; have := byte_lt c; have := byte_lt d
  simp only [b32, u32be, List.take_succ_cons, List.take_zero, List.cons.injEq, and_true]
  exact ⟨byte_ext (by rw [u8_toNat]; omega), byte_ext (by rw [u8_toNat]; omega),
    byte_ext (by rw [u8_toNat]; omega), byte_ext (by rw [u8_toNat]; omega)⟩
theorem l32_u32le {s : List Byte} (h : 4 ≤ s.length) : l32 (u32le s) = s.take 4 := by
  obtain ⟨a, b, c, d, t, rfl⟩ := len4 h
  have := byte_lt a; have := byte_lt b; have := byte_lt c; have := byte_lt d
  simp only [l32, u32le, List.take_succ_cons, List.take_zero, List.cons.injEq, and_true]
  exact ⟨byte_ext (by rw [u8_toNat]; omega), byte_ext (by rw [u8_toNat]; omega),
    byte_ext (by rw [u8_toNat]; omega), byte_ext (by rw [u8_toNat]; omega)⟩

theorem store16_eq (x : Nat) : store16 x = l16 x := by
  simp [store16, l16, Nat.shiftRight_eq_div_pow]
theorem store32_eq (x : Nat) : store32 x = l32 x := by
  simp [store32, l32, Nat.shiftRight_eq_div_pow]

theorem swap16_eq {x : Nat} (h : x < 65536) : swap16 x = x / 256 + x % 256 * 256 := by
  unfold swap16
  rw [Nat.shiftRight_eq_div_pow, Nat.or_comm, shl_or (i := 8) (by omega)]
  omega

theorem and_ff00 (y : Nat) : y &&& 0xff00 = y / 256 % 256 * 256 := by
  have h1 : y &&& 0xff00 = ((y >>> 8) &&& 0xff) <<< 8 := by
    apply Nat.eq_of_testBit_eq
    intro i
    simp only [Nat.testBit_and, Nat.testBit_shiftLeft, Nat.testBit_shiftRight]
    have h2 : (0xff00 : Nat) = 0xff <<< 8 := by decide
    rw [h2, Nat.testBit_shiftLeft]
    by_cases hi : 8 ≤ i
    · simp [hi]
    · simp [hi]
  rw [h1, Nat.shiftRight_eq_div_pow, Nat.shiftLeft_eq]
  have : y / 2 ^ 8 &&& 0xff = y / 2 ^ 8 % 256 := Nat.and_two_pow_sub_one_eq_mod _ 8
  rw [this]

theorem or_add8 {p q : Nat} (h : p < 256) : p ||| q * 256 = p + q * 256 := by
  rw [Nat.or_comm, Nat.add_comm, show q * 256 = q <<< 8 from (Nat.shiftLeft_eq q 8).symm,
    Nat.shiftLeft_add_eq_or_of_lt (i := 8) h]

theorem or_add16 {p q : Nat} (h : p < 65536) : p ||| q * 65536 = p + q * 65536 := by
  rw [Nat.or_comm, Nat.add_comm, show q * 65536 = q <<< 16 from (Nat.shiftLeft_eq q 16).symm,
    Nat.shiftLeft_add_eq_or_of_lt (i := 16) h]

theorem or_add24 {p q : Nat} (h : p < 16777216) : p ||| q * 16777216 = p + q * 16777216 := by
  rw [Nat.or_comm, Nat.add_comm, show q * 16777216 = q <<< 24 from (Nat.shiftLeft_eq q 24).symm,
    Nat.shiftLeft_add_eq_or_of_lt (i := 24) h]

theorem swap32_eq {x : Nat} (h : x < 4294967296) : swap32 x =
    x / 16777216 + x / 65536 % 256 * 256 + x / 256 % 256 * 65536 + x % 256 * 16777216 := by
  unfold swap32
  simp only [Nat.shiftRight_eq_div_pow, and_ff00, Nat.shiftLeft_eq, Nat.reducePow, Nat.mul_assoc,
    Nat.reduceMul, Nat.div_div_eq_div_mul]
  rw [or_add8 (by omega), or_add16 (by omega), or_add24 (by omega)]
  omega

/-! ## Builders -/

/-- A stateless decoder of fixed width `w`. -/
def SimpleDec.fixed (D : Decoder) (w unit : Nat) (val : List Byte → Option Nat)
    (hu : 1 ≤ unit) (huw : unit ≤ w) (hf : D.flushwc = none)
    (hext : ∀ s t, w ≤ s.length → val (s ++ t) = val s)
    (heq : ∀ is s, D.mbtowc is s = .ok (if s.length < w then .toofew 0 else
      match val s with
      | some wc => .char wc w
      | none => .ilseq 0, is)) : SimpleDec D unit where
  g := fun s => if s.length < w then .toofew 0 else
      match val s with
      | some wc => .char wc w
      | none => .ilseq 0
  eq := fun is s _ => heq is s
  flush := hf
  unit_pos := hu
  char_ok := by
    intro s wc n _ h
    split at h
    · cases h
    · split at h <;> cases h
      omega
  ilseq_ok := by
    intro s k _ h
    split at h
    · cases h
    · split at h <;> cases h
      omega
  toofew_ok := by
    intro s k _ h
    split at h
    · cases h; rfl
    · split at h <;> cases h
  ext := by
    intro s t _ h
    split at h
    · exact absurd rfl h
    · rw [if_neg (by simp; omega), if_neg (by omega), hext s t (by omega)]

/-- A stateless encoder that checks the room against the length of the encoding. -/
def SimpleEnc.ofLen (E : Encoder) (enc : Nat → Option (List Byte)) (hr : E.reset = none)
    (hlen : ∀ wc bs, enc wc = some bs → 1 ≤ bs.length ∧ bs.length ≤ 64)
    (heq : ∀ os wc n, E.wctomb os wc n = .ok (match enc wc with
      | some bs => if bs.length ≤ n then .put bs os else .small os
      | none => .iluni os)) : SimpleEnc E where
  minRoom := 0
  minRoom_le := by omega
  enc := enc
  need := fun wc => match enc wc with
    | some bs => bs.length
    | none => 0
  eq := by
    intro os wc n
    rw [heq]
    cases enc wc <;> simp
  need_le := by
    intro wc
    cases h : enc wc with
    | some bs => exact (hlen wc bs h).2
    | none => simp
  len := by
    intro wc bs h
    have := (hlen wc bs h).1
    rw [h]
    refine ⟨?_, ?_, ?_⟩
    · rintro rfl; simp at this
    · simp
    · simp
  reset := hr

/-- The mark, if it was not written yet. -/
def bomPre (bom : List Byte) (os : Nat) : List Byte := if os = 0 then bom else []

theorem bomPre_length (bom : List Byte) (os : Nat) : (bomPre bom os).length ≤ bom.length := by
  unfold bomPre; split <;> simp

/-- An encoder that writes a byte order mark before the first character. -/
structure BomEnc (E : Encoder) where
  bom : List Byte
  enc : Nat → Option (List Byte)
  /-- unencodable characters for which the mark is stored before the error is found -/
  late : Nat → Bool
  bom_len : bom.length ≤ 8
  len : ∀ wc bs, enc wc = some bs → 1 ≤ bs.length ∧ bs.length ≤ 8
  reset : E.reset = none
  eq : ∀ os wc n, E.wctomb os wc n = .ok (match enc wc with
    | some bs =>
      if (bomPre bom os ++ bs).length ≤ n then
        .put (bomPre bom os ++ bs) 1
      else ⟨.toosmall, if os = 0 ∧ bom.length ≤ n then bom else [], os⟩
    | none =>
      if late wc ∧ os = 0 then
        if bom.length ≤ n then ⟨.iluni, bom, os⟩ else .small os
      else .iluni os)

namespace BomEnc

variable {E : Encoder}

theorem full_eq (h : BomEnc E) (os wc : Nat) : E.full os wc =
    (h.enc wc).map fun bs => (bomPre h.bom os ++ bs, 1) := by
  unfold Encoder.full
  rw [h.eq os wc 64]
  have hb := h.bom_len
  cases he : h.enc wc with
  | some bs =>
    have hl := h.len wc bs he
    simp only [Option.map_some]
    rw [if_pos (by have := bomPre_length h.bom os; rw [List.length_append]; omega)]
    rfl
  | none =>
    simp only [Option.map_none]
    by_cases hl : h.late wc ∧ os = 0
    · rw [if_pos hl, if_pos (by omega)]
    · rw [if_neg hl]; rfl

def toOK (h : BomEnc E) : EncOK E where
  Inv := fun _ => True
  inv_init := trivial
  minRoom := 0
  minRoom_le := by omega
  safe := by
    intro os wc n _ _
    refine ⟨_, h.eq os wc n, ?_⟩
    cases he : h.enc wc with
    | some bs =>
      simp only
      split
      · next hl => exact ⟨hl, by rintro k ⟨⟩; exact ⟨rfl, trivial⟩, by rintro (h | h) <;> cases h⟩
      · refine ⟨?_, by rintro k ⟨⟩, fun _ => rfl⟩
        split
        · next hl => exact hl.2
        · simp
    | none =>
      simp only
      split
      · split
        · next hl => exact ⟨hl, by rintro k ⟨⟩, fun _ => rfl⟩
        · exact ⟨by simp [WcRes.small], by rintro k ⟨⟩, fun _ => rfl⟩
      · exact ⟨by simp [WcRes.iluni], by rintro k ⟨⟩, fun _ => rfl⟩
  any := by
    intro os wc n r _ hr _
    rw [h.eq os wc n] at hr
    cases hr
    cases he : h.enc wc with
    | some bs =>
      simp only
      split
      · exact ⟨by rintro k ⟨⟩; exact ⟨rfl, trivial⟩, by rintro (h | h) <;> cases h⟩
      · exact ⟨by rintro k ⟨⟩, fun _ => rfl⟩
    | none =>
      simp only
      split
      · split
        · exact ⟨by rintro k ⟨⟩, fun _ => rfl⟩
        · exact ⟨by rintro k ⟨⟩, fun _ => rfl⟩
      · exact ⟨by rintro k ⟨⟩, fun _ => rfl⟩
  dry := by
    intro os wc n _ _ hf
    rw [h.full_eq] at hf
    refine ⟨_, h.eq os wc n, ?_⟩
    cases he : h.enc wc with
    | some bs => rw [he] at hf; cases hf
    | none =>
      simp only
      split
      · split
        · next hl => exact ⟨hl, Or.inl rfl, rfl⟩
        · exact ⟨by simp [WcRes.small], Or.inr rfl, rfl⟩
      · exact ⟨by simp [WcRes.iluni], Or.inl rfl, rfl⟩
  mono := by
    intro os wc n m r _ hr hl hs hm
    rw [h.eq os wc n] at hr
    rw [h.eq os wc m]
    cases he : h.enc wc with
    | some bs =>
      rw [he] at hr
      simp only at hr ⊢
      split at hr
      · rw [if_pos (by omega)]; exact hr
      · cases hr; exact absurd rfl hs
    | none =>
      rw [he] at hr
      simp only at hr ⊢
      split at hr
      · next hc =>
        rw [if_pos hc]
        split at hr
        · rw [if_pos (by omega)]; exact hr
        · cases hr; exact absurd rfl hs
      · next hc => rw [if_neg hc]; exact hr
  big := by
    intro os wc n r _ hn hr
    rw [h.eq os wc n] at hr
    have hb := h.bom_len
    cases he : h.enc wc with
    | some bs =>
      have hl := h.len wc bs he
      rw [he] at hr
      simp only at hr
      rw [if_pos (by have := bomPre_length h.bom os; rw [List.length_append]; omega)] at hr
      cases hr; simp [WcRes.put]
    | none =>
      rw [he] at hr
      simp only at hr
      split at hr
      · rw [if_pos (by omega)] at hr; cases hr; simp
      · cases hr; simp [WcRes.iluni]
  reset_safe := by intro f hf; rw [h.reset] at hf; cases hf
  reset_mono := by intro f hf; rw [h.reset] at hf; cases hf
  reset_big := by intro f hf; rw [h.reset] at hf; cases hf

theorem tail_eq (h : BomEnc E) (os : Nat) : E.tail os = [] := by
  unfold Encoder.tail; rw [h.reset]

theorem tight (h : BomEnc E) : EncTight E h.toOK where
  tight := by
    intro os wc n r bs os' _ hr hs hl hf
    rw [h.eq os wc n] at hr
    rw [h.full_eq] at hf
    simp only [Option.map_eq_some_iff] at hf
    obtain ⟨bs', he, h2⟩ := hf
    cases h2
    rw [he] at hr
    simp only at hr
    split at hr
    · cases hr; cases hs
    · omega
  live := by
    intro os wc bs os' _ hf
    rw [h.full_eq] at hf
    simp only [Option.map_eq_some_iff] at hf
    obtain ⟨bs', he, h2⟩ := hf
    cases h2
    left
    have := (h.len wc _ he).1
    intro hc
    rw [List.append_eq_nil_iff] at hc
    rw [hc.2] at this
    simp at this
  reset_tight := by intro f os n r hf; rw [h.reset] at hf; cases hf

theorem rep_eq (h : BomEnc E) (os wc : Nat) : E.rep os wc = E.full os wc := by
  apply Encoder.rep_eq
  intro bs os' hf _
  rw [h.full_eq] at hf
  simp only [Option.map_eq_some_iff] at hf
  obtain ⟨bs', he, h2⟩ := hf
  cases h2
  have := (h.len wc _ he).1
  intro hc
  rw [List.append_eq_nil_iff] at hc
  rw [hc.2] at this
  simp at this

end BomEnc

/-! ## Fixed width decoders -/

/-- Reject surrogates. -/
def noSurr (v : Nat) : Option Nat := if v ≥ 0xd800 ∧ v < 0xe000 then none else some v

/-- Accept scalar values only. -/
def scalarOnly (v : Nat) : Option Nat := if Scalar v then some v else none

theorem noSurr_none {v : Nat} (h : v ≥ 0xd800 ∧ v < 0xe000) : noSurr v = none := if_pos h
theorem noSurr_some {v : Nat} (h : ¬ (v ≥ 0xd800 ∧ v < 0xe000)) : noSurr v = some v := if_neg h
theorem scalarOnly_some {v : Nat} (h : Scalar v) : scalarOnly v = some v := if_pos h
theorem scalarOnly_none {v : Nat} (h : ¬ Scalar v) : scalarOnly v = none := if_neg h

theorem if_match_scalar {α : Type} (v : Nat) (a : α) (f : Nat → α) :
    (if v < 0x110000 ∧ ¬ (v ≥ 0xd800 ∧ v < 0xe000) then f v else a) = match scalarOnly v with
      | some w => f w
      | none => a := by
  split
  · rw [scalarOnly_some (by unfold Scalar; omega)]
  · rw [scalarOnly_none (by unfold Scalar; omega)]

/-- Proof that `ucs2be_dec` satisfies the contract `SimpleDec`. -/
def ucs2be_simple : SimpleDec ucs2be_dec 2 :=
  .fixed _ 2 2 (fun s => noSurr (u16be s)) (by omega) (by omega) rfl
    (fun s t h => by rw [u16be_append h])
    (by
      intro is s
      show ucs2be_mbtowc is s = _
      unfold ucs2be_mbtowc
      by_cases h : s.length < 2
      · rw [if_neg (by omega), if_pos h]; rfl
      · rw [if_pos (by omega), if_neg h, be16At_eq (by omega)]
        obtain ⟨a, b, t, rfl⟩ := len2 (by omega : 2 ≤ s.length)
        have := byte_lt a; have := byte_lt b
        simp only [rd_zero, Outcome.bind_ok, Outcome.pure_eq]
        by_cases hc : a.toNat ≥ 0xd8 ∧ a.toNat < 0xe0
        · rw [if_pos hc, noSurr_none (by simp only [u16be]; omega)]
        · rw [if_neg hc, noSurr_some (by simp only [u16be]; omega)])

/-- Proof that `ucs2le_dec` satisfies the contract `SimpleDec`. -/
def ucs2le_simple : SimpleDec ucs2le_dec 2 :=
  .fixed _ 2 2 (fun s => noSurr (u16le s)) (by omega) (by omega) rfl
    (fun s t h => by rw [u16le_append h])
    (by
      intro is s
      show ucs2le_mbtowc is s = _
      unfold ucs2le_mbtowc
      by_cases h : s.length < 2
      · rw [if_neg (by omega), if_pos h]; rfl
      · rw [if_pos (by omega), if_neg h, le16At_eq (by omega)]
        obtain ⟨a, b, t, rfl⟩ := len2 (by omega : 2 ≤ s.length)
        have := byte_lt a; have := byte_lt b
        simp only [rd_succ, rd_zero, Outcome.bind_ok, Outcome.pure_eq]
        by_cases hc : b.toNat ≥ 0xd8 ∧ b.toNat < 0xe0
        · rw [if_pos hc, noSurr_none (by simp only [u16le]; omega)]
        · rw [if_neg hc, noSurr_some (by simp only [u16le]; omega)])

/-- Proof that `ucs2internal_dec` satisfies the contract `SimpleDec`. -/
def ucs2internal_simple : SimpleDec ucs2internal_dec 2 :=
  .fixed _ 2 2 (fun s => noSurr (u16le s)) (by omega) (by omega) rfl
    (fun s t h => by rw [u16le_append h])
    (by
      intro is s
      show ucs2internal_mbtowc is s = _
      unfold ucs2internal_mbtowc load16
      by_cases h : s.length < 2
      · rw [if_neg (by omega), if_pos h]; rfl
      · rw [if_pos (by omega), if_neg h, le16At_eq (by omega)]
        simp only [Outcome.bind_ok, Outcome.pure_eq]
        split
        · next hc => rw [noSurr_none hc]
        · next hc => rw [noSurr_some hc])

theorem swap16_u16le {s : List Byte} (h : 2 ≤ s.length) : swap16 (u16le s) = u16be s := by
  rw [swap16_eq (u16le_lt s)]
  obtain ⟨a, b, t, rfl⟩ := len2 h
  have := byte_lt a; have := byte_lt b
  simp only [u16le, u16be]; omega

theorem swap32_u32le {s : List Byte} (h : 4 ≤ s.length) : swap32 (u32le s) = u32be s := by
  rw [swap32_eq (u32le_lt s)]
  obtain ⟨a, b, c, d, t, rfl⟩ := len4 h
  have := byte_lt a; have := byte_lt b; have := byte_lt c; have := byte_lt d
  simp only [u32le, u32be]; omega

/-- Proof that `ucs2swapped_dec` satisfies the contract `SimpleDec`. -/
def ucs2swapped_simple : SimpleDec ucs2swapped_dec 2 :=
  .fixed _ 2 2 (fun s => noSurr (u16be s)) (by omega) (by omega) rfl
    (fun s t h => by rw [u16be_append h])
    (by
      intro is s
      show ucs2swapped_mbtowc is s = _
      unfold ucs2swapped_mbtowc load16
      by_cases h : s.length < 2
      · rw [if_neg (by omega), if_pos h]; rfl
      · rw [if_pos (by omega), if_neg h, le16At_eq (by omega)]
        simp only [Outcome.bind_ok, Outcome.pure_eq, swap16_u16le (by omega : 2 ≤ s.length)]
        split
        · next hc => rw [noSurr_none hc]
        · next hc => rw [noSurr_some hc])

/-- Proof that `ucs4be_dec` satisfies the contract `SimpleDec`. -/
def ucs4be_simple : SimpleDec ucs4be_dec 4 :=
  .fixed _ 4 4 (fun s => some (u32be s)) (by omega) (by omega) rfl
    (fun s t h => by rw [u32be_append h])
    (by
      intro is s
      show ucs4be_mbtowc is s = _
      unfold ucs4be_mbtowc
      by_cases h : s.length < 4
      · rw [if_neg (by omega), if_pos h]; rfl
      · rw [if_pos (by omega), if_neg h, be32At_eq (by omega)]; rfl)

/-- Proof that `ucs4le_dec` satisfies the contract `SimpleDec`. -/
def ucs4le_simple : SimpleDec ucs4le_dec 4 :=
  .fixed _ 4 4 (fun s => some (u32le s)) (by omega) (by omega) rfl
    (fun s t h => by rw [u32le_append h])
    (by
      intro is s
      show ucs4le_mbtowc is s = _
      unfold ucs4le_mbtowc
      by_cases h : s.length < 4
      · rw [if_neg (by omega), if_pos h]; rfl
      · rw [if_pos (by omega), if_neg h, le32At_eq (by omega)]; rfl)

/-- Proof that `ucs4internal_dec` satisfies the contract `SimpleDec`. -/
def ucs4internal_simple : SimpleDec ucs4internal_dec 4 :=
  .fixed _ 4 4 (fun s => some (u32le s)) (by omega) (by omega) rfl
    (fun s t h => by rw [u32le_append h])
    (by
      intro is s
      show ucs4internal_mbtowc is s = _
      unfold ucs4internal_mbtowc load32
      by_cases h : s.length < 4
      · rw [if_neg (by omega), if_pos h]; rfl
      · rw [if_pos (by omega), if_neg h, le32At_eq (by omega)]; rfl)

/-- Proof that `ucs4swapped_dec` satisfies the contract `SimpleDec`. -/
def ucs4swapped_simple : SimpleDec ucs4swapped_dec 4 :=
  .fixed _ 4 4 (fun s => some (u32be s)) (by omega) (by omega) rfl
    (fun s t h => by rw [u32be_append h])
    (by
      intro is s
      show ucs4swapped_mbtowc is s = _
      unfold ucs4swapped_mbtowc load32
      by_cases h : s.length < 4
      · rw [if_neg (by omega), if_pos h]; rfl
      · rw [if_pos (by omega), if_neg h, le32At_eq (by omega)]
        simp only [Outcome.bind_ok, Outcome.pure_eq, swap32_u32le (by omega : 4 ≤ s.length)])

/-- Proof that `utf32be_dec` satisfies the contract `SimpleDec`. -/
def utf32be_simple : SimpleDec utf32be_dec 4 :=
  .fixed _ 4 4 (fun s => scalarOnly (u32be s)) (by omega) (by omega) rfl
    (fun s t h => by rw [u32be_append h])
    (by
      intro is s
      show utf32be_mbtowc is s = _
      unfold utf32be_mbtowc
      by_cases h : s.length < 4
      · rw [if_neg (by omega), if_pos h]; rfl
      · rw [if_pos (by omega), if_neg h, be32At_eq (by omega)]
        simp only [Outcome.bind_ok, Outcome.pure_eq]
        rw [if_match_scalar (f := fun v => Outcome.ok (MbRet.char v 4, is))]
        cases scalarOnly (u32be s) <;> rfl)

/-- Proof that `utf32le_dec` satisfies the contract `SimpleDec`. -/
def utf32le_simple : SimpleDec utf32le_dec 4 :=
  .fixed _ 4 4 (fun s => scalarOnly (u32le s)) (by omega) (by omega) rfl
    (fun s t h => by rw [u32le_append h])
    (by
      intro is s
      show utf32le_mbtowc is s = _
      unfold utf32le_mbtowc
      by_cases h : s.length < 4
      · rw [if_neg (by omega), if_pos h]; rfl
      · rw [if_pos (by omega), if_neg h, le32At_eq (by omega)]
        simp only [Outcome.bind_ok, Outcome.pure_eq]
        rw [if_match_scalar (f := fun v => Outcome.ok (MbRet.char v 4, is))]
        cases scalarOnly (u32le s) <;> rfl)

/-! ## UTF-16 with fixed byte order -/

/-- The result of a UTF-16 decoder with the unit reader `u`. -/
def utf16Item (u : List Byte → Nat) (s : List Byte) : MbRet :=
  if s.length < 2 then .toofew 0
  else if u s ≥ 0xd800 ∧ u s < 0xdc00 then
    if s.length < 4 then .toofew 0
    else if u (s.drop 2) ≥ 0xdc00 ∧ u (s.drop 2) < 0xe000 then
      .char (0x10000 + (u s - 0xd800) * 1024 + (u (s.drop 2) - 0xdc00)) 4
    else .ilseq 0
  else if u s ≥ 0xdc00 ∧ u s < 0xe000 then .ilseq 0
  else .char (u s) 2

def SimpleDec.utf16 (D : Decoder) (u : List Byte → Nat) (hf : D.flushwc = none)
    (hu : ∀ s t, 2 ≤ s.length → u (s ++ t) = u s)
    (heq : ∀ is s, D.mbtowc is s = .ok (utf16Item u s, is)) : SimpleDec D 2 where
  g := utf16Item u
  eq := fun is s _ => heq is s
  flush := hf
  unit_pos := by omega
  char_ok := by
    intro s wc n _ h
    unfold utf16Item at h
    split at h
    · cases h
    split at h
    · split at h
      · cases h
      split at h
      · simp only [MbRet.char.injEq] at h; omega
      · cases h
    split at h
    · cases h
    · simp only [MbRet.char.injEq] at h; omega
  ilseq_ok := by
    intro s k _ h
    unfold utf16Item at h
    split at h
    · cases h
    split at h
    · split at h
      · cases h
      split at h
      · cases h
      · cases h; omega
    split at h
    · cases h; omega
    · cases h
  toofew_ok := by
    intro s k _ h
    unfold utf16Item at h
    split at h
    · cases h; rfl
    split at h
    · split at h
      · cases h; rfl
      split at h <;> cases h
    split at h <;> cases h
  ext := by
    intro s t _ h
    unfold utf16Item at h ⊢
    split at h
    · exact absurd rfl h
    next h2 =>
    rw [if_neg (by simp; omega), if_neg h2, hu s t (by omega)]
    split at h
    · next hs =>
      rw [if_pos hs]
      split at h
      · exact absurd rfl h
      · next h4 =>
        rw [if_neg (by simp; omega), if_pos hs, if_neg h4]
        have : (s ++ t).drop 2 = s.drop 2 ++ t := by rw [List.drop_append_of_le_length (by omega)]
        rw [this, hu _ t (by simp; omega)]
    · next hs => rw [if_neg hs, if_neg hs]

/-- Proof that `utf16be_dec` satisfies the contract `SimpleDec`. -/
def utf16be_simple : SimpleDec utf16be_dec 2 :=
  .utf16 _ u16be rfl (fun _ _ h => u16be_append h) (by
    intro is s
    show utf16be_mbtowc is s = _
    unfold utf16be_mbtowc utf16Item
    by_cases h : s.length < 2
    · rw [if_neg (by omega), if_pos h]; rfl
    rw [if_pos (by omega), if_neg h, be16At_eq (by omega)]
    simp only [Outcome.bind_ok, Outcome.pure_eq]
    by_cases hs : u16be s ≥ 0xd800 ∧ u16be s < 0xdc00
    · rw [if_pos hs, if_pos hs]
      by_cases h4 : s.length < 4
      · rw [if_neg (by omega), if_pos h4]
      · rw [if_pos (by omega), if_neg h4, be16At2_eq (by omega)]
        simp only [Outcome.bind_ok, Nat.shiftLeft_eq]
        by_cases hl : u16be (s.drop 2) ≥ 0xdc00 ∧ u16be (s.drop 2) < 0xe000
        · rw [if_neg (not_not_intro hl), if_pos hl]
        · rw [if_pos hl, if_neg hl]
    · rw [if_neg hs, if_neg hs]
      split <;> rfl)

/-- Proof that `utf16le_dec` satisfies the contract `SimpleDec`. -/
def utf16le_simple : SimpleDec utf16le_dec 2 :=
  .utf16 _ u16le rfl (fun _ _ h => u16le_append h) (by
    intro is s
    show utf16le_mbtowc is s = _
    unfold utf16le_mbtowc utf16Item
    by_cases h : s.length < 2
    · rw [if_neg (by omega), if_pos h]; rfl
    rw [if_pos (by omega), if_neg h, le16At_eq (by omega)]
    simp only [Outcome.bind_ok, Outcome.pure_eq]
    by_cases hs : u16le s ≥ 0xd800 ∧ u16le s < 0xdc00
    · rw [if_pos hs, if_pos hs]
      by_cases h4 : s.length < 4
      · rw [if_neg (by omega), if_pos h4]
      · rw [if_pos (by omega), if_neg h4, le16At2_eq (by omega)]
        simp only [Outcome.bind_ok, Nat.shiftLeft_eq]
        by_cases hl : u16le (s.drop 2) ≥ 0xdc00 ∧ u16le (s.drop 2) < 0xe000
        · rw [if_neg (not_not_intro hl), if_pos hl]
        · rw [if_pos hl, if_neg hl]
    · rw [if_neg hs, if_neg hs]
      split <;> rfl)

/-! ## Decoders with byte order marks -/

/-- 16 bit unit in the byte order `st`. -/
def u16 (st : Nat) (s : List Byte) : Nat := if st ≠ 0 then u16le s else u16be s
/-- 32 bit unit in the byte order `st`. -/
def u32 (st : Nat) (s : List Byte) : Nat := if st ≠ 0 then u32le s else u32be s

theorem unit16_eq {st s} (h : 2 ≤ s.length) : unit16 st s 0 = .ok (u16 st s) := by
  unfold unit16 u16; split
  · exact le16At_eq h
  · exact be16At_eq h

theorem unit16_2_eq {st s} (h : 4 ≤ s.length) : unit16 st s 2 = .ok (u16 st (s.drop 2)) := by
  unfold unit16 u16; split
  · exact le16At2_eq h
  · exact be16At2_eq h

theorem unit32_eq {st s} (h : 4 ≤ s.length) : unit32 st s = .ok (u32 st s) := by
  unfold unit32 u32; split
  · exact le32At_eq h
  · exact be32At_eq h

theorem u16_append {st s t} (h : 2 ≤ s.length) : u16 st (s ++ t) = u16 st s := by
  unfold u16; rw [u16be_append h, u16le_append h]

theorem u32_append {st s t} (h : 4 ≤ s.length) : u32 st (s ++ t) = u32 st s := by
  unfold u32; rw [u32be_append h, u32le_append h]

theorem u16_swap {st s} (hst : st ≤ 1) (h : 2 ≤ s.length) :
    u16 st s = 0xfeff ↔ u16 (st ^^^ 1) s = 0xfffe := by
  obtain ⟨a, b, t, rfl⟩ := len2 h
  have := byte_lt a; have := byte_lt b
  have : st = 0 ∨ st = 1 := by omega
  rcases this with rfl | rfl <;> simp [u16, u16be, u16le] <;> omega

theorem u32_swap {st s} (hst : st ≤ 1) (h : 4 ≤ s.length) :
    u32 st s = 0xfeff ↔ u32 (st ^^^ 1) s = 0xfffe0000 := by
  obtain ⟨a, b, c, d, t, rfl⟩ := len4 h
  have := byte_lt a; have := byte_lt b; have := byte_lt c; have := byte_lt d
  have : st = 0 ∨ st = 1 := by omega
  rcases this with rfl | rfl <;> simp [u32, u32be, u32le] <;> omega

/-- Items of UCS-2. -/
def ucs2Kind (st : Nat) (s : List Byte) : MarkItem :=
  if u16 st s = 0xfeff then .keep
  else if u16 st s = 0xfffe then .flip
  else if u16 st s ≥ 0xd800 ∧ u16 st s < 0xe000 then .ilseq
  else .char (u16 st s) 2

theorem kind_swap {wc wc' a b : Nat} {x x' : MarkItem} (hab : a ≠ b)
    (hx : x ≠ .keep ∧ x ≠ .flip) (hx' : x' ≠ .keep ∧ x' ≠ .flip) (h : wc = a ↔ wc' = b) :
    (if wc = a then MarkItem.keep else if wc = b then .flip else x) = .keep ↔
    (if wc' = a then MarkItem.keep else if wc' = b then .flip else x') = .flip := by
  by_cases h1 : wc = a
  · have h2 := h.1 h1
    rw [if_pos h1, if_neg (by rw [h2]; exact Ne.symm hab), if_pos h2]; simp
  · have h2 := fun hc => h1 (h.2 hc)
    rw [if_neg h1]
    constructor
    · intro hc
      split at hc
      · cases hc
      · exact absurd hc hx.1
    · intro hc
      split at hc
      · cases hc
      · exact absurd hc hx'.2

def ucs2_mark : MarkOK 2 ucs2_item where
  kind := ucs2Kind
  unit_pos := by omega
  unit_le := by omega
  eq := by
    intro st s h
    unfold ucs2_item ucs2Kind
    rw [unit16_eq h]
    simp only [Outcome.bind_ok, Outcome.pure_eq]
    repeat' split
    all_goals rfl
  char_ok := by
    intro st s wc n h hk
    unfold ucs2Kind at hk
    repeat' split at hk
    all_goals cases hk
    omega
  ext := by
    intro st s t h _
    unfold ucs2Kind; rw [u16_append h]
  swap := by
    intro st s hst h
    unfold ucs2Kind
    apply kind_swap (by decide) _ _ (u16_swap hst h)
    · split <;> simp
    · split <;> simp

/-- Items of UTF-16. -/
def utf16Kind (st : Nat) (s : List Byte) : MarkItem :=
  if u16 st s = 0xfeff then .keep
  else if u16 st s = 0xfffe then .flip
  else if u16 st s ≥ 0xd800 ∧ u16 st s < 0xdc00 then
    if s.length < 4 then .brk
    else if u16 st (s.drop 2) ≥ 0xdc00 ∧ u16 st (s.drop 2) < 0xe000 then
      .char (0x10000 + (u16 st s - 0xd800) * 1024 + (u16 st (s.drop 2) - 0xdc00)) 4
    else .ilseq
  else if u16 st s ≥ 0xdc00 ∧ u16 st s < 0xe000 then .ilseq
  else .char (u16 st s) 2

def utf16_mark : MarkOK 2 utf16_item where
  kind := utf16Kind
  unit_pos := by omega
  unit_le := by omega
  eq := by
    intro st s h
    unfold utf16_item utf16Kind
    rw [unit16_eq h]
    simp only [Outcome.bind_ok, Outcome.pure_eq]
    split
    · rfl
    split
    · rfl
    split
    · by_cases h4 : s.length < 4
      · rw [if_neg (by omega), if_pos h4]
      · rw [if_pos (by omega), if_neg h4, unit16_2_eq (by omega)]
        simp only [Outcome.bind_ok, Nat.shiftLeft_eq]
        by_cases hl : u16 st (s.drop 2) ≥ 0xdc00 ∧ u16 st (s.drop 2) < 0xe000
        · rw [if_neg (not_not_intro hl), if_pos hl]
        · rw [if_pos hl, if_neg hl]
    split <;> rfl
  char_ok := by
    intro st s wc n h hk
    unfold utf16Kind at hk
    split at hk
    · cases hk
    split at hk
    · cases hk
    split at hk
    · split at hk
      · cases hk
      split at hk
      · simp only [MarkItem.char.injEq] at hk; omega
      · cases hk
    split at hk
    · cases hk
    · simp only [MarkItem.char.injEq] at hk; omega
  ext := by
    intro st s t h hb
    unfold utf16Kind at hb ⊢
    rw [u16_append h]
    split at hb
    · next h1 => simp [h1]
    next h1 =>
    rw [if_neg h1, if_neg h1]
    split at hb
    · next h2 => simp [h2]
    next h2 =>
    rw [if_neg h2, if_neg h2]
    split at hb
    · next h3 =>
      rw [if_pos h3, if_pos h3]
      split at hb
      · exact absurd rfl hb
      · next h4 =>
        rw [if_neg (by simp; omega), if_neg h4]
        have : (s ++ t).drop 2 = s.drop 2 ++ t := by rw [List.drop_append_of_le_length (by omega)]
        rw [this, u16_append (by simp; omega)]
    · next h3 => rw [if_neg h3, if_neg h3]
  swap := by
    intro st s hst h
    unfold utf16Kind
    apply kind_swap (by decide) _ _ (u16_swap hst h)
    all_goals
      constructor <;>
      · intro hc
        repeat' split at hc
        all_goals cases hc

/-- Items of UCS-4. -/
def ucs4Kind (st : Nat) (s : List Byte) : MarkItem :=
  if u32 st s = 0xfeff then .keep
  else if u32 st s = 0xfffe0000 then .flip
  else if u32 st s ≤ 0x7fffffff then .char (u32 st s) 4
  else .ilseq

def ucs4_mark : MarkOK 4 ucs4_item where
  kind := ucs4Kind
  unit_pos := by omega
  unit_le := by omega
  eq := by
    intro st s h
    unfold ucs4_item ucs4Kind
    rw [unit32_eq h]
    simp only [Outcome.bind_ok, Outcome.pure_eq]
    repeat' split
    all_goals rfl
  char_ok := by
    intro st s wc n h hk
    unfold ucs4Kind at hk
    repeat' split at hk
    all_goals cases hk
    omega
  ext := by
    intro st s t h _
    unfold ucs4Kind; rw [u32_append h]
  swap := by
    intro st s hst h
    unfold ucs4Kind
    apply kind_swap (by decide) _ _ (u32_swap hst h)
    · split <;> simp
    · split <;> simp

/-- Items of UTF-32. -/
def utf32Kind (st : Nat) (s : List Byte) : MarkItem :=
  if u32 st s = 0xfeff then .keep
  else if u32 st s = 0xfffe0000 then .flip
  else if Scalar (u32 st s) then .char (u32 st s) 4
  else .ilseq

def utf32_mark : MarkOK 4 utf32_item where
  kind := utf32Kind
  unit_pos := by omega
  unit_le := by omega
  eq := by
    intro st s h
    unfold utf32_item utf32Kind
    rw [unit32_eq h]
    simp only [Outcome.bind_ok, Outcome.pure_eq]
    split
    · rfl
    split
    · rfl
    split
    · rw [if_pos (show Scalar _ by unfold Scalar; omega)]
    · rw [if_neg (show ¬ Scalar _ by unfold Scalar; omega)]
  char_ok := by
    intro st s wc n h hk
    unfold utf32Kind at hk
    repeat' split at hk
    all_goals cases hk
    omega
  ext := by
    intro st s t h _
    unfold utf32Kind; rw [u32_append h]
  swap := by
    intro st s hst h
    unfold utf32Kind
    apply kind_swap (by decide) _ _ (u32_swap hst h)
    · split <;> simp
    · split <;> simp

/-! ## Encoders -/

theorem okIte {p : Prop} [Decidable p] {x y : WcRes} :
    (if p then Outcome.ok x else .ok y) = .ok (if p then x else y) := by split <;> rfl

theorem len_of_ite {p : Prop} [Decidable p] {l : List Byte} {bs : List Byte}
    (h : (if p then some l else none) = some bs) : bs = l := by
  split at h
  · cases h; rfl
  · cases h

/-- Proof that `ucs2_enc` satisfies the contract `SimpleEnc`. -/
def ucs2_senc : SimpleEnc ucs2_enc :=
  .ofLen _ (fun wc => if wc < 0x10000 ∧ wc ≠ 0xfffe ∧ ¬ (wc ≥ 0xd800 ∧ wc < 0xe000) then some (b16 wc)
    else none) rfl (fun wc bs h => by rw [len_of_ite h]; simp [b16]) (by
    intro os wc n
    show ucs2_wctomb os wc n = _
    unfold ucs2_wctomb
    simp only [Nat.shiftRight_eq_div_pow, Nat.reducePow]
    by_cases h : wc < 0x10000 ∧ wc ≠ 0xfffe ∧ ¬ (wc ≥ 0xd800 ∧ wc < 0xe000)
    · rw [if_pos h, if_pos h]; simp only [b16, List.length_cons, List.length_nil]
      exact okIte
    · rw [if_neg h, if_neg h])

/-- Proof that `ucs2be_enc` satisfies the contract `SimpleEnc`. -/
def ucs2be_senc : SimpleEnc ucs2be_enc :=
  .ofLen _ (fun wc => if wc < 0x10000 ∧ ¬ (wc ≥ 0xd800 ∧ wc < 0xe000) then some (b16 wc)
    else none) rfl (fun wc bs h => by rw [len_of_ite h]; simp [b16]) (by
    intro os wc n
    show ucs2be_wctomb os wc n = _
    unfold ucs2be_wctomb
    simp only [Nat.shiftRight_eq_div_pow, Nat.reducePow]
    by_cases h : wc < 0x10000 ∧ ¬ (wc ≥ 0xd800 ∧ wc < 0xe000)
    · rw [if_pos h, if_pos h]; simp only [b16, List.length_cons, List.length_nil]
      exact okIte
    · rw [if_neg h, if_neg h])

/-- Proof that `ucs2le_enc` satisfies the contract `SimpleEnc`. -/
def ucs2le_senc : SimpleEnc ucs2le_enc :=
  .ofLen _ (fun wc => if wc < 0x10000 ∧ ¬ (wc ≥ 0xd800 ∧ wc < 0xe000) then some (l16 wc)
    else none) rfl (fun wc bs h => by rw [len_of_ite h]; simp [l16]) (by
    intro os wc n
    show ucs2le_wctomb os wc n = _
    unfold ucs2le_wctomb
    simp only [Nat.shiftRight_eq_div_pow, Nat.reducePow]
    by_cases h : wc < 0x10000 ∧ ¬ (wc ≥ 0xd800 ∧ wc < 0xe000)
    · rw [if_pos h, if_pos h]; simp only [l16, List.length_cons, List.length_nil]
      exact okIte
    · rw [if_neg h, if_neg h])

/-- Proof that `ucs2internal_enc` satisfies the contract `SimpleEnc`. -/
def ucs2internal_senc : SimpleEnc ucs2internal_enc :=
  .ofLen _ (fun wc => if wc < 0x10000 ∧ ¬ (wc ≥ 0xd800 ∧ wc < 0xe000) then some (l16 wc)
    else none) rfl (fun wc bs h => by rw [len_of_ite h]; simp [l16]) (by
    intro os wc n
    show ucs2internal_wctomb os wc n = _
    unfold ucs2internal_wctomb
    simp only [store16_eq]
    by_cases h : wc < 0x10000 ∧ ¬ (wc ≥ 0xd800 ∧ wc < 0xe000)
    · rw [if_pos h, if_pos h]; simp only [l16, List.length_cons, List.length_nil]
      exact okIte
    · rw [if_neg h, if_neg h])

theorem l16_mk {p q : Nat} (hp : p < 256) (hq : q < 256) : l16 (p + q * 256) = [u8 p, u8 q] := by
  simp only [l16, List.cons.injEq, and_true]
  exact ⟨byte_ext (by simp only [u8_toNat]; omega), byte_ext (by simp only [u8_toNat]; omega)⟩

theorem l16_swap16 {v : Nat} (h : v < 65536) : l16 (swap16 v) = b16 v := by
  rw [swap16_eq h, l16_mk (by omega) (by omega)]
  simp only [b16, List.cons.injEq, and_true, true_and]
  exact byte_ext (by simp only [u8_toNat]; omega)

/-- Proof that `ucs2swapped_enc` satisfies the contract `SimpleEnc`. -/
def ucs2swapped_senc : SimpleEnc ucs2swapped_enc :=
  .ofLen _ (fun wc => if wc < 0x10000 ∧ ¬ (wc ≥ 0xd800 ∧ wc < 0xe000) then some (b16 wc)
    else none) rfl (fun wc bs h => by rw [len_of_ite h]; simp [b16]) (by
    intro os wc n
    show ucs2swapped_wctomb os wc n = _
    unfold ucs2swapped_wctomb
    by_cases h : wc < 0x10000 ∧ ¬ (wc ≥ 0xd800 ∧ wc < 0xe000)
    · rw [if_pos h, if_pos h]
      simp only [store16_eq, l16_swap16 h.1]
      simp only [b16, List.length_cons, List.length_nil]
      exact okIte
    · rw [if_neg h, if_neg h])

/-- Proof that `ucs4_enc` satisfies the contract `SimpleEnc`. -/
def ucs4_senc : SimpleEnc ucs4_enc :=
  .ofLen _ (fun wc => if wc ≤ 0x7fffffff then some (b32 wc) else none) rfl
    (fun wc bs h => by rw [len_of_ite h]; simp [b32]) (by
    intro os wc n
    show ucs4_wctomb os wc n = _
    unfold ucs4_wctomb
    simp only [Nat.shiftRight_eq_div_pow, Nat.reducePow]
    by_cases h : wc ≤ 0x7fffffff
    · rw [if_pos h, if_pos h]; simp only [b32, List.length_cons, List.length_nil]
      exact okIte
    · rw [if_neg h, if_neg h])

/-- Proof that `ucs4be_enc` satisfies the contract `SimpleEnc`. -/
def ucs4be_senc : SimpleEnc ucs4be_enc :=
  .ofLen _ (fun wc => some (b32 wc)) rfl (fun wc bs h => by cases h; simp [b32]) (by
    intro os wc n
    show ucs4be_wctomb os wc n = _
    unfold ucs4be_wctomb
    simp only [Nat.shiftRight_eq_div_pow, Nat.reducePow]
    simp only [b32, List.length_cons, List.length_nil]
    exact okIte)

/-- Proof that `ucs4le_enc` satisfies the contract `SimpleEnc`. -/
def ucs4le_senc : SimpleEnc ucs4le_enc :=
  .ofLen _ (fun wc => some (l32 wc)) rfl (fun wc bs h => by cases h; simp [l32]) (by
    intro os wc n
    show ucs4le_wctomb os wc n = _
    unfold ucs4le_wctomb
    simp only [Nat.shiftRight_eq_div_pow, Nat.reducePow]
    simp only [l32, List.length_cons, List.length_nil]
    exact okIte)

/-- Proof that `ucs4internal_enc` satisfies the contract `SimpleEnc`. -/
def ucs4internal_senc : SimpleEnc ucs4internal_enc :=
  .ofLen _ (fun wc => some (l32 wc)) rfl (fun wc bs h => by cases h; simp [l32]) (by
    intro os wc n
    show ucs4internal_wctomb os wc n = _
    unfold ucs4internal_wctomb
    simp only [store32_eq]
    simp only [l32, List.length_cons, List.length_nil]
    exact okIte)

theorem l32_mk {p q r s : Nat} (hp : p < 256) (hq : q < 256) (hr : r < 256) (hs : s < 256) :
    l32 (p + q * 256 + r * 65536 + s * 16777216) = [u8 p, u8 q, u8 r, u8 s] := by
  simp only [l32, List.cons.injEq, and_true]
  exact ⟨byte_ext (by simp only [u8_toNat]; omega), byte_ext (by simp only [u8_toNat]; omega),
    byte_ext (by simp only [u8_toNat]; omega), byte_ext (by simp only [u8_toNat]; omega)⟩

theorem l32_swap32 {v : Nat} (h : v < 4294967296) : l32 (swap32 v) = b32 v := by
  rw [swap32_eq h, l32_mk (by omega) (by omega) (by omega) (by omega)]
  simp only [b32, List.cons.injEq, and_true, true_and]
  exact ⟨byte_ext (by simp only [u8_toNat]; omega), byte_ext (by simp only [u8_toNat]; omega),
    byte_ext (by simp only [u8_toNat]; omega)⟩

/-- `wc` is a 32 bit `ucs4_t` in C; the spelling with `swap32` covers all natural numbers. -/
def ucs4swapped_senc : SimpleEnc ucs4swapped_enc :=
  .ofLen _ (fun wc => some (l32 (swap32 wc))) rfl (fun wc bs h => by cases h; simp [l32]) (by
    intro os wc n
    show ucs4swapped_wctomb os wc n = _
    unfold ucs4swapped_wctomb
    simp only [store32_eq]
    simp only [l32, List.length_cons, List.length_nil]
    exact okIte)

theorem b32_small {wc : Nat} (h : wc < 16777216) :
    b32 wc = [0, u8 (wc / 65536), u8 (wc / 256), u8 wc] := by
  unfold b32; rw [show wc / 16777216 = 0 by omega]; rfl

theorem l32_small {wc : Nat} (h : wc < 16777216) :
    l32 wc = [u8 wc, u8 (wc / 256), u8 (wc / 65536), 0] := by
  unfold l32; rw [show wc / 16777216 = 0 by omega]; rfl

theorem scalar_iff (wc : Nat) : (wc < 0x110000 ∧ ¬ (wc ≥ 0xd800 ∧ wc < 0xe000)) ↔ Scalar wc := by
  unfold Scalar; omega

theorem Scalar.lt {wc : Nat} (h : Scalar wc) : wc < 0x110000 := by unfold Scalar at h; omega

/-- Proof that `utf32be_enc` satisfies the contract `SimpleEnc`. -/
def utf32be_senc : SimpleEnc utf32be_enc :=
  .ofLen _ (fun wc => if Scalar wc then some (b32 wc) else none) rfl
    (fun wc bs h => by rw [len_of_ite h]; simp [b32]) (by
    intro os wc n
    show utf32be_wctomb os wc n = _
    unfold utf32be_wctomb
    simp only [Nat.shiftRight_eq_div_pow, Nat.reducePow, scalar_iff]
    by_cases h : Scalar wc
    · rw [if_pos h, if_pos h, b32_small (by have := h.lt; omega)]
      simp only [List.length_cons, List.length_nil]
      exact okIte
    · rw [if_neg h, if_neg h])

/-- Proof that `utf32le_enc` satisfies the contract `SimpleEnc`. -/
def utf32le_senc : SimpleEnc utf32le_enc :=
  .ofLen _ (fun wc => if Scalar wc then some (l32 wc) else none) rfl
    (fun wc bs h => by rw [len_of_ite h]; simp [l32]) (by
    intro os wc n
    show utf32le_wctomb os wc n = _
    unfold utf32le_wctomb
    simp only [Nat.shiftRight_eq_div_pow, Nat.reducePow, scalar_iff]
    by_cases h : Scalar wc
    · rw [if_pos h, if_pos h, l32_small (by have := h.lt; omega)]
      simp only [List.length_cons, List.length_nil]
      exact okIte
    · rw [if_neg h, if_neg h])

/-- The UTF-16 form of a code point (RFC 2781, section 2.1), with `put` writing one unit. -/
def utf16Enc (put : Nat → List Byte) (wc : Nat) : List Byte :=
  if wc < 0x10000 then put wc
  else put (0xd800 + (wc - 0x10000) / 1024) ++ put (0xdc00 + (wc - 0x10000) % 1024)

theorem and3ff (x : Nat) : x &&& 0x3ff = x % 1024 := Nat.and_two_pow_sub_one_eq_mod x 10

/-- Proof that `utf16be_enc` satisfies the contract `SimpleEnc`. -/
def utf16be_senc : SimpleEnc utf16be_enc :=
  .ofLen _ (fun wc => if Scalar wc then some (utf16Enc b16 wc) else none) rfl
    (fun wc bs h => by rw [len_of_ite h]; unfold utf16Enc; split <;> simp [b16]) (by
    intro os wc n
    show utf16be_wctomb os wc n = _
    unfold utf16be_wctomb utf16Enc
    simp only [Nat.shiftRight_eq_div_pow, Nat.reducePow, and3ff]
    by_cases h : Scalar wc
    · have h' := h; unfold Scalar at h'
      rw [if_pos h, if_pos (by omega)]
      by_cases h1 : wc < 0x10000
      · rw [if_pos h1, if_pos h1]
        simp only [b16, List.length_cons, List.length_nil]
        exact okIte
      · rw [if_neg h1, if_neg h1, if_pos h.lt]
        simp only [b16, List.length_append, List.length_cons, List.length_nil]
        exact okIte
    · have h' := h; unfold Scalar at h'
      rw [if_neg h]
      split
      · rw [if_neg (by omega), if_neg (by omega)]
      · rfl)

/-- Proof that `utf16le_enc` satisfies the contract `SimpleEnc`. -/
def utf16le_senc : SimpleEnc utf16le_enc :=
  .ofLen _ (fun wc => if Scalar wc then some (utf16Enc l16 wc) else none) rfl
    (fun wc bs h => by rw [len_of_ite h]; unfold utf16Enc; split <;> simp [l16]) (by
    intro os wc n
    show utf16le_wctomb os wc n = _
    unfold utf16le_wctomb utf16Enc
    simp only [Nat.shiftRight_eq_div_pow, Nat.reducePow, and3ff]
    by_cases h : Scalar wc
    · have h' := h; unfold Scalar at h'
      rw [if_pos h, if_pos (by omega)]
      by_cases h1 : wc < 0x10000
      · rw [if_pos h1, if_pos h1]
        simp only [l16, List.length_cons, List.length_nil]
        exact okIte
      · rw [if_neg h1, if_neg h1, if_pos h.lt]
        simp only [l16, List.length_append, List.length_cons, List.length_nil]
        exact okIte
    · have h' := h; unfold Scalar at h'
      rw [if_neg h]
      split
      · rw [if_neg (by omega), if_neg (by omega)]
      · rfl)

def utf16_benc : BomEnc utf16_enc where
  bom := [0xFE, 0xFF]
  enc := fun wc => if Scalar wc ∧ wc ≠ 0xfffe then some (utf16Enc b16 wc) else none
  late := fun wc => decide (0x110000 ≤ wc)
  bom_len := by simp
  len := fun wc bs h => by rw [len_of_ite h]; unfold utf16Enc; split <;> simp [b16]
  reset := rfl
  eq := by
    intro os wc n
    show utf16_wctomb os wc n = _
    unfold utf16_wctomb utf16Enc
    simp only [Nat.shiftRight_eq_div_pow, Nat.reducePow, and3ff]
    by_cases h : Scalar wc ∧ wc ≠ 0xfffe
    · have h' := h; unfold Scalar at h'
      rw [if_pos h, if_pos (by omega)]
      by_cases hos : os = 0
      · subst hos
        simp only [bomPre, true_and, if_true, List.length_cons, List.length_nil, List.length_append]
        by_cases hn : n < 2
        · rw [if_pos hn, if_neg (by split <;> simp [b16] <;> omega), if_neg (by omega)]; rfl
        · rw [if_neg hn]
          by_cases h1 : wc < 0x10000
          · simp only [if_pos h1, b16, List.length_cons, List.length_nil]
            by_cases h2 : n - (0 + 1 + 1) ≥ 2
            · rw [if_pos h2, if_pos (by omega)]
            · rw [if_neg h2, if_neg (by omega), if_pos (by omega)]
          · simp only [if_neg h1, if_pos h.1.lt, b16, List.length_append, List.length_cons,
              List.length_nil]
            by_cases h2 : n - (0 + 1 + 1) ≥ 4
            · rw [if_pos h2, if_pos (by omega)]; rfl
            · rw [if_neg h2, if_neg (by omega), if_pos (by omega)]
      · simp only [bomPre, hos, false_and, if_false, List.nil_append, List.length_nil, Nat.sub_zero]
        by_cases h1 : wc < 0x10000
        · simp only [if_pos h1, b16, List.length_cons, List.length_nil]
          exact okIte
        · simp only [if_neg h1, if_pos h.1.lt, b16, List.length_append, List.length_cons,
            List.length_nil]
          exact okIte
    · have h' := h; unfold Scalar at h'
      rw [if_neg h]
      by_cases hb : 0x110000 ≤ wc
      · simp only [decide_eq_true hb, true_and]
        rw [if_pos (by omega), if_neg (by omega : ¬ wc < 0x10000),
          if_neg (by omega : ¬ wc < 0x110000)]
        by_cases hos : os = 0
        · subst hos
          simp only [true_and, if_true, List.length_cons, List.length_nil]
          by_cases hn : n < 2
          · rw [if_pos hn, if_neg (by omega)]
          · rw [if_neg hn, if_pos (by omega)]
        · simp only [hos, false_and, if_false]; rfl
      · rw [if_neg (by omega)]
        simp [hb]

def utf32_benc : BomEnc utf32_enc where
  bom := [0x00, 0x00, 0xFE, 0xFF]
  enc := fun wc => if Scalar wc then some (b32 wc) else none
  late := fun _ => false
  bom_len := by simp
  len := fun wc bs h => by rw [len_of_ite h]; simp [b32]
  reset := rfl
  eq := by
    intro os wc n
    show utf32_wctomb os wc n = _
    unfold utf32_wctomb
    simp only [Nat.shiftRight_eq_div_pow, Nat.reducePow, scalar_iff]
    by_cases h : Scalar wc
    · rw [if_pos h, if_pos h, b32_small (by have := h.lt; omega)]
      simp only [if_pos h.lt]
      by_cases hos : os = 0
      · subst hos
        simp only [bomPre, true_and, if_true, List.length_cons, List.length_nil, List.length_append]
        by_cases hn : n < 4
        · rw [if_pos hn, if_neg (by omega), if_neg (by omega)]; rfl
        · rw [if_neg hn]
          by_cases h2 : n - (0 + 1 + 1 + 1 + 1) ≥ 4
          · rw [if_pos h2, if_pos (by omega)]
          · rw [if_neg h2, if_neg (by omega), if_pos (by omega)]
      · simp only [bomPre, hos, false_and, if_false, List.nil_append, List.length_nil, Nat.sub_zero,
          List.length_cons]
        exact okIte
    · rw [if_neg h, if_neg h]
      simp

end Reiconv
