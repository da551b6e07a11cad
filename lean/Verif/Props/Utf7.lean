import Verif.Codec.Utf7Sim
import Verif.Props.Unicode

/-!
# UTF-7: C25
-/

namespace Reiconv

/-! ## Every text has a UTF-7 form, in ASCII -/

theorem u7enc_some {os wc : Nat} (h : wc < 0x110000) : ∃ bs os', u7enc os wc = some (bs, os') := by
  unfold u7enc
  repeat' split
  all_goals first | exact ⟨_, _, rfl⟩ | omega

theorem u7leave_ascii {os : Nat} {m : Bool} (hJ : u7J os) : ∀ b ∈ u7leave os m, b < 128 := by
  unfold u7J at hJ
  unfold u7leave
  intro b hb
  rw [List.mem_append] at hb
  rcases hb with hb | hb
  · by_cases h : os % 4 ≥ 2
    · rw [if_pos h] at hb
      simp only [List.mem_singleton] at hb
      rw [hb]
      exact (u7c_val _ (by omega)).2
    · rw [if_neg h] at hb; cases hb
  · cases m with
    | true => simp at hb; omega
    | false => simp at hb

theorem u7body_ascii {os wc : Nat} (hJ : u7J os) (h : wc < 0x110000) : ∀ b ∈ (u7body os wc).1.map u7c, b < 128 := by
  intro b hb
  obtain ⟨v, hv, rfl⟩ := List.mem_map.1 hb
  exact (u7c_val v (u7body_lt hJ h v hv)).2

theorem u7enc_ascii {os wc os' : Nat} {bs : List Nat} (hJ : u7J os) (h : u7enc os wc = some (bs, os')) :
    ∀ b ∈ bs, b < 128 := by
  unfold u7enc at h
  by_cases h1 : u7_isdirect wc = true
  · rw [if_pos h1] at h
    cases h
    intro b hb
    rw [List.mem_append] at hb
    rcases hb with hb | hb
    · by_cases h0 : os % 4 = 0
      · rw [if_pos h0] at hb; cases hb
      · rw [if_neg h0] at hb; exact u7leave_ascii hJ b hb
    · simp only [List.mem_singleton] at hb
      rw [hb]; exact u7_direct_lt h1
  rw [if_neg h1] at h
  by_cases h2 : os % 4 = 0 ∧ wc = 0x2b
  · rw [if_pos h2] at h
    cases h
    simp
  rw [if_neg h2] at h
  by_cases h3 : wc < 0x110000
  · rw [if_pos h3] at h
    by_cases h0 : os % 4 = 0
    · rw [if_pos h0] at h
      cases h
      intro b hb
      rw [List.mem_cons] at hb
      rcases hb with hb | hb
      · omega
      · exact u7body_ascii (.inr (.inl rfl)) h3 b hb
    · rw [if_neg h0] at h
      cases h
      exact u7body_ascii hJ h3
  · rw [if_neg h3] at h; cases h

theorem u7_full {os wc : Nat} (hJ : u7J os) :
    utf7_encoder.full os wc = (u7enc os wc).map fun (x : List Nat × Nat) => (x.1.map u8, x.2) := utf7_enc.full_eq hJ wc

theorem u7_rep {os wc : Nat} (hJ : u7J os) :
    utf7_encoder.rep os wc = (u7enc os wc).map fun (x : List Nat × Nat) => (x.1.map u8, x.2) := by
  rw [← u7_full hJ]
  apply Encoder.rep_eq
  intro bs os' hf _
  rw [u7_full hJ] at hf
  cases he : u7enc os wc with
  | none => rw [he] at hf; cases hf
  | some x =>
    obtain ⟨b, o⟩ := x
    rw [he] at hf
    cases hf
    simpa using (u7enc_st he).2.1

theorem u7_tail {os : Nat} (hJ : u7J os) :
    utf7_encoder.tail os = (if os % 4 = 0 then [] else u7leave os true).map u8 :=
  utf7_enc.tail_eq hJ (by simp [utf7_encoder])

theorem u7_text : ∀ (cs : List Nat) (os : Nat), u7J os → (∀ c ∈ cs, c < 0x110000) →
    ∃ bs os', utf7_encoder.text os cs = some (bs, os') ∧ u7J os' ∧ ∀ b ∈ bs, b.toNat < 0x80 := by
  intro cs
  induction cs with
  | nil => intro os hJ _; exact ⟨[], os, rfl, hJ, by simp⟩
  | cons c cs ih =>
    intro os hJ h
    obtain ⟨b1, os1, h1⟩ := u7enc_some (os := os) (h c (List.mem_cons_self ..))
    obtain ⟨b2, os2, h2, h3, h4⟩ := ih os1 (u7enc_st h1).1 (fun x hx => h x (List.mem_cons_of_mem _ hx))
    refine ⟨b1.map u8 ++ b2, os2, ?_, h3, ?_⟩
    · simp only [Encoder.text]
      rw [u7_rep hJ, h1]
      simp only [Option.map_some]
      rw [h2]
    · intro b hb
      rw [List.mem_append] at hb
      rcases hb with hb | hb
      · obtain ⟨x, hx, rfl⟩ := List.mem_map.1 hb
        have := u7enc_ascii hJ h1 x hx
        rw [u8_toNat]; omega
      · exact h4 b hb

/-- Scalar values are not halves of surrogate pairs. -/
theorem scalar_notHigh {c : Nat} (h : Scalar c) : NotHigh c := by unfold Scalar at h; unfold NotHigh; omega

/-- C25. Every string of scalar values has a UTF-7 form. It consists of ASCII bytes, and it is read as this
string. -/
theorem C25_utf7 (cs : List Nat) (h : ∀ c ∈ cs, Scalar c) :
    ∃ out, utf7_entry.Encodes cs out ∧ (∀ b ∈ out, b.toNat < 0x80) ∧ utf7_entry.Text out cs := by
  obtain ⟨bs, os, h1, h2, h3⟩ := u7_text cs 0 (.inl rfl) (fun c hc => by have := h c hc; unfold Scalar at this; omega)
  have hE : utf7_entry.Encodes cs (bs ++ utf7_entry.enc.tail os) := ⟨bs, os, h1, rfl⟩
  refine ⟨_, hE, ?_, utf7_sim.back (fun c hc => scalar_notHigh (h c hc)) hE⟩
  intro b hb
  rw [List.mem_append] at hb
  rcases hb with hb | hb
  · exact h3 b hb
  · have e : utf7_entry.enc.tail os = (if os % 4 = 0 then [] else u7leave os true).map u8 := u7_tail h2
    rw [e] at hb
    obtain ⟨x, hx, rfl⟩ := List.mem_map.1 hb
    by_cases h0 : os % 4 = 0
    · rw [if_pos h0] at hx; cases hx
    · rw [if_neg h0] at hx
      have := u7leave_ascii h2 x hx
      rw [u8_toNat]; omega

/-- C25 at the API: UTF-8 to UTF-7 and back, for the UTF-8 form of every string of scalar values. -/
theorem C25_utf7_convert (cs : List Nat) (h : ∀ c ∈ cs, Scalar c) (discard discard' : Bool)
    (alloc : Nat → List Byte) (hal : ∀ n, (alloc n).length = n) :
    ∃ out : List Byte, (∀ b ∈ out, b.toNat < 0x80) ∧
      (∃ y, convert (utf8_entry.conv utf7_entry discard) St.init (cs.flatMap utf8Enc) true true
          (fun n => some (alloc n)) = .ok y ∧ y.ret = .ok () ∧ y.outLen = some out.length ∧ y.data = some out) ∧
      ∃ y, convert (utf7_entry.conv utf8_entry discard') St.init out true true
          (fun n => some (alloc n)) = .ok y ∧ y.ret = .ok () ∧ y.outLen = some (cs.flatMap utf8Enc).length ∧
          y.data = some (cs.flatMap utf8Enc) := by
  obtain ⟨out, h1, h2, h3⟩ := C25_utf7 cs h
  have ht : utf8_entry.Text (cs.flatMap utf8Enc) cs := (C19_utf8_decoding _ _).2 ⟨h, rfl⟩
  have he : utf8_entry.Encodes cs (cs.flatMap utf8Enc) := ((utf8_exact _ _).1 ht).1
  exact ⟨out, h2, convert_text discard simple_fixed ht h1 alloc hal,
    convert_text discard' (show utf7_entry.FixedOrder from fun _ h => h.1) h3 he alloc hal⟩

/-! ## The form is that of RFC 2152 -/

/-- Set D of RFC 2152 with space, tab, line feed and carriage return: the characters written as they are. -/
def rfc2152D : String :=
  "ABCDEFGHIJKLMNOPQRSTUVWXYZabcdefghijklmnopqrstuvwxyz0123456789'(),-./:? \t\n\r"

/-- The base64 alphabet. -/
def base64Alphabet : String := "ABCDEFGHIJKLMNOPQRSTUVWXYZabcdefghijklmnopqrstuvwxyz0123456789+/"

theorem u7_isdirect_iff (c : Nat) : u7_isdirect c = true ↔ c ∈ rfc2152D.toList.map Char.toNat := by
  by_cases h : c < 128
  · have : ∀ c, c < 128 → (u7_isdirect c = true ↔ c ∈ rfc2152D.toList.map Char.toNat) := by decide +kernel
    exact this c h
  · refine ⟨fun h1 => absurd (u7_direct_lt h1) h, fun h1 => ?_⟩
    have : ∀ c ∈ rfc2152D.toList.map Char.toNat, c < 128 := by decide +kernel
    exact absurd (this c h1) h

theorem u7c_alphabet : ∀ v, v < 64 → some (u7c v) = (base64Alphabet.toList.map Char.toNat)[v]? := by decide +kernel

/-- The 16-bit units of a character in UTF-16. -/
def utf16Units (c : Nat) : List Nat :=
  if c < 0x10000 then [c] else [0xd800 + (c - 0x10000) / 1024, 0xdc00 + (c - 0x10000) % 1024]

/-- The number with the digits `ds` in base `b`. -/
def ofDigits (b : Nat) (ds : List Nat) : Nat := ds.foldl (fun a d => a * b + d) 0

/-- `vs` are the groups of six bits of the 16-bit units `us`, filled up with zero bits at the end: fewer
than six of them. -/
def Base64 (us vs : List Nat) : Prop :=
  (∀ v ∈ vs, v < 64) ∧ ∃ pad, pad < 6 ∧ 6 * vs.length = 16 * us.length + pad ∧
    ofDigits 64 vs = ofDigits 65536 us * 2 ^ pad

/-- Number of bits in the encoder state, and these bits. -/
def u7p (os : Nat) : Nat := if os % 4 = 2 then 2 else if os % 4 = 3 then 4 else 0
def u7d (os : Nat) : Nat := if os % 4 = 2 then os / 16 else if os % 4 = 3 then os / 4 else 0

theorem u7two_digits {os b0 b1 A : Nat} (_hJ : u7J os) (h0 : os % 4 ≠ 0) (_h1 : b0 < 256) (_h2 : b1 < 256) :
    (u7two os b0 b1).1.foldl (fun a d => a * 64 + d) A * 2 ^ u7p (u7two os b0 b1).2 + u7d (u7two os b0 b1).2 =
      (A * 2 ^ u7p os + u7d os) * 65536 + (b0 * 256 + b1) ∧
    6 * (u7two os b0 b1).1.length + u7p (u7two os b0 b1).2 = u7p os + 16 ∧ (u7two os b0 b1).2 % 4 ≠ 0 := by
  unfold u7J at _hJ
  unfold u7two u7p u7d
  by_cases g1 : os % 4 = 1
  · rw [if_pos g1]
    simp only [List.foldl_cons, List.foldl_nil, List.length_cons, List.length_nil]
    rw [if_neg (by omega), if_pos (by omega), if_neg (by omega), if_pos (by omega), if_neg (by omega), if_neg (by omega),
      if_neg (by omega), if_neg (by omega)]
    omega
  rw [if_neg g1]
  by_cases g2 : os % 4 = 2
  · rw [if_pos g2]
    simp only [List.foldl_cons, List.foldl_nil, List.length_cons, List.length_nil]
    rw [if_neg (by omega), if_neg (by omega), if_neg (by omega), if_neg (by omega), if_pos (by omega), if_pos (by omega)]
    omega
  · rw [if_neg g2]
    simp only [List.foldl_cons, List.foldl_nil, List.length_cons, List.length_nil]
    rw [if_pos (by omega), if_pos (by omega), if_neg (by omega), if_pos (by omega), if_neg (by omega), if_pos (by omega)]
    omega

theorem u7four_digits {os b0 b1 b2 b3 A : Nat} (_hJ : u7J os) (h0 : os % 4 ≠ 0) (_h1 : b0 < 256) (_h2 : b1 < 256)
    (_h3 : b2 < 256) (_h4 : b3 < 256) :
    (u7four os b0 b1 b2 b3).1.foldl (fun a d => a * 64 + d) A * 2 ^ u7p (u7four os b0 b1 b2 b3).2 +
        u7d (u7four os b0 b1 b2 b3).2 =
      ((A * 2 ^ u7p os + u7d os) * 65536 + (b0 * 256 + b1)) * 65536 + (b2 * 256 + b3) ∧
    6 * (u7four os b0 b1 b2 b3).1.length + u7p (u7four os b0 b1 b2 b3).2 = u7p os + 32 ∧
    (u7four os b0 b1 b2 b3).2 % 4 ≠ 0 := by
  unfold u7J at _hJ
  unfold u7four u7p u7d
  by_cases g1 : os % 4 = 1
  · rw [if_pos g1]
    simp only [List.foldl_cons, List.foldl_nil, List.length_cons, List.length_nil]
    rw [if_pos (by omega), if_pos (by omega), if_neg (by omega), if_neg (by omega), if_neg (by omega), if_neg (by omega)]
    omega
  rw [if_neg g1]
  by_cases g2 : os % 4 = 2
  · rw [if_pos g2]
    simp only [List.foldl_cons, List.foldl_nil, List.length_cons, List.length_nil]
    rw [if_neg (by omega), if_pos (by omega), if_neg (by omega), if_pos (by omega), if_pos (by omega), if_pos (by omega)]
    omega
  · rw [if_neg g2]
    simp only [List.foldl_cons, List.foldl_nil, List.length_cons, List.length_nil]
    rw [if_neg (by omega), if_neg (by omega), if_neg (by omega), if_neg (by omega), if_neg (by omega), if_pos (by omega),
      if_neg (by omega), if_pos (by omega)]
    omega

theorem pair_split {w x y : Nat} (h : w = x * 65536 + y) (_hx : x < 65536) (hy : y < 65536) :
    w / 16777216 * 256 + w / 65536 % 256 = x ∧ w / 256 % 256 * 256 + w % 256 = y ∧ w / 16777216 < 256 := by omega

theorem u7pair_digits {os w x y A : Nat} (hJ : u7J os) (h0 : os % 4 ≠ 0) (h : w = x * 65536 + y) (hx : x < 65536)
    (hy : y < 65536) {r : List Nat × Nat}
    (hr : r = u7four os (w / 16777216) (w / 65536 % 256) (w / 256 % 256) (w % 256)) :
    r.1.foldl (fun a d => a * 64 + d) A * 2 ^ u7p r.2 + u7d r.2 =
      [x, y].foldl (fun a d => a * 65536 + d) (A * 2 ^ u7p os + u7d os) ∧
    6 * r.1.length + u7p r.2 = u7p os + 16 * [x, y].length ∧ r.2 % 4 ≠ 0 := by
  obtain ⟨e1, e2, e3⟩ := pair_split h hx hy
  have := u7four_digits (A := A) hJ h0 e3 (Nat.mod_lt (w / 65536) (by omega)) (Nat.mod_lt (w / 256) (by omega))
    (Nat.mod_lt w (by omega))
  rw [← hr, e1, e2] at this
  exact ⟨this.1, this.2.1, this.2.2⟩

theorem u7unit_digits {os wc A : Nat} (hJ : u7J os) (h0 : os % 4 ≠ 0) (h : wc < 65536) {r : List Nat × Nat}
    (hr : r = u7two os (wc / 256) (wc % 256)) :
    r.1.foldl (fun a d => a * 64 + d) A * 2 ^ u7p r.2 + u7d r.2 =
      [wc].foldl (fun a d => a * 65536 + d) (A * 2 ^ u7p os + u7d os) ∧
    6 * r.1.length + u7p r.2 = u7p os + 16 * [wc].length ∧ r.2 % 4 ≠ 0 := by
  have := u7two_digits (A := A) hJ h0 (b0 := wc / 256) (b1 := wc % 256) (by omega) (by omega)
  rw [show wc / 256 * 256 + wc % 256 = wc by omega, ← hr] at this
  exact this

theorem u7body_digits {os wc A : Nat} (hJ : u7J os) (h0 : os % 4 ≠ 0) (hw : wc < 0x110000) :
    (u7body os wc).1.foldl (fun a d => a * 64 + d) A * 2 ^ u7p (u7body os wc).2 + u7d (u7body os wc).2 =
      (utf16Units wc).foldl (fun a d => a * 65536 + d) (A * 2 ^ u7p os + u7d os) ∧
    6 * (u7body os wc).1.length + u7p (u7body os wc).2 = u7p os + 16 * (utf16Units wc).length ∧
    (u7body os wc).2 % 4 ≠ 0 := by
  unfold utf16Units
  by_cases h1 : wc < 0x10000
  · rw [if_pos h1]
    exact u7unit_digits hJ h0 h1 (by unfold u7body; rw [if_pos h1])
  · rw [if_neg h1]
    exact u7pair_digits (w := u7pair wc) hJ h0 (by unfold u7pair; rfl) (by omega) (by omega)
      (by unfold u7body; rw [if_neg h1])

/-- A run of characters in base64. -/
theorem u7_run_digits : ∀ (cs : List Nat) (os A : Nat), u7J os → os % 4 ≠ 0 →
    (∀ c ∈ cs, c < 0x110000 ∧ u7_isdirect c = false) →
    ∃ (vs : List Nat) (os' : Nat), utf7_encoder.text os cs = some (vs.map u7b, os') ∧ u7J os' ∧ os' % 4 ≠ 0 ∧ (∀ v ∈ vs, v < 64) ∧
      6 * vs.length + u7p os' = u7p os + 16 * (cs.flatMap utf16Units).length ∧
      vs.foldl (fun a d => a * 64 + d) A * 2 ^ u7p os' + u7d os' =
        (cs.flatMap utf16Units).foldl (fun a d => a * 65536 + d) (A * 2 ^ u7p os + u7d os) := by
  intro cs
  induction cs with
  | nil => intro os A hJ h0 _; exact ⟨[], os, rfl, hJ, h0, by simp, by simp, rfl⟩
  | cons c cs ih =>
    intro os A hJ h0 h
    obtain ⟨hw, hd⟩ := h c (List.mem_cons_self ..)
    obtain ⟨d1, d2, d3⟩ := u7body_digits (A := A) hJ h0 hw
    obtain ⟨vs, os', h1, h2, h3, h4, h5, h6⟩ := ih (u7body os c).2 ((u7body os c).1.foldl (fun a d => a * 64 + d) A)
      u7body_st d3 (fun x hx => h x (List.mem_cons_of_mem _ hx))
    refine ⟨(u7body os c).1 ++ vs, os', ?_, h2, h3, ?_, ?_, ?_⟩
    · simp only [Encoder.text]
      have e : u7enc os c = some ((u7body os c).1.map u7c, (u7body os c).2) := by
        unfold u7enc
        rw [hd, if_neg (by simp), if_neg (fun h => h0 h.1), if_pos hw, if_neg h0]
      rw [u7_rep hJ, e]
      simp only [Option.map_some]
      rw [h1, map_u7b, List.map_append]
    · intro v hv
      rw [List.mem_append] at hv
      rcases hv with hv | hv
      · exact u7body_lt hJ hw v hv
      · exact h4 v hv
    · rw [List.flatMap_cons, List.length_append, List.length_append]
      omega
    · rw [List.foldl_append, h6, d1, List.flatMap_cons, List.foldl_append]

/-- The form of RFC 2152: a text of characters outside set D (that does not begin with `+`, which has the
form `+-`) is written as `+`, the base64 form of its UTF-16 units, and `-`. -/
theorem C25_base64 (cs : List Nat) (hne : cs ≠ [])
    (h : ∀ c ∈ cs, Scalar c ∧ c ∉ rfc2152D.toList.map Char.toNat) (hp : cs.head? ≠ some 0x2b) :
    ∃ vs, Base64 (cs.flatMap utf16Units) vs ∧
      ∃ chars : List Nat, (∀ i (hi : i < vs.length), chars[i]? = (base64Alphabet.toList.map Char.toNat)[vs[i]]?) ∧
        chars.length = vs.length ∧
        utf7_entry.Encodes cs (((0x2b :: chars) ++ [0x2d]).map u8) := by
  have hlt : ∀ c ∈ cs, c < 0x110000 ∧ u7_isdirect c = false := by
    intro c hc
    obtain ⟨h1, h2⟩ := h c hc
    refine ⟨by unfold Scalar at h1; omega, ?_⟩
    cases hd : u7_isdirect c with
    | false => rfl
    | true => exact absurd ((u7_isdirect_iff c).1 hd) h2
  obtain ⟨vs, os, h1, h2, h3, h4, h5, h6⟩ := u7_run_digits cs 1 0 (.inr (.inl rfl)) (by omega) hlt
  have hp1 : u7p 1 = 0 := rfl
  have hd1 : u7d 1 = 0 := rfl
  rw [hp1] at h5
  rw [hp1, hd1] at h6
  have ht : utf7_encoder.text 0 cs = some (u8 0x2b :: vs.map u7b, os) := by
    cases cs with
    | nil => exact absurd rfl hne
    | cons c cs =>
      obtain ⟨hw, hd⟩ := hlt c (List.mem_cons_self ..)
      have hc : c ≠ 0x2b := by intro e; exact hp (by rw [e]; rfl)
      have e0 : u7enc 0 c = some (0x2b :: (u7body 1 c).1.map u7c, (u7body 1 c).2) := by
        unfold u7enc
        rw [hd, if_neg (by simp), if_neg (fun h => hc h.2), if_pos hw, if_pos rfl]
      have e1 : u7enc 1 c = some ((u7body 1 c).1.map u7c, (u7body 1 c).2) := by
        unfold u7enc
        rw [hd, if_neg (by simp), if_neg (fun h => hc h.2), if_pos hw, if_neg (by omega)]
      simp only [Encoder.text] at h1 ⊢
      rw [u7_rep (.inr (.inl rfl)), e1] at h1
      rw [u7_rep (.inl rfl), e0]
      simp only [Option.map_some] at h1 ⊢
      cases hx : utf7_encoder.text (u7body 1 c).2 cs with
      | none => rw [hx] at h1; cases h1
      | some x =>
        obtain ⟨r, o⟩ := x
        rw [hx] at h1
        simp only [Option.some.injEq, Prod.mk.injEq] at h1 ⊢
        rw [← h1.1, h1.2]
        exact ⟨rfl, rfl⟩
  have hchar : ∀ vs : List Nat, (∀ v ∈ vs, v < 64) → ∀ i (hi : i < vs.length),
      (vs.map u7c)[i]? = (base64Alphabet.toList.map Char.toNat)[vs[i]]? := by
    intro vs hv i hi
    rw [← u7c_alphabet _ (hv _ (List.getElem_mem hi))]
    simp [hi]
  have htail : utf7_entry.enc.tail os = (u7leave os true).map u8 := by
    have : utf7_entry.enc.tail os = _ := u7_tail h2
    rw [this, if_neg h3]
  by_cases g : os % 4 ≥ 2
  · have hd64 : os / 4 * 4 < 64 := by unfold u7J at h2; omega
    have hv' : ∀ v ∈ vs ++ [os / 4 * 4], v < 64 := by
      intro v hv
      rw [List.mem_append] at hv
      rcases hv with hv | hv
      · exact h4 v hv
      · simp only [List.mem_singleton] at hv; omega
    refine ⟨vs ++ [os / 4 * 4], ⟨hv', 6 - u7p os, ?_, ?_, ?_⟩, (vs ++ [os / 4 * 4]).map u7c, hchar _ hv', by simp,
      _, _, ht, ?_⟩
    · unfold u7p
      by_cases g2 : os % 4 = 2
      · rw [if_pos g2]; omega
      · rw [if_neg g2, if_pos (by omega)]; omega
    · rw [List.length_append, List.length_singleton]
      unfold u7p at h5 ⊢
      by_cases g2 : os % 4 = 2
      · rw [if_pos g2] at h5 ⊢; omega
      · rw [if_neg g2, if_pos (by omega)] at h5 ⊢; omega
    · unfold ofDigits
      rw [show 0 * 2 ^ 0 + 0 = 0 from rfl] at h6
      rw [← h6, List.foldl_append]
      simp only [List.foldl_cons, List.foldl_nil]
      unfold u7J at h2
      unfold u7p u7d
      by_cases g2 : os % 4 = 2
      · rw [if_pos g2, if_pos g2]; omega
      · rw [if_neg g2, if_pos (by omega), if_neg g2, if_pos (by omega)]; omega
    · rw [htail]
      unfold u7leave
      rw [if_pos g, if_pos rfl, ← map_u7b]
      simp
  · refine ⟨vs, ⟨h4, 0, by omega, ?_, ?_⟩, vs.map u7c, hchar vs h4, by simp, _, _, ht, ?_⟩
    · unfold u7p at h5
      rw [if_neg (by omega), if_neg (by omega)] at h5
      omega
    · unfold ofDigits
      unfold u7p u7d at h6
      rw [if_neg (by omega), if_neg (by omega), if_neg (by omega), if_neg (by omega)] at h6
      rw [show 0 * 2 ^ 0 + 0 = 0 from rfl] at h6
      rw [← h6]
      omega
    · rw [htail]
      unfold u7leave
      rw [if_neg g, if_pos rfl, ← map_u7b]
      simp

/-- The hypotheses are met: U+65E5 U+672C U+8A9E. -/
example : (∀ c ∈ [0x65e5, 0x672c, 0x8a9e], Scalar c ∧ c ∉ rfc2152D.toList.map Char.toNat) ∧
    [0x65e5, 0x672c, 0x8a9e].head? ≠ some 0x2b := by decide +kernel

/-- "A≢Α." of RFC 2152: `A+ImIDkQ.`. -/
example : utf7_entry.Encodes [0x41, 0x2262, 0x0391, 0x2e] ("A+ImIDkQ.".toList.map fun c => u8 c.toNat) :=
  ⟨_, _, show _ = some ("A+ImIDkQ.".toList.map (fun c => u8 c.toNat), 0) by decide +kernel, by decide +kernel⟩

/-! ## What UTF-7 texts are not -/

/-- A lone second half of a surrogate pair in base64 is accepted: `+3AA-` gives the 32-bit code 0xDC00,
which is not a scalar value. The first half alone is not. -/
theorem C25_surrogate :
    convert (utf7_entry.conv ucs4be_entry false) St.init [0x2b, 0x33, 0x41, 0x41, 0x2d] true true
      (fun n => some (List.replicate n 0)) = .ok ⟨.ok (), St.init, some 4, some [0x00, 0x00, 0xdc, 0x00]⟩ ∧
    (∃ s, convert (utf7_entry.conv ucs4be_entry false) St.init [0x2b, 0x32, 0x41, 0x41, 0x2d] true true
      (fun n => some (List.replicate n 0)) = .ok ⟨.error .EILSEQ, s, none, none⟩) := by
  refine ⟨by decide +kernel, ⟨⟨0, 1⟩, 0⟩, by decide +kernel⟩

end Reiconv
