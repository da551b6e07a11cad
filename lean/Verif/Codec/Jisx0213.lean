import Verif.Codec.PairText
import Verif.Codec.GbCheck
import Verif.Codec.Sim
import Verif.Gen.JxTables

/-!
# JIS X 0213

The two functions of `lib/converters/jisx0213.h`, and their values for evaluation in the kernel.
-/

namespace Reiconv

/-- `T[i]` for an array given in pieces. -/
def tabsGet : List Tab → Nat → Outcome Nat
  | [], _ => .ub
  | t :: ts, i => if i < t.len then t.get i else tabsGet ts (i - t.len)

/-- The index of a row in `jisx0213_to_ucs_main` (`lib/converters/jisx0213.h:5870-5883`). -/
def jxRow (row : Nat) : Option Nat :=
  if row ≥ 0x121 ∧ row ≤ 0x17e then some (row - 289)
  else if row = 0x221 then some (row - 451)
  else if row ≥ 0x223 ∧ row ≤ 0x225 then some (row - 452)
  else if row = 0x228 then some (row - 454)
  else if row ≥ 0x22c ∧ row ≤ 0x22f then some (row - 457)
  else if row ≥ 0x26e ∧ row ≤ 0x27e then some (row - 519)
  else none

/-- `jisx0213_to_ucs4` (`lib/converters/jisx0213.h:5866-5895`). 0 means no character; 1 to 0x7f is the number of
a pair of characters in `jisx0213_to_ucs_combining`. -/
def jx_to_ucs4 (row col : Nat) : Outcome Nat :=
  match jxRow row with
  | none => .ok 0
  | some r =>
    if col ≥ 0x21 ∧ col ≤ 0x7e then do
      let val ← tabsGet jxMain (r * 94 + (col - 0x21))
      let p ← jxPage.get (val >>> 8)
      let v := p + (val &&& 0xff)
      return if v = 0xfffd then 0 else v
    else .ok 0

/-- `ucs4_to_jisx0213` (`lib/converters/jisx0213.h:5905-5929`). 0 means that the character is not in the set. -/
def ucs4_to_jx (ucs : Nat) : Outcome Nat :=
  if ucs < 2715 <<< 6 then do
    let index1 ← jxLevel1.get (ucs >>> 6)
    if index1 < 0x8000 then do
      let s ← jxIndx.get (((index1 <<< 6) + (ucs &&& 0x3f)) >>> 4)
      let used := s >>> 16
      let i := ucs &&& 0x0f
      if used &&& (1 <<< i) ≠ 0 then
        tabsGet jxData (s % 65536 + popc16 (used &&& ((1 <<< i) - 1)))
      else return 0
    else return 0
  else return 0

/-! ## Versions for the kernel -/

noncomputable def tabsF (ts : List Tab) : Nat → Nat :=
  List.rec (fun _ => 0) (fun t _ ih i => Bool.rec (forceN (Nat.sub i t.len) ih) (t.getF i) (Nat.ble (Nat.succ i) t.len)) ts

noncomputable def tabsLen (ts : List Tab) : Nat := List.rec 0 (fun t _ ih => Nat.add t.len ih) ts

theorem tabsF_cons (t : Tab) (ts : List Tab) (i : Nat) : tabsF (t :: ts) i = if i < t.len then t.getF i else tabsF ts (i - t.len) := by
  have : tabsF (t :: ts) i = Bool.rec (forceN (Nat.sub i t.len) (tabsF ts)) (t.getF i) (Nat.ble (Nat.succ i) t.len) := rfl
  rw [this, forceN_eq, bool_rec_ble]
  rfl

theorem tabsGet_fast : ∀ (ts : List Tab) (i : Nat), i < tabsLen ts → tabsGet ts i = .ok (tabsF ts i) := by
  intro ts
  induction ts with
  | nil => intro i h; exact absurd h (Nat.not_lt_zero _)
  | cons t ts ih =>
    intro i h
    have h : i < t.len + tabsLen ts := h
    rw [tabsGet, tabsF_cons]
    by_cases hi : i < t.len
    · rw [if_pos hi, if_pos hi, Tab.get_fast hi]
    · rw [if_neg hi, if_neg hi, ih _ (by omega)]

/-- 0, or the index of the row plus 1. -/
noncomputable def jxRowF (row : Nat) : Nat :=
  Bool.rec
    (Bool.rec
      (Bool.rec
        (Bool.rec
          (Bool.rec
            (Bool.rec 0 (Bool.rec 0 (Nat.succ (Nat.sub row 519)) (Nat.ble row 0x27e)) (Nat.ble 0x26e row))
            (Nat.succ (Nat.sub row 457)) (Bool.rec false (Nat.ble row 0x22f) (Nat.ble 0x22c row)))
          (Nat.succ (Nat.sub row 454)) (Nat.beq row 0x228))
        (Nat.succ (Nat.sub row 452)) (Bool.rec false (Nat.ble row 0x225) (Nat.ble 0x223 row)))
      (Nat.succ (Nat.sub row 451)) (Nat.beq row 0x221))
    (Nat.succ (Nat.sub row 289)) (Bool.rec false (Nat.ble row 0x17e) (Nat.ble 0x121 row))

theorem bool_rec_and {α : Type} (a b : Bool) (x y : α) :
    (Bool.rec y x (Bool.rec false b a) : α) = if a = true ∧ b = true then x else y := by
  cases a <;> cases b <;> rfl

theorem jxRow_fast (row : Nat) : jxRow row = ofCode (jxRowF row) := by
  unfold jxRow jxRowF
  simp only [bool_rec_and, Nat.ble_eq]
  simp only [bool_rec_ble, bool_rec_beq]
  by_cases h1 : 0x121 ≤ row ∧ row ≤ 0x17e
  · rw [if_pos h1, if_pos h1]; rfl
  rw [if_neg h1, if_neg h1]
  by_cases h2 : row = 0x221
  · rw [if_pos h2, if_pos h2]; rfl
  rw [if_neg h2, if_neg h2]
  by_cases h3 : 0x223 ≤ row ∧ row ≤ 0x225
  · rw [if_pos h3, if_pos h3]; rfl
  rw [if_neg h3, if_neg h3]
  by_cases h4 : row = 0x228
  · rw [if_pos h4, if_pos h4]; rfl
  rw [if_neg h4, if_neg h4]
  by_cases h5 : 0x22c ≤ row ∧ row ≤ 0x22f
  · rw [if_pos h5, if_pos h5]; rfl
  rw [if_neg h5, if_neg h5]
  by_cases h6 : 0x26e ≤ row ∧ row ≤ 0x27e
  · rw [if_pos h6, if_pos h6.1, if_pos h6.2]; rfl
  · rw [if_neg h6]
    by_cases h7 : 0x26e ≤ row
    · rw [if_pos h7, if_neg (by omega)]; rfl
    · rw [if_neg h7]; rfl

theorem jxRowF_lt {row r : Nat} (h : jxRowF row = r + 1) : r < 120 := by
  have h2 : jxRow row = some r := by rw [jxRow_fast, h]; rfl
  unfold jxRow at h2
  simp only [ge_iff_le] at h2
  repeat' split at h2
  all_goals simp only [Option.some.injEq, reduceCtorEq] at h2
  all_goals omega

/-- The character for a value of `jisx0213_to_ucs_main`. -/
noncomputable def jxValF (val : Nat) : Nat :=
  forceN (Nat.add (jxPage.getF (Nat.shiftRight val 8)) (Nat.land val 0xff)) fun v => Bool.rec v 0 (Nat.beq v 0xfffd)

noncomputable def jx_toF (row col : Nat) : Nat :=
  Nat.rec 0 (fun r _ => Bool.rec 0 (Bool.rec 0
    (forceN (tabsF jxMain (Nat.add (Nat.mul r 94) (Nat.sub col 0x21))) jxValF)
    (Nat.ble col 0x7e)) (Nat.ble 0x21 col)) (jxRowF row)

/-- A property of all numbers below `64 * n`. -/
noncomputable def all64 (f : Nat → Bool) (n : Nat) : Bool :=
  allF (fun q => allF (fun r => forceN (Nat.add (Nat.mul 64 q) r) f) 0 64) 0 n

theorem all64_iff (f : Nat → Bool) (n : Nat) : all64 f n = true ↔ ∀ i, i < 64 * n → f i = true := by
  unfold all64
  rw [allF_iff]
  constructor
  · intro h i hi
    have h2 := h (i / 64) (Nat.zero_le _) (by omega)
    rw [allF_iff] at h2
    have h3 := h2 (i % 64) (Nat.zero_le _) (by omega)
    rw [forceN_eq] at h3
    have e : Nat.add (Nat.mul 64 (i / 64)) (i % 64) = i := Nat.div_add_mod i 64
    rwa [e] at h3
  · intro h q _ hq
    rw [allF_iff]
    intro r _ hr
    rw [forceN_eq]
    apply h
    show 64 * q + r < _
    omega

/-- The values of `jisx0213_to_ucs_main` lead to pages of `jisx0213_to_ucs_pagestart`, and to numbers of
existing pairs. -/
theorem jxMain_safe : all64 (fun i => forceN (tabsF jxMain i) fun val => Bool.rec false
    (forceN (jxValF val) fun v => Bool.rec (Bool.rec false true (Nat.ble 0x80 v)) true (Nat.ble v 25))
    (Nat.ble (Nat.succ (Nat.shiftRight val 8)) jxPage.len)) 177 = true := by decide +kernel

theorem jxMain_len : tabsLen jxMain = 11280 := by decide +kernel

theorem jxMain_ok {i : Nat} (h : i < 11280) : tabsF jxMain i >>> 8 < jxPage.len ∧
    (jxValF (tabsF jxMain i) ≤ 25 ∨ 0x80 ≤ jxValF (tabsF jxMain i)) := by
  have := (all64_iff _ _).1 jxMain_safe i (by omega)
  simp only [forceN_eq] at this
  rw [bool_rec_ble] at this
  split at this
  · next h1 =>
    rw [bool_rec_ble, bool_rec_ble] at this
    refine ⟨h1, ?_⟩
    split at this
    · next h2 => exact .inl h2
    · split at this
      · next h2 => exact .inr h2
      · cases this
  · cases this

theorem jx_to_fast (row col : Nat) : jx_to_ucs4 row col = .ok (jx_toF row col) := by
  unfold jx_to_ucs4 jx_toF
  rw [jxRow_fast]
  cases h : jxRowF row with
  | zero => rfl
  | succ r =>
    have hr := jxRowF_lt h
    simp only [ofCode, bool_rec_ble]
    by_cases h1 : 0x21 ≤ col
    · by_cases h2 : col ≤ 0x7e
      · rw [if_pos ⟨h1, h2⟩, if_pos h1, if_pos h2]
        have hi : r * 94 + (col - 0x21) < 11280 := by omega
        rw [tabsGet_fast _ _ (by rw [jxMain_len]; exact hi)]
        simp only [Outcome.bind_ok]
        rw [Tab.get_fast (jxMain_ok hi).1]
        simp only [Outcome.bind_ok, forceN_eq, jxValF, bool_rec_beq]
        rfl
      · rw [if_neg (by omega), if_pos h1, if_neg h2]
    · rw [if_neg (by omega), if_neg h1]

theorem jx_to_range (row col : Nat) : jx_toF row col ≤ 25 ∨ 0x80 ≤ jx_toF row col := by
  unfold jx_toF
  cases h : jxRowF row with
  | zero => exact .inl (Nat.zero_le _)
  | succ r =>
    have hr := jxRowF_lt h
    simp only [bool_rec_ble]
    split
    · split
      · rw [forceN_eq]
        refine (jxMain_ok (i := r * 94 + (col - 0x21)) ?_).2
        omega
      · exact .inl (Nat.zero_le _)
    · exact .inl (Nat.zero_le _)

noncomputable def jx_fromF (ucs : Nat) : Nat :=
  Bool.rec 0 (forceN (jxLevel1.getF (Nat.shiftRight ucs 6)) fun ix => Bool.rec 0
    (forceN (jxIndx.getF (Nat.shiftRight (Nat.add (Nat.shiftLeft ix 6) (Nat.land ucs 0x3f)) 4)) fun s =>
      forceN (Nat.shiftRight s 16) fun used => forceN (Nat.shiftLeft 1 (Nat.land ucs 0x0f)) fun b =>
        Bool.rec (tabsF jxData (Nat.add (Nat.mod s 65536) (popF (Nat.land used (Nat.sub b 1))))) 0
          (Nat.beq (Nat.land used b) 0))
    (Nat.ble (Nat.succ ix) 0x8000)) (Nat.ble (Nat.succ ucs) 173760)

noncomputable def jxLevel1Chk (j : Nat) : Bool := forceN (jxLevel1.getF j) fun ix => Bool.rec true
    (Nat.ble (Nat.add (Nat.mul 4 ix) 4) jxIndx.len) (Nat.ble (Nat.succ ix) 0x8000)

/-- The entries of `jisx0213_from_ucs_level1` lead to entries of `jisx0213_from_ucs_level2_2indx`. -/
theorem jxLevel1_safe : all64 (fun j => Bool.rec true (jxLevel1Chk j) (Nat.ble (Nat.succ j) 2715)) 43 = true := by decide +kernel

noncomputable def jxIndxChk (j : Nat) : Bool := forceN (jxIndx.getF j) fun s => forceN (Nat.shiftRight s 16) fun used =>
    allF (fun i => forceN (Nat.shiftLeft 1 i) fun b =>
      Bool.rec (Nat.ble (Nat.succ (Nat.add (Nat.mod s 65536) (popF (Nat.land used (Nat.sub b 1))))) 11208) true
        (Nat.beq (Nat.land used b) 0)) 0 16

/-- These lead to entries of `jisx0213_from_ucs_level2_data`. -/
theorem jxIndx_safe : all64 (fun j => Bool.rec true (jxIndxChk j) (Nat.ble (Nat.succ j) 2712)) 43 = true := by decide +kernel

theorem jxData_len : tabsLen jxData = 11208 := by decide +kernel

theorem jxLevel1_ok {j : Nat} (h : j < 2715) : jxLevel1.getF j < 0x8000 → 4 * jxLevel1.getF j + 4 ≤ 2712 := by
  have := (all64_iff _ _).1 jxLevel1_safe j (by omega)
  rw [bool_rec_ble, if_pos (Nat.succ_le_of_lt h)] at this
  unfold jxLevel1Chk at this
  rw [forceN_eq, bool_rec_ble] at this
  intro h2
  rw [if_pos (Nat.succ_le_of_lt h2), Nat.ble_eq] at this
  exact this

theorem jxIndx_ok {j i : Nat} (h : j < 2712) (hi : i < 16) (hb : jxIndx.getF j >>> 16 &&& 1 <<< i ≠ 0) :
    jxIndx.getF j % 65536 + popF (jxIndx.getF j >>> 16 &&& (1 <<< i - 1)) < 11208 := by
  have := (all64_iff _ _).1 jxIndx_safe j (by omega)
  rw [bool_rec_ble, if_pos (Nat.succ_le_of_lt h)] at this
  unfold jxIndxChk at this
  simp only [forceN_eq] at this
  rw [allF_iff] at this
  have := this i (Nat.zero_le _) (by omega)
  have hb' : ¬ Nat.land (Nat.shiftRight (jxIndx.getF j) 16) (Nat.shiftLeft 1 i) = 0 := hb
  rw [bool_rec_beq, if_neg hb', Nat.ble_eq] at this
  exact this

/-- What the encoder finds: nothing, or an entry of `jisx0213_from_ucs_level2_data`. -/
theorem jx_from_fast (ucs : Nat) : ucs4_to_jx ucs = .ok (jx_fromF ucs) ∧
    (jx_fromF ucs = 0 ∨ ∃ i, i < 11208 ∧ jx_fromF ucs = tabsF jxData i) := by
  unfold ucs4_to_jx jx_fromF
  have e : 2715 <<< 6 = 173760 := rfl
  rw [e, bool_rec_ble]
  by_cases h : ucs < 173760
  · have h' : Nat.succ ucs ≤ 173760 := h
    rw [if_pos h, if_pos h']
    have h6 : ucs >>> 6 = ucs / 64 := Nat.shiftRight_eq_div_pow ucs 6
    have hj : ucs >>> 6 < 2715 := by omega
    rw [Tab.get_fast (t := jxLevel1) hj]
    simp only [Outcome.bind_ok, forceN_eq]
    rw [bool_rec_ble]
    have hl := jxLevel1_ok hj
    have e6 : Nat.shiftRight ucs 6 = ucs >>> 6 := rfl
    rw [e6]
    generalize jxLevel1.getF (ucs >>> 6) = ix at *
    by_cases hx : ix < 0x8000
    · have hx' : Nat.succ ix ≤ 0x8000 := hx
      rw [if_pos hx, if_pos hx']
      have hl := hl hx
      have ha : ucs &&& 0x3f ≤ 0x3f := Nat.and_le_right
      have hs : ix <<< 6 = ix * 64 := Nat.shiftLeft_eq ix 6
      have hq : (ix <<< 6 + (ucs &&& 0x3f)) >>> 4 = (ix <<< 6 + (ucs &&& 0x3f)) / 16 := Nat.shiftRight_eq_div_pow _ 4
      have hk : (ix <<< 6 + (ucs &&& 0x3f)) >>> 4 < 2712 := by omega
      rw [Tab.get_fast (t := jxIndx) hk]
      simp only [Outcome.bind_ok]
      have eq : Nat.shiftRight (Nat.add (Nat.shiftLeft ix 6) (Nat.land ucs 0x3f)) 4 = (ix <<< 6 + (ucs &&& 0x3f)) >>> 4 := rfl
      rw [eq]
      have ho := fun hb => jxIndx_ok (i := ucs &&& 0x0f) hk (by have : ucs &&& 0x0f ≤ 0x0f := Nat.and_le_right; omega) hb
      generalize jxIndx.getF ((ix <<< 6 + (ucs &&& 0x3f)) >>> 4) = s at *
      rw [bool_rec_beq]
      by_cases hb : s >>> 16 &&& 1 <<< (ucs &&& 0x0f) = 0
      · have hb' : Nat.land (Nat.shiftRight s 16) (Nat.shiftLeft 1 (Nat.land ucs 0x0f)) = 0 := hb
        rw [if_neg (not_not_intro hb), if_pos hb']
        exact ⟨rfl, .inl rfl⟩
      · have hb' : ¬ Nat.land (Nat.shiftRight s 16) (Nat.shiftLeft 1 (Nat.land ucs 0x0f)) = 0 := hb
        rw [if_pos hb, if_neg hb']
        have ho := ho hb
        rw [popc16_fast, tabsGet_fast _ _ (by rw [jxData_len]; exact ho)]
        exact ⟨rfl, .inr ⟨_, ho, rfl⟩⟩
    · have hx' : ¬ Nat.succ ix ≤ 0x8000 := hx
      rw [if_neg hx, if_neg hx']
      exact ⟨rfl, .inl rfl⟩
  · have h' : ¬ Nat.succ ucs ≤ 173760 := h
    rw [if_neg h, if_neg h']
    exact ⟨rfl, .inl rfl⟩

/-- `lib/converters/shift_jisx0213.h:293-318`: the first byte for a code. `jch >> 8` is at least 0x21 (`jxData_ok`), so
nothing wraps around. -/
def sjxRow (jch : Nat) : Nat :=
  let s1 := (jch >>> 8) - 0x21
  if s1 ≥ 0x5e then
    if s1 ≥ 0xcd then s1 - 102
    else if s1 ≥ 0x8b ∨ s1 = 0x87 then s1 - 40
    else s1 - 34
  else s1

def sjx_s1 (jch : Nat) : Nat :=
  let s1 := sjxRow jch >>> 1
  if s1 < 0x1f then s1 + 0x81 else s1 + 0xc1

/-- The second byte. -/
def sjx_s2 (jch : Nat) : Nat :=
  let s2 := (jch &&& 0x7f) - 0x21
  let s2 := if sjxRow jch &&& 1 ≠ 0 then s2 + 0x5e else s2
  if s2 < 0x3f then s2 + 0x40 else s2 + 0x41

noncomputable def sjxRowF (jch : Nat) : Nat :=
  forceN (Nat.sub (Nat.shiftRight jch 8) 0x21) fun s1 =>
    Bool.rec s1 (Bool.rec (Bool.rec (Bool.rec (Nat.sub s1 34) (Nat.sub s1 40) (Nat.beq s1 0x87))
      (Nat.sub s1 40) (Nat.ble 0x8b s1)) (Nat.sub s1 102) (Nat.ble 0xcd s1)) (Nat.ble 0x5e s1)

theorem sjxRow_fast (jch : Nat) : sjxRow jch = sjxRowF jch := by
  unfold sjxRow sjxRowF
  rw [forceN_eq]
  simp only [bool_rec_ble, bool_rec_beq, ite_or_fast, ge_iff_le]
  rfl

noncomputable def sjx_s1F (jch : Nat) : Nat :=
  forceN (Nat.shiftRight (sjxRowF jch) 1) fun s1 => Bool.rec (Nat.add s1 0xc1) (Nat.add s1 0x81) (Nat.ble (Nat.succ s1) 0x1f)

theorem sjx_s1_fast (jch : Nat) : sjx_s1 jch = sjx_s1F jch := by
  unfold sjx_s1 sjx_s1F
  rw [forceN_eq, sjxRow_fast]
  simp only [bool_rec_ble]
  rfl

noncomputable def sjx_s2F (jch : Nat) : Nat :=
  forceN (Nat.sub (Nat.land jch 0x7f) 0x21) fun s2 =>
    forceN (Bool.rec (Nat.add s2 0x5e) s2 (Nat.beq (Nat.land (sjxRowF jch) 1) 0)) fun s2 =>
      Bool.rec (Nat.add s2 0x41) (Nat.add s2 0x40) (Nat.ble (Nat.succ s2) 0x3f)

theorem sjx_s2_fast (jch : Nat) : sjx_s2 jch = sjx_s2F jch := by
  unfold sjx_s2 sjx_s2F
  simp only [forceN_eq, sjxRow_fast, bool_rec_ble, bool_rec_beq, ite_ne_fast]
  rfl

/-- What the encoders rely on about a code. -/
structure JchOK (d : Nat) : Prop where
  plane : d &&& 0x80 = 0 ∨ d &&& 0x8000 = 0
  small : d ||| 0x8080 < 65536
  pos : d ||| 0x8080 ≠ 0
  hi : (d ||| 0x8080) >>> 8 &&& 0xff = (d >>> 8) ||| 0x80
  lo : (d ||| 0x8080) &&& 0xff = (d &&& 0xff) ||| 0x80
  s1 : sjx_s1 d < 256
  s1pos : sjx_s1 d ≠ 0
  s2 : sjx_s2 d < 256
  row : 0x21 ≤ d >>> 8
  col : 0x21 ≤ d &&& 0x7f

noncomputable def andB (a b : Bool) : Bool := Bool.rec false b a

theorem andB_iff (a b : Bool) : andB a b = true ↔ a = true ∧ b = true := by cases a <;> cases b <;> decide

noncomputable def jchChk (d : Nat) : Bool :=
  andB (Bool.rec (Nat.beq (Nat.land d 0x8000) 0) true (Nat.beq (Nat.land d 0x80) 0)) <|
  andB (Nat.ble (Nat.succ (Nat.lor d 0x8080)) 65536) <|
  andB (Nat.ble 1 (Nat.lor d 0x8080)) <|
  andB (Nat.beq (Nat.land (Nat.shiftRight (Nat.lor d 0x8080) 8) 0xff) (Nat.lor (Nat.shiftRight d 8) 0x80)) <|
  andB (Nat.beq (Nat.land (Nat.lor d 0x8080) 0xff) (Nat.lor (Nat.land d 0xff) 0x80)) <|
  andB (Nat.ble (Nat.succ (sjx_s1F d)) 256) <|
  andB (Nat.ble 1 (sjx_s1F d)) <|
  andB (Nat.ble (Nat.succ (sjx_s2F d)) 256) <|
  andB (Nat.ble 0x21 (Nat.shiftRight d 8)) (Nat.ble 0x21 (Nat.land d 0x7f))

theorem jchChk_sound {d : Nat} (h : jchChk d = true) : JchOK d := by
  unfold jchChk at h
  simp only [andB_iff, Nat.ble_eq, Nat.beq_eq] at h
  obtain ⟨h1, h2, h3, h4, h5, h6, h7, h8, h9, h10⟩ := h
  refine ⟨?_, h2, Nat.ne_of_gt h3, h4, h5, ?_, ?_, ?_, h9, h10⟩
  · rw [bool_rec_beq] at h1
    split at h1
    · next hh => exact .inl hh
    · rw [Nat.beq_eq] at h1; exact .inr h1
  · rw [sjx_s1_fast]; exact h6
  · rw [sjx_s1_fast]; exact Nat.ne_of_gt h7
  · rw [sjx_s2_fast]; exact h8

theorem jxData_chk : all64 (fun i => Bool.rec true (forceN (tabsF jxData i) jchChk) (Nat.ble (Nat.succ i) 11208)) 176 = true := by
  decide +kernel

theorem jx_from_ok (ucs : Nat) : jx_fromF ucs = 0 ∨ JchOK (jx_fromF ucs) := by
  rcases (jx_from_fast ucs).2 with h | ⟨i, hi, h⟩
  · exact .inl h
  · refine .inr ?_
    rw [h]
    have := (all64_iff _ _).1 jxData_chk i (by omega)
    rw [bool_rec_ble, if_pos (Nat.succ_le_of_lt hi), forceN_eq] at this
    exact jchChk_sound this

noncomputable def inBlocksF (j : Nat) (l : List (Nat × Nat)) : Bool :=
  List.rec false (fun b _ ih => Bool.rec ih (Bool.rec ih true (Nat.ble (Nat.succ j) b.2)) (Nat.ble b.1 j)) l

theorem inBlocksF_cons (j : Nat) (b : Nat × Nat) (l : List (Nat × Nat)) : inBlocksF j (b :: l) =
    Bool.rec (inBlocksF j l) (Bool.rec (inBlocksF j l) true (Nat.ble (Nat.succ j) b.2)) (Nat.ble b.1 j) := rfl

theorem inBlocksF_sound {j : Nat} : ∀ {l : List (Nat × Nat)}, inBlocksF j l = true → ∃ b ∈ l, b.1 ≤ j ∧ j < b.2 := by
  intro l
  induction l with
  | nil => intro h; cases h
  | cons b l ih =>
    intro h
    rw [inBlocksF_cons, bool_rec_ble, bool_rec_ble] at h
    have go : inBlocksF j l = true → ∃ q ∈ b :: l, q.1 ≤ j ∧ j < q.2 := fun h => by
      obtain ⟨q, hq, h⟩ := ih h
      exact ⟨q, List.mem_cons_of_mem _ hq, h⟩
    split at h
    · next h1 =>
      split at h
      · next h2 => exact ⟨b, List.mem_cons_self .., h1, h2⟩
      · exact go h
    · exact go h

theorem jxBlocks_chk : all64 (fun j => Bool.rec true (Bool.rec true (inBlocksF j jxBlocks)
    (Nat.ble (Nat.succ (jxLevel1.getF j)) 0x8000)) (Nat.ble (Nat.succ j) 2715)) 43 = true := by decide +kernel

/-- The characters outside the blocks with entries are not in the set. -/
theorem jx_outside {rs : List (Nat × Nat × Nat)} {wc : Nat}
    (h : (jxBlocks.all fun b => rangeCover (64 * b.2) (64 * b.1) rs) = true)
    (hn : ∀ r ∈ rs, ¬ (r.1 ≤ wc ∧ wc < r.1 + r.2.1)) : jx_fromF wc = 0 := by
  unfold jx_fromF
  rw [bool_rec_ble]
  by_cases hw : wc < 173760
  · rw [if_pos (Nat.succ_le_of_lt hw), forceN_eq, bool_rec_ble]
    have h6 : Nat.shiftRight wc 6 = wc / 64 := Nat.shiftRight_eq_div_pow wc 6
    rw [h6, if_neg]
    intro hx
    have := (all64_iff _ _).1 jxBlocks_chk (wc / 64) (by omega)
    rw [bool_rec_ble, bool_rec_ble, if_pos (by omega), if_pos hx] at this
    obtain ⟨b, hb, h1, h2⟩ := inBlocksF_sound this
    obtain ⟨r, hr, h3⟩ := rangeCover_sound rs _ (List.all_eq_true.1 h b hb) wc (by omega) (by omega)
    exact hn r hr h3
  · rw [if_neg (by omega)]

/-! ## The functions in programs -/

def jxToM {α : Type} (row col : Nat) (k : Nat → M α) : M α :=
  match jx_to_ucs4 row col with
  | .ok v => k v
  | .ub => .ub
  | .abort => .abort
  | .diverge => .ub

theorem jxToM_fast {α : Type} (row col : Nat) (k : Nat → M α) : jxToM row col k = forceN (jx_toF row col) k := by
  unfold jxToM
  rw [jx_to_fast, forceN_eq]

def jxFromW (wc : Nat) (k : Nat → W) : W :=
  match ucs4_to_jx wc with
  | .ok v => k v
  | .ub => .ub
  | .abort => .abort
  | .diverge => .ub

theorem jxFromW_fast (wc : Nat) (k : Nat → W) : jxFromW wc k = forceN (jx_fromF wc) k := by
  unfold jxFromW
  rw [(jx_from_fast wc).1, forceN_eq]

theorem jxFromW_zero {wc : Nat} (h : jx_fromF wc = 0) (k : Nat → W) : jxFromW wc k = k 0 := by
  rw [jxFromW_fast, forceN_eq, h]

def jxFromB (wc : Nat) (k : Nat → BW) : BW :=
  match ucs4_to_jx wc with
  | .ok v => k v
  | .ub => .ub
  | .abort => .abort
  | .diverge => .ub

theorem jxFromB_eq (wc : Nat) (k : Nat → BW) : jxFromB wc k = k (jx_fromF wc) := by
  unfold jxFromB
  rw [(jx_from_fast wc).1]

/-- What a decoder finds with no pending character: a character of `n` bytes, the pair with number `v` of
`jisx0213_to_ucs_combining`, or an error. -/
inductive JxRes where
  | char (wc n : Nat)
  | pair (v n : Nat)
  | ilseq

def JxOK (k : Nat) : JxRes → Prop
  | .char _ n => 1 ≤ n ∧ n ≤ k
  | .pair v n => (1 ≤ v ∧ v ≤ 25) ∧ 1 ≤ n ∧ n ≤ k
  | .ilseq => 1 ≤ k

/-- `if (wc) { if (wc < 0x80) … else … }` (`lib/converters/euc_jisx0213.h:105-120`). -/
def jxRes (v n : Nat) : JxRes := if v = 0 then .ilseq else if v < 0x80 then .pair v n else .char v n

/-- The two characters of a pair. -/
def jxPair (v : Nat) : Nat × Nat := jxComb.getD (v - 1) (0, 0)

def JxRes.toItem : JxRes → SItem
  | .char wc n => .char wc n 0
  | .pair v n => .char (jxPair v).1 n (jxPair v).2
  | .ilseq => .ilseq

/-- Only the single characters. -/
def JxRes.toRet : JxRes → MbRet
  | .char wc n => .char wc n
  | .pair _ _ => .ilseq 0
  | .ilseq => .ilseq 0

theorem jxRes_good {row col n k : Nat} (h1 : 1 ≤ n) (h2 : n ≤ k) (hk : 1 ≤ k) : M.Good JxOK k (jxToM row col fun v => .ret (jxRes v n)) := by
  rw [jxToM_fast, forceN_eq]
  refine M.good_ret ?_
  have := jx_to_range row col
  unfold jxRes
  split
  · exact hk
  · split
    · exact ⟨by omega, h1, h2⟩
    · exact ⟨h1, h2⟩

/-- The programs of a decoder for JIS X 0213. -/
def jxBody (m : M JxRes) : M SItem := m.andThen fun r => .ret r.toItem
def jxSingle (m : M JxRes) : M MbRet := m.andThen fun r => .ret r.toRet

theorem jxPair_lt : ∀ v, v < 26 → (jxPair v).2 < 0x110000 ∧ (v ≠ 0 → (jxPair v).2 ≠ 0) := by decide

theorem jxBody_good {m : M JxRes} (h : M.Good JxOK 1 m) : M.Good PairItemOK 1 (jxBody m) := by
  refine M.good_andThen _ _ h ?_
  intro j a hj ha
  cases a with
  | char wc n => exact M.good_ret ⟨by omega, ha.1, ha.2⟩
  | pair v n => exact M.good_ret ⟨(jxPair_lt v (by have := ha.1.2; omega)).1, ha.2.1, ha.2.2⟩
  | ilseq => exact M.good_ret ha

theorem jxSingle_good {m : M JxRes} (h : M.Good JxOK 1 m) : M.Good M.RetOK 1 (jxSingle m) := by
  refine M.good_andThen _ _ h ?_
  intro j a hj ha
  cases a with
  | char wc n => exact M.good_ret (M.retOK_char ha.1 ha.2)
  | pair v n => exact M.good_ret (M.retOK_ilseq hj)
  | ilseq => exact M.good_ret (M.retOK_ilseq hj)

/-- The relation between the two, where the pairs that the decoder finds are those of `C`. -/
theorem jx_dec {m : M JxRes} (h : M.Good JxOK 1 m) {C : List (List Byte × Nat × Nat)}
    (h1 : ∀ s v n, m.run s = .ok (some (.pair v n)) → (s.take n, jxPair v) ∈ C)
    (h2 : ∀ p ∈ C, ∃ v, (jxPair v).2 ≠ 0 ∧ p.1 ≠ [] ∧ m.run p.1 = .ok (some (.pair v p.1.length)) ∧ jxPair v = p.2) :
    (∀ s wc n, (jxSingle m).run s = .ok (some (.char wc n)) → (jxBody m).run s = .ok (some (.char wc n 0))) ∧
    (∀ s wc n st, s ≠ [] → (jxBody m).run s = .ok (some (.char wc n st)) →
      (st = 0 ∧ (jxSingle m).run s = .ok (some (.char wc n))) ∨ (st ≠ 0 ∧ n ≤ s.length ∧ (s.take n, wc, st) ∈ C)) ∧
    (∀ b c1 c2, (b, c1, c2) ∈ C → c2 ≠ 0 ∧ b ≠ [] ∧ (jxBody m).run b = .ok (some (.char c1 b.length c2))) := by
  unfold jxSingle jxBody
  refine ⟨?_, ?_, ?_⟩
  · intro s wc n hr
    rw [M.run_andThen] at hr ⊢
    cases hm : m.run s with
    | ok o =>
      rw [hm] at hr
      cases o with
      | none => cases hr
      | some a =>
        cases a with
        | char wc n => cases hr; rfl
        | pair v n => cases hr
        | ilseq => cases hr
    | ub => rw [hm] at hr; cases hr
    | abort => rw [hm] at hr; cases hr
    | diverge => rw [hm] at hr; cases hr
  · intro s wc n st hs hr
    rw [M.run_andThen] at hr ⊢
    obtain ⟨o, hm, ho⟩ := M.good_run _ 1 s h (one_le_length hs)
    rw [hm] at hr ⊢
    cases o with
    | none => cases hr
    | some a =>
      obtain ⟨j, _, hj, ha⟩ := ho a rfl
      cases a with
      | char wc n => cases hr; exact .inl ⟨rfl, rfl⟩
      | pair v n =>
        have h3 := h1 s v n hm
        simp only [M.run, JxRes.toItem, Outcome.ok.injEq, Option.some.injEq, SItem.char.injEq] at hr
        obtain ⟨rfl, rfl, rfl⟩ := hr
        exact .inr ⟨(jxPair_lt v (by have := ha.1.2; omega)).2 (by have := ha.1.1; omega), Nat.le_trans ha.2.2 hj, h3⟩
      | ilseq => cases hr
  · intro b c1 c2 hm
    obtain ⟨v, h3, h4, h5, h6⟩ := h2 _ hm
    simp only at h4 h5 h6
    rw [h6] at h3
    refine ⟨h3, h4, ?_⟩
    rw [M.run_andThen, h5]
    simp only [M.run, JxRes.toItem, h6]

/-! ## Composition -/

/-- `lib/converters/euc_jisx0213.h:188-199`: the part of the composition table for a combining character. -/
def jxSel (wc : Nat) : Option (Nat × Nat) :=
  if wc = 0x02e5 then some (0, 1)
  else if wc = 0x02e9 then some (1, 1)
  else if wc = 0x0300 then some (2, 5)
  else if wc = 0x0301 then some (7, 4)
  else if wc = 0x309a then some (11, 14)
  else none

/-- `r[0] = (lasttwo >> 8) & 0xff; r[1] = lasttwo & 0xff;` -/
def jxLast (x : Nat) : List Nat := [x >>> 8 &&& 0xff, x &&& 0xff]

/-- `lib/converters/euc_jisx0213.h:188-219`: the search in the composition table `t`. -/
def jxCompose (t : List (Nat × Nat)) (last wc : Nat) : Option (List Nat) :=
  match jxSel wc with
  | none => none
  | some (idx, len) =>
    match ((t.drop idx).take len).find? fun e => e.1 = last with
    | none => none
    | some e => some (jxLast e.2)

/-- The combining characters. -/
def jxMarks : List Nat := [0x02e5, 0x02e9, 0x0300, 0x0301, 0x309a]

theorem jxCompose_some {t : List (Nat × Nat)} {last wc : Nat} {l : List Nat} (h : jxCompose t last wc = some l) :
    wc ∈ jxMarks ∧ ∃ e ∈ (t.drop ((jxSel wc).getD (0, 0)).1).take ((jxSel wc).getD (0, 0)).2, e.1 = last ∧ l = jxLast e.2 := by
  unfold jxCompose at h
  have hm : jxSel wc ≠ none → wc ∈ jxMarks := by
    unfold jxSel jxMarks
    intro h
    simp only [List.mem_cons, List.not_mem_nil, or_false]
    grind
  cases hs : jxSel wc with
  | none => rw [hs] at h; cases h
  | some q =>
    rw [hs] at h hm
    obtain ⟨idx, len⟩ := q
    simp only at h
    refine ⟨hm (by simp), ?_⟩
    cases hf : ((t.drop idx).take len).find? (fun e => e.1 = last) with
    | none => rw [hf] at h; cases h
    | some e =>
      rw [hf] at h
      cases h
      have h1 := List.find?_some hf
      exact ⟨e, List.mem_of_find?_eq_some hf, by simpa using h1, rfl⟩

/-- The composition table agrees with the decoder: the decoder gives a character for the first part, and the pair for
the composition. -/
def jxCompChk (t : List (Nat × Nat)) (m : M MbRet) (C : List (List Byte × Nat × Nat)) : Bool :=
  jxMarks.all fun c2 => ((t.drop ((jxSel c2).getD (0, 0)).1).take ((jxSel c2).getD (0, 0)).2).all fun e =>
    match m.run ((jxLast e.1).map u8) with
    | .ok (some (.char c1 _)) => decide (((jxLast e.2).map u8, c1, c2) ∈ C)
    | _ => false

theorem jx_enc3 {t : List (Nat × Nat)} {m : M MbRet} {w : Nat → W} {hold : Nat → Nat} {C : List (List Byte × Nat × Nat)} {T}
    (ht : TableOK m w T []) (h : jxCompChk t m C = true)
    (h2 : ∀ wc bs, hold wc ≠ 0 → (w wc).res = some bs → (jxLast (hold wc)).map u8 = bs)
    (h3 : ∀ p ∈ C, (jxCompose t (hold p.2.1) p.2.2).map (·.map u8) = some p.1) (c1 c2 : Nat) (b : List Byte)
    (hh : hold c1 ≠ 0) (hw : (w c1).res ≠ none) :
    (∃ l, jxCompose t (hold c1) c2 = some l ∧ l.map u8 = b) ↔ (b, c1, c2) ∈ C := by
  constructor
  · rintro ⟨l, hl, rfl⟩
    obtain ⟨hm, e, he, h4, rfl⟩ := jxCompose_some hl
    have := List.all_eq_true.1 (List.all_eq_true.1 h _ hm) e he
    cases hr : (w c1).res with
    | none => exact absurd hr hw
    | some bs =>
      have h5 := h2 c1 bs hh hr
      have h6 : (bs, c1) ∈ T := by
        have := (ht.enc_iff c1 bs).1 hr
        simpa using this
      have hne : bs ≠ [] := by rw [← h5]; simp [jxLast]
      have h7 := M.val_char ((ht.dec_iff bs c1 bs.length hne).2 ⟨Nat.le_refl _, by rw [List.take_length]; exact h6⟩)
      rw [h4, h5, h7] at this
      simpa using this
  · intro hm
    have := h3 _ hm
    simp only [Option.map_eq_some_iff] at this
    exact this

/-! ## EUC-JISX0213 -/

/-- `euc_jisx0213_mbtowc` with no pending character (`lib/converters/euc_jisx0213.h:60-128`). -/
def euc_jx : M JxRes :=
  .byte 0 fun c =>
    if c < 0x80 then .ret (.char c 1)
    else if (c ≥ 0xa1 ∧ c ≤ 0xfe) ∨ c = 0x8e ∨ c = 0x8f then
      .need 2 <| .byte 1 fun c2 =>
        if c2 ≥ 0xa1 ∧ c2 ≤ 0xfe then
          if c = 0x8e then
            if c2 ≤ 0xdf then .ret (.char (c2 + 0xfec0) 2) else .ret .ilseq
          else if c = 0x8f then
            .need 3 <| .byte 2 fun c3 => jxToM (0x200 - 0x80 + c2) (c3 ^^^ 0x80) fun v => .ret (jxRes v 3)
          else jxToM (0x100 - 0x80 + c) (c2 ^^^ 0x80) fun v => .ret (jxRes v 2)
        else .ret .ilseq
    else .ret .ilseq

/-- `euc_jisx0213_wctomb` after the treatment of a buffered character, of which `count` bytes have been stored
(`lib/converters/euc_jisx0213.h:231-299`). -/
def euc_jx_base (count wc : Nat) : BW :=
  if wc < 0x80 then .room (count + 1) <| .store [wc] <| .done 0
  else if wc ≥ 0xff61 ∧ wc ≤ 0xff9f then .room (count + 2) <| .store [0x8e, wc - 0xfec0] <| .done 0
  else jxFromB wc fun jch =>
    if jch ≠ 0 then
      if jch &&& 0x80 ≠ 0 then
        if jch &&& 0x8000 ≠ 0 then .abort else .done (jch ||| 0x8080)
      else if jch &&& 0x8000 ≠ 0 then
        .room (count + 3) <| .store [0x8f, (jch >>> 8) ||| 0x80, (jch &&& 0xff) ||| 0x80] <| .done 0
      else .room (count + 2) <| .store [(jch >>> 8) ||| 0x80, (jch &&& 0xff) ||| 0x80] <| .done 0
    else .iluni

/-- `lib/converters/euc_jisx0213.h:135-219`. -/
def euc_jx_comp (last wc : Nat) : Option (List Nat) := jxCompose eucJxComp last wc

/-- Single characters of `euc_jisx0213_mbtowc` (`lib/converters/euc_jisx0213.h:48-130`). -/
def euc_jx_mbtowc : M MbRet := jxSingle euc_jx

/-- `euc_jx_base` without the buffering of characters. -/
def euc_jx_wctomb (wc : Nat) : W :=
  if wc < 0x80 then .room 1 <| .put [wc]
  else if wc ≥ 0xff61 ∧ wc ≤ 0xff9f then .room 2 <| .put [0x8e, wc - 0xfec0]
  else jxFromW wc fun jch =>
    if jch ≠ 0 then
      if jch &&& 0x8000 ≠ 0 then
        .room 3 <| .put [0x8f, (jch >>> 8) ||| 0x80, (jch &&& 0xff) ||| 0x80]
      else .room 2 <| .put [(jch >>> 8) ||| 0x80, (jch &&& 0xff) ||| 0x80]
    else .iluni

/-- The state in which a character is held back. -/
noncomputable def euc_jx_hold (wc : Nat) : Nat :=
  if wc < 0x80 then 0
  else if wc ≥ 0xff61 ∧ wc ≤ 0xff9f then 0
  else if jx_fromF wc &&& 0x80 ≠ 0 then jx_fromF wc ||| 0x8080 else 0

theorem euc_jx_good : M.Good JxOK 1 euc_jx := by
  unfold euc_jx
  refine M.good_byte (by omega) fun c _ => M.good_ite (fun _ => M.good_ret ⟨by omega, by omega⟩) fun _ =>
    M.good_ite (fun _ => ?_) fun _ => M.good_ret (by show 1 ≤ _; omega)
  refine M.good_need (M.good_byte (by omega) fun c2 _ => M.good_ite (fun _ => ?_) fun _ => M.good_ret (by show 1 ≤ _; omega))
  refine M.good_ite (fun _ => M.good_ite (fun _ => M.good_ret ⟨by omega, by omega⟩) fun _ => M.good_ret (by show 1 ≤ _; omega)) fun _ => ?_
  refine M.good_ite (fun _ => ?_) fun _ => jxRes_good (by omega) (by omega) (by omega)
  exact M.good_need (M.good_byte (by omega) fun c3 _ => jxRes_good (by omega) (by omega) (by omega))

theorem euc_jx_single_good : M.Good M.RetOK 1 euc_jx_mbtowc := jxSingle_good euc_jx_good

/-- The encoder's state: no character, or a code. -/
def JxState (os : Nat) : Prop := os < 65536

theorem jx_put {c : Nat} (hc : c = 0 ∨ c = 2) (l : List Nat) (h : 1 ≤ l.length) (h2 : l.length ≤ 3) :
    BW.Good JxState (fun st => st ≠ 0) c c (.room (c + l.length) <| .store l <| .done 0) := by
  refine BW.good_room (BW.good_store ?_ (BW.good_done (by show 0 < 65536; omega) ?_ ?_ (.inl ?_))) <;> omega

theorem euc_jx_base_good (c wc : Nat) (hc : c = 0 ∨ c = 2) :
    BW.Good JxState (fun st => st ≠ 0) c c (euc_jx_base c wc) := by
  unfold euc_jx_base
  refine BW.good_ite (fun _ => jx_put hc [wc] (by simp) (by simp)) fun _ =>
    BW.good_ite (fun _ => jx_put hc [0x8e, wc - 0xfec0] (by simp) (by simp)) fun _ => ?_
  rw [jxFromB_eq]
  rcases jx_from_ok wc with h | h
  · rw [h, if_neg (by omega)]
    exact BW.good_iluni (by omega)
  · refine BW.good_ite (fun _ => ?_) fun _ => BW.good_iluni (by omega)
    refine BW.good_ite (fun h8 => ?_) fun _ => ?_
    · rw [if_neg (not_not_intro (h.plane.resolve_left h8))]
      exact BW.good_done h.small rfl (by omega) (.inr h.pos)
    · exact BW.good_ite (fun _ => jx_put hc _ (by simp) (by simp)) fun _ => jx_put hc _ (by simp) (by simp)

theorem jxCompose_len {t : List (Nat × Nat)} {last wc : Nat} {l : List Nat} (h : jxCompose t last wc = some l) :
    l.length = 2 := by
  obtain ⟨_, e, _, _, rfl⟩ := jxCompose_some h
  rfl

theorem euc_jx_pairGood : PairGood JxState euc_jx_comp jxLast euc_jx_base where
  init := by show 0 < 65536; omega
  comp := fun os wc bs _ h => jxCompose_len h
  last := fun _ => rfl
  base := euc_jx_base_good

theorem euc_jx_wgood (wc : Nat) : W.Good 0 (euc_jx_wctomb wc) := by
  unfold euc_jx_wctomb
  rw [jxFromW_fast, forceN_eq]
  wgood

/-- Where the pairs are in the code space. -/
noncomputable def chkPair (f : Nat → Nat → Nat) (pos : List Nat) (a k : Nat) : Bool :=
  allF (fun c => allF (fun c2 => forceN (f c c2) fun v =>
    Bool.rec true (Bool.rec (Nat.beq (nthF pos v) (Nat.add (Nat.mul 256 c) c2)) true (Nat.beq v 0)) (Nat.ble v 0x7f)) 0 256) a k

theorem chkPair_sound {f : Nat → Nat → Nat} {pos : List Nat} {a k c c2 : Nat} (h : chkPair f pos a k = true) (h1 : a ≤ c) (h2 : c < a + k)
    (h3 : c2 < 256) (h4 : f c c2 ≠ 0) (h5 : f c c2 < 0x80) : nthF pos (f c c2) = 256 * c + c2 := by
  unfold chkPair at h
  rw [allF_iff] at h
  have h := h c h1 h2
  rw [allF_iff] at h
  have h := h c2 (Nat.zero_le _) (by omega)
  rw [forceN_eq, bool_rec_ble, bool_rec_beq, if_pos (by omega), if_neg h4, Nat.beq_eq] at h
  exact h

/-- The codes of the pairs, by number. -/
def jxPos (C : List (List Byte × Nat × Nat)) : List Nat :=
  0 :: jxComb.map fun p =>
    match C.find? fun e => e.2 = p with
    | some (a :: b :: _, _) => 256 * a.toNat + b.toNat
    | _ => 0

theorem jxPair_dec {C : List (List Byte × Nat × Nat)} {f : Nat → Nat → Nat} {a k : Nat}
    (h0 : ∀ v, v < 26 → v ≠ 0 → ([u8 (nthF (jxPos C) v / 256), u8 (nthF (jxPos C) v % 256)], jxPair v) ∈ C)
    (h : chkPair f (jxPos C) a k = true) {b b2 : Byte} (h1 : a ≤ b.toNat) (h2 : b.toNat < a + k)
    (h4 : f b.toNat b2.toNat ≠ 0) (h5 : f b.toNat b2.toNat < 26) : ([b, b2], jxPair (f b.toNat b2.toNat)) ∈ C := by
  have h3 := UInt8.toNat_lt b2
  have e := chkPair_sound h h1 h2 h3 h4 (by omega)
  have := h0 _ h5 h4
  rw [e] at this
  have e1 : (256 * b.toNat + b2.toNat) / 256 = b.toNat := by omega
  have e2 : (256 * b.toNat + b2.toNat) % 256 = b2.toNat := by omega
  rw [e1, e2, u8_of_toNat, u8_of_toNat] at this
  exact this

theorem jxRes_pair {v n v' n' : Nat} (h : jxRes v n = .pair v' n') : v' = v ∧ n' = n ∧ v ≠ 0 ∧ v < 0x80 := by
  unfold jxRes at h
  split at h
  · cases h
  · split at h
    · cases h
      exact ⟨rfl, rfl, by assumption, by assumption⟩
    · cases h

theorem euc_jx_pos (v : Nat) (h : v < 26) (h0 : v ≠ 0) :
    ([u8 (nthF (jxPos eucJxPairs) v / 256), u8 (nthF (jxPos eucJxPairs) v % 256)], jxPair v) ∈ eucJxPairs := by
  have : ∀ v ∈ List.range 26, v = 0 ∨
    ([u8 (nthF (jxPos eucJxPairs) v / 256), u8 (nthF (jxPos eucJxPairs) v % 256)], jxPair v) ∈ eucJxPairs := by decide +kernel
  exact (this v (List.mem_range.2 h)).resolve_left h0

theorem euc_jx_plane1 : chkPair (fun c c2 => jx_toF (Nat.add 0x80 c) (Nat.xor c2 0x80)) (jxPos eucJxPairs) 0xa1 94 = true := by
  decide +kernel

/-- There is no pair in plane 2. -/
theorem euc_jx_plane2 : chkPair (fun c c2 => jx_toF (Nat.add 0x180 c) (Nat.xor c2 0x80)) [] 0xa1 94 = true := by
  decide +kernel

theorem jx_lt {row col : Nat} (h : jx_toF row col < 0x80) : jx_toF row col < 26 := by
  have := jx_to_range row col
  omega

theorem euc_jx_pairs (s : List Byte) (v n : Nat) (h : euc_jx.run s = .ok (some (.pair v n))) :
    (s.take n, jxPair v) ∈ eucJxPairs := by
  unfold euc_jx at h
  rcases s with _ | ⟨b, s⟩
  · cases h
  rw [M.run_byte0] at h
  have hb := UInt8.toNat_lt b
  by_cases h1 : b.toNat < 0x80
  · rw [if_pos h1] at h; cases h
  rw [if_neg h1] at h
  by_cases h2 : (b.toNat ≥ 0xa1 ∧ b.toNat ≤ 0xfe) ∨ b.toNat = 0x8e ∨ b.toNat = 0x8f
  · rw [if_pos h2] at h
    rcases s with _ | ⟨b2, s⟩
    · cases h
    rw [M.run_need (by simp), M.run_byte1] at h
    by_cases h3 : b2.toNat ≥ 0xa1 ∧ b2.toNat ≤ 0xfe
    · rw [if_pos h3] at h
      by_cases h4 : b.toNat = 0x8e
      · rw [if_pos h4] at h
        split at h <;> cases h
      rw [if_neg h4] at h
      by_cases h5 : b.toNat = 0x8f
      · rw [if_pos h5] at h
        rcases s with _ | ⟨b3, s⟩
        · cases h
        rw [M.run_need (by simp), M.run_byte2, jxToM_fast, forceN_eq] at h
        simp only [M.run, Outcome.ok.injEq, Option.some.injEq] at h
        obtain ⟨_, _, h6, h7⟩ := jxRes_pair h
        have := chkPair_sound euc_jx_plane2 (c := b2.toNat) (c2 := b3.toNat) (by omega) (by omega) (UInt8.toNat_lt b3) h6 h7
        have e : ∀ v, nthF [] v = 0 := fun v => rfl
        rw [e] at this
        omega
      · rw [if_neg h5, jxToM_fast, forceN_eq] at h
        simp only [M.run, Outcome.ok.injEq, Option.some.injEq] at h
        obtain ⟨rfl, rfl, h6, h7⟩ := jxRes_pair h
        exact jxPair_dec euc_jx_pos euc_jx_plane1 (by omega) (by omega) h6 (jx_lt h7)
    · rw [if_neg h3] at h; cases h
  · rw [if_neg h2] at h; cases h

/-- The pairs decode to their number. -/
noncomputable def jxPairsChk (m : M JxRes) (C : List (List Byte × Nat × Nat)) : Bool :=
  C.all fun p =>
    match m.run p.1 with
    | .ok (some (.pair v n)) => decide (n = p.1.length ∧ (jxPair v).2 ≠ 0 ∧ p.1 ≠ [] ∧ jxPair v = p.2)
    | _ => false

theorem jxPairsChk_sound {m : M JxRes} {C : List (List Byte × Nat × Nat)} (h : jxPairsChk m C = true) : ∀ p ∈ C,
    ∃ v, (jxPair v).2 ≠ 0 ∧ p.1 ≠ [] ∧ m.run p.1 = .ok (some (.pair v p.1.length)) ∧ jxPair v = p.2 := by
  intro p hp
  have := List.all_eq_true.1 h p hp
  split at this
  · next v n hr =>
    rw [decide_eq_true_iff] at this
    exact ⟨v, this.2.1, this.2.2.1, by rw [hr, this.1], this.2.2.2⟩
  · cases this

theorem euc_jx_dec3 : jxPairsChk euc_jx eucJxPairs = true := by decide +kernel

theorem euc_jx_enc1 (c wc : Nat) (acc : List Byte) : (euc_jx_base c wc).res acc =
    match (euc_jx_wctomb wc).res with
    | none => none
    | some bs => if euc_jx_hold wc = 0 then some (acc ++ bs, 0) else some (acc, euc_jx_hold wc) := by
  unfold euc_jx_base euc_jx_wctomb euc_jx_hold
  by_cases h1 : wc < 0x80
  · rw [if_pos h1, if_pos h1, if_pos h1]; rfl
  rw [if_neg h1, if_neg h1, if_neg h1]
  by_cases h2 : wc ≥ 0xff61 ∧ wc ≤ 0xff9f
  · rw [if_pos h2, if_pos h2, if_pos h2]; rfl
  rw [if_neg h2, if_neg h2, if_neg h2, jxFromB_eq, jxFromW_fast, forceN_eq]
  have hj := jx_from_ok wc
  generalize jx_fromF wc = d at *
  by_cases h3 : d ≠ 0
  · have hj := hj.resolve_left h3
    rw [if_pos h3, if_pos h3]
    by_cases h4 : d &&& 0x80 ≠ 0
    · have h5 := hj.plane.resolve_left h4
      rw [if_pos h4, if_pos h4, if_neg (not_not_intro h5), if_neg (not_not_intro h5)]
      simp only [W.res, BW.res]
      rw [if_neg hj.pos]
    · rw [if_neg h4, if_neg h4]
      by_cases h5 : d &&& 0x8000 ≠ 0
      · rw [if_pos h5, if_pos h5]; rfl
      · rw [if_neg h5, if_neg h5]; rfl
  · rw [if_neg h3, if_neg h3]; rfl

theorem euc_jx_enc2 (wc : Nat) (bs : List Byte) (hh : euc_jx_hold wc ≠ 0) (hw : (euc_jx_wctomb wc).res = some bs) :
    (jxLast (euc_jx_hold wc)).map u8 = bs := by
  unfold euc_jx_hold at hh ⊢
  unfold euc_jx_wctomb at hw
  by_cases h1 : wc < 0x80
  · rw [if_pos h1] at hh; exact absurd rfl hh
  rw [if_neg h1] at hh hw ⊢
  by_cases h2 : wc ≥ 0xff61 ∧ wc ≤ 0xff9f
  · rw [if_pos h2] at hh; exact absurd rfl hh
  rw [if_neg h2] at hh hw ⊢
  rw [jxFromW_fast, forceN_eq] at hw
  have hj := jx_from_ok wc
  generalize jx_fromF wc = d at *
  by_cases h4 : d &&& 0x80 ≠ 0
  · have h3 : d ≠ 0 := by rintro rfl; exact h4 rfl
    have hj := hj.resolve_left h3
    rw [if_pos h4]
    rw [if_pos h3, if_neg (not_not_intro (hj.plane.resolve_left h4))] at hw
    simp only [W.res, Option.some.injEq] at hw
    rw [← hw]
    unfold jxLast
    rw [hj.hi, hj.lo]
  · rw [if_neg h4] at hh; exact absurd rfl hh

theorem euc_jx_compChk : jxCompChk eucJxComp euc_jx_mbtowc eucJxPairs = true := by decide +kernel

theorem euc_jx_enc4 : ∀ p ∈ eucJxPairs, euc_jx_hold p.2.1 ≠ 0 ∧ (euc_jx_wctomb p.2.1).res ≠ none ∧
    (jxCompose eucJxComp (euc_jx_hold p.2.1) p.2.2).map (·.map u8) = some p.1 := by decide +kernel

theorem euc_jx_enc5 : ∀ c, isTag c = true → euc_jx_hold c = 0 := by
  have h : allF (fun c => Nat.beq (euc_jx_hold c) 0) 0xe0000 128 = true := by decide +kernel
  intro c hc
  simp only [isTag, decide_eq_true_eq] at hc
  exact Nat.eq_of_beq_eq_true ((allF_iff _ _ _).1 h c (by omega) (by omega))

theorem euc_jx_rel {T} (ht : TableOK euc_jx_mbtowc euc_jx_wctomb T []) :
    PairRel (jxBody euc_jx) euc_jx_comp jxLast euc_jx_base euc_jx_mbtowc euc_jx_wctomb euc_jx_hold eucJxPairs :=
  have hd := jx_dec euc_jx_good euc_jx_pairs (jxPairsChk_sound euc_jx_dec3)
  { dec1 := hd.1
    dec2 := hd.2.1
    dec3 := hd.2.2
    enc1 := fun c wc acc _ => euc_jx_enc1 c wc acc
    enc2 := euc_jx_enc2
    enc3 := jx_enc3 ht euc_jx_compChk euc_jx_enc2 fun p hp => (euc_jx_enc4 p hp).2.2
    enc4 := fun c1 c2 b hm => ⟨(euc_jx_enc4 _ hm).1, (euc_jx_enc4 _ hm).2.1⟩
    enc5 := euc_jx_enc5 }

/-- EUC-JISX0213 (`lib/converters/euc_jisx0213.h`). -/
def euc_jisx0213_entry : Entry :=
  pairEntry ei_euc_jisx0213 (by decide) (jxBody_good euc_jx_good) euc_jx_pairGood

/-! ## SHIFT_JISX0213 -/

/-- `lib/converters/shift_jisx0213.h:91-113`: the row minus 0x121 for the two bytes. -/
def sjxIn1 (c c2 : Nat) : Nat :=
  let c := if c < 0xe0 then c - 0x81 else c - 0xc1
  let c2 := if c2 < 0x80 then c2 - 0x40 else c2 - 0x41
  let c1 := if c2 ≥ 0x5e then 2 * c + 1 else 2 * c
  if c1 ≥ 0x5e then
    if c1 ≥ 0x67 then c1 + 230
    else if c1 ≥ 0x63 ∨ c1 = 0x5f then c1 + 168
    else c1 + 162
  else c1

/-- The column. -/
def sjxIn2 (c2 : Nat) : Nat :=
  let c2 := if c2 < 0x80 then c2 - 0x40 else c2 - 0x41
  let c2 := if c2 ≥ 0x5e then c2 - 0x5e else c2
  c2 + 0x21

noncomputable def sjxIn1F (c c2 : Nat) : Nat :=
  forceN (Bool.rec (Nat.sub c 0xc1) (Nat.sub c 0x81) (Nat.ble (Nat.succ c) 0xe0)) fun c =>
  forceN (Bool.rec (Nat.sub c2 0x41) (Nat.sub c2 0x40) (Nat.ble (Nat.succ c2) 0x80)) fun c2 =>
  forceN (Bool.rec (Nat.mul 2 c) (Nat.add (Nat.mul 2 c) 1) (Nat.ble 0x5e c2)) fun c1 =>
    Bool.rec c1 (Bool.rec (Bool.rec (Bool.rec (Nat.add c1 162) (Nat.add c1 168) (Nat.beq c1 0x5f))
      (Nat.add c1 168) (Nat.ble 0x63 c1)) (Nat.add c1 230) (Nat.ble 0x67 c1)) (Nat.ble 0x5e c1)

noncomputable def sjxIn2F (c2 : Nat) : Nat :=
  forceN (Bool.rec (Nat.sub c2 0x41) (Nat.sub c2 0x40) (Nat.ble (Nat.succ c2) 0x80)) fun c2 =>
  forceN (Bool.rec c2 (Nat.sub c2 0x5e) (Nat.ble 0x5e c2)) fun c2 => Nat.add c2 0x21

theorem sjxIn1_fast (c c2 : Nat) : sjxIn1 c c2 = sjxIn1F c c2 := by
  unfold sjxIn1 sjxIn1F
  simp only [forceN_eq, bool_rec_ble, bool_rec_beq, ite_or_fast, ge_iff_le]
  rfl

theorem sjxIn2_fast (c2 : Nat) : sjxIn2 c2 = sjxIn2F c2 := by
  unfold sjxIn2 sjxIn2F
  simp only [forceN_eq, bool_rec_ble, ge_iff_le]
  rfl

/-- `shift_jisx0213_mbtowc` with no pending character (`lib/converters/shift_jisx0213.h:61-137`). -/
def sjx : M JxRes :=
  .byte 0 fun c =>
    if c < 0x80 then
      if c = 0x5c then .ret (.char 0xa5 1)
      else if c = 0x7e then .ret (.char 0x203e 1)
      else .ret (.char c 1)
    else if c ≥ 0xa1 ∧ c ≤ 0xdf then .ret (.char (c + 0xfec0) 1)
    else if (c ≥ 0x81 ∧ c ≤ 0x9f) ∨ (c ≥ 0xe0 ∧ c ≤ 0xfc) then
      .need 2 <| .byte 1 fun c2 =>
        if (c2 ≥ 0x40 ∧ c2 ≤ 0x7e) ∨ (c2 ≥ 0x80 ∧ c2 ≤ 0xfc) then
          jxToM (0x121 + sjxIn1 c c2) (sjxIn2 c2) fun v => .ret (jxRes v 2)
        else .ret .ilseq
    else .ret .ilseq

/-- `shift_jisx0213_wctomb` after the treatment of a buffered character, of which `count` bytes have been stored
(`lib/converters/shift_jisx0213.h:240-340`). -/
def sjx_base (count wc : Nat) : BW :=
  if wc < 0x80 ∧ wc ≠ 0x5c ∧ wc ≠ 0x7e then .room (count + 1) <| .store [wc] <| .done 0
  else if wc = 0xa5 then .room (count + 1) <| .store [0x5c] <| .done 0
  else if wc = 0x203e then .room (count + 1) <| .store [0x7e] <| .done 0
  else if wc ≥ 0xff61 ∧ wc ≤ 0xff9f then .room (count + 1) <| .store [wc - 0xfec0] <| .done 0
  else jxFromB wc fun jch =>
    if jch ≠ 0 then
      if jch &&& 0x80 ≠ 0 then
        if jch &&& 0x8000 ≠ 0 then .abort else .done ((sjx_s1 jch <<< 8) ||| sjx_s2 jch)
      else .room (count + 2) <| .store [sjx_s1 jch, sjx_s2 jch] <| .done 0
    else .iluni

/-- `lib/converters/shift_jisx0213.h:144-228`. -/
def sjx_comp (last wc : Nat) : Option (List Nat) := jxCompose sjxComp last wc

/-- Single characters of `shift_jisx0213_mbtowc` (`lib/converters/shift_jisx0213.h:49-139`). -/
def sjx_mbtowc : M MbRet := jxSingle sjx

/-- `sjx_base` without the buffering of characters. -/
def sjx_wctomb (wc : Nat) : W :=
  if wc < 0x80 ∧ wc ≠ 0x5c ∧ wc ≠ 0x7e then .room 1 <| .put [wc]
  else if wc = 0xa5 then .room 1 <| .put [0x5c]
  else if wc = 0x203e then .room 1 <| .put [0x7e]
  else if wc ≥ 0xff61 ∧ wc ≤ 0xff9f then .room 1 <| .put [wc - 0xfec0]
  else jxFromW wc fun jch =>
    if jch ≠ 0 then .room 2 <| .put [sjx_s1 jch, sjx_s2 jch]
    else .iluni

/-- The state in which a character is held back. -/
noncomputable def sjx_hold (wc : Nat) : Nat :=
  if wc < 0x80 ∧ wc ≠ 0x5c ∧ wc ≠ 0x7e then 0
  else if wc = 0xa5 then 0
  else if wc = 0x203e then 0
  else if wc ≥ 0xff61 ∧ wc ≤ 0xff9f then 0
  else if jx_fromF wc &&& 0x80 ≠ 0 then (sjx_s1 (jx_fromF wc) <<< 8) ||| sjx_s2 (jx_fromF wc) else 0

theorem sjx_good : M.Good JxOK 1 sjx := by
  unfold sjx
  have hi : ∀ {k}, 1 ≤ k → M.Good JxOK k (.ret .ilseq) := fun h => M.good_ret h
  have ho : ∀ wc, M.Good JxOK 1 (.ret (.char wc 1)) := fun wc => M.good_ret ⟨by omega, by omega⟩
  refine M.good_byte (by omega) fun c _ => M.good_ite (fun _ => M.good_ite (fun _ => ho _) fun _ => M.good_ite (fun _ => ho _) fun _ => ho _) fun _ =>
    M.good_ite (fun _ => ho _) fun _ => M.good_ite (fun _ => ?_) fun _ => hi (by omega)
  refine M.good_need (M.good_byte (by omega) fun c2 _ => M.good_ite (fun _ => ?_) fun _ => hi (by omega))
  exact jxRes_good (by omega) (by omega) (by omega)

theorem sjx_single_good : M.Good M.RetOK 1 sjx_mbtowc := jxSingle_good sjx_good

theorem sjx_word {d : Nat} (h : JchOK d) : (sjx_s1 d <<< 8) ||| sjx_s2 d = 256 * sjx_s1 d + sjx_s2 d := by
  have h2 := h.s2
  rw [← Nat.shiftLeft_add_eq_or_of_lt (show sjx_s2 d < 2 ^ 8 by omega), Nat.shiftLeft_eq]
  omega

theorem sjx_base_good (c wc : Nat) (hc : c = 0 ∨ c = 2) :
    BW.Good JxState (fun st => st ≠ 0) c c (sjx_base c wc) := by
  unfold sjx_base
  refine BW.good_ite (fun _ => jx_put hc [wc] (by simp) (by simp)) fun _ =>
    BW.good_ite (fun _ => jx_put hc [0x5c] (by simp) (by simp)) fun _ =>
    BW.good_ite (fun _ => jx_put hc [0x7e] (by simp) (by simp)) fun _ =>
    BW.good_ite (fun _ => jx_put hc [wc - 0xfec0] (by simp) (by simp)) fun _ => ?_
  rw [jxFromB_eq]
  rcases jx_from_ok wc with h | h
  · rw [h, if_neg (by omega)]
    exact BW.good_iluni (by omega)
  · refine BW.good_ite (fun _ => ?_) fun _ => BW.good_iluni (by omega)
    refine BW.good_ite (fun h8 => ?_) fun _ => jx_put hc _ (by simp) (by simp)
    rw [if_neg (not_not_intro (h.plane.resolve_left h8)), sjx_word h]
    have h1 := h.s1
    have h2 := h.s2
    have h3 := h.s1pos
    exact BW.good_done (by show _ < 65536; omega) rfl (by omega) (.inr (by show _ ≠ 0; omega))

theorem sjx_pairGood : PairGood JxState sjx_comp jxLast sjx_base where
  init := by show 0 < 65536; omega
  comp := fun os wc bs _ h => jxCompose_len h
  last := fun _ => rfl
  base := sjx_base_good

theorem sjx_wgood (wc : Nat) : W.Good 0 (sjx_wctomb wc) := by
  unfold sjx_wctomb
  rw [jxFromW_fast, forceN_eq]
  wgood

theorem sjx_pos (v : Nat) (h : v < 26) (h0 : v ≠ 0) :
    ([u8 (nthF (jxPos sjxPairs) v / 256), u8 (nthF (jxPos sjxPairs) v % 256)], jxPair v) ∈ sjxPairs := by
  have : ∀ v ∈ List.range 26, v = 0 ∨
    ([u8 (nthF (jxPos sjxPairs) v / 256), u8 (nthF (jxPos sjxPairs) v % 256)], jxPair v) ∈ sjxPairs := by decide +kernel
  exact (this v (List.mem_range.2 h)).resolve_left h0

noncomputable def sjxVal (c c2 : Nat) : Nat :=
  Bool.rec 0 (Bool.rec 0 (Bool.rec (forceN (sjxIn1F c c2) fun r => forceN (sjxIn2F c2) fun k => jx_toF (Nat.add 0x121 r) k) 0
    (Nat.beq c2 0x7f)) (Nat.ble c2 0xfc)) (Nat.ble 0x40 c2)

theorem sjx_pairs1 : chkPair sjxVal (jxPos sjxPairs) 0x81 31 = true := by decide +kernel
theorem sjx_pairs2 : chkPair sjxVal (jxPos sjxPairs) 0xe0 29 = true := by decide +kernel

theorem sjx_pairs (s : List Byte) (v n : Nat) (h : sjx.run s = .ok (some (.pair v n))) :
    (s.take n, jxPair v) ∈ sjxPairs := by
  unfold sjx at h
  rcases s with _ | ⟨b, s⟩
  · cases h
  rw [M.run_byte0] at h
  have hb := UInt8.toNat_lt b
  by_cases h1 : b.toNat < 0x80
  · rw [if_pos h1] at h
    split at h
    · cases h
    · split at h <;> cases h
  rw [if_neg h1] at h
  by_cases h2 : b.toNat ≥ 0xa1 ∧ b.toNat ≤ 0xdf
  · rw [if_pos h2] at h; cases h
  rw [if_neg h2] at h
  by_cases h3 : (b.toNat ≥ 0x81 ∧ b.toNat ≤ 0x9f) ∨ (b.toNat ≥ 0xe0 ∧ b.toNat ≤ 0xfc)
  · rw [if_pos h3] at h
    rcases s with _ | ⟨b2, s⟩
    · cases h
    rw [M.run_need (by simp), M.run_byte1] at h
    by_cases h4 : (b2.toNat ≥ 0x40 ∧ b2.toNat ≤ 0x7e) ∨ (b2.toNat ≥ 0x80 ∧ b2.toNat ≤ 0xfc)
    · rw [if_pos h4, jxToM_fast, forceN_eq] at h
      have e : jx_toF (0x121 + sjxIn1 b.toNat b2.toNat) (sjxIn2 b2.toNat) = sjxVal b.toNat b2.toNat := by
        unfold sjxVal
        rw [bool_rec_ble, bool_rec_ble, bool_rec_beq, if_pos (by omega), if_pos (by omega), if_neg (by omega), forceN_eq, forceN_eq,
          sjxIn1_fast, sjxIn2_fast]
        rfl
      simp only [M.run, Outcome.ok.injEq, Option.some.injEq] at h
      obtain ⟨rfl, rfl, h6, h7⟩ := jxRes_pair h
      have h8 := jx_lt h7
      rw [e] at h6 h7 h8 ⊢
      rcases h3 with h3 | h3
      · exact jxPair_dec sjx_pos sjx_pairs1 (by omega) (by omega) h6 h8
      · exact jxPair_dec sjx_pos sjx_pairs2 (by omega) (by omega) h6 h8
    · rw [if_neg h4] at h; cases h
  · rw [if_neg h3] at h; cases h

theorem sjx_dec3 : jxPairsChk sjx sjxPairs = true := by decide +kernel

theorem sjx_enc1 (c wc : Nat) (acc : List Byte) : (sjx_base c wc).res acc =
    match (sjx_wctomb wc).res with
    | none => none
    | some bs => if sjx_hold wc = 0 then some (acc ++ bs, 0) else some (acc, sjx_hold wc) := by
  unfold sjx_base sjx_wctomb sjx_hold
  by_cases h1 : wc < 0x80 ∧ wc ≠ 0x5c ∧ wc ≠ 0x7e
  · rw [if_pos h1, if_pos h1, if_pos h1]; rfl
  rw [if_neg h1, if_neg h1, if_neg h1]
  by_cases h2 : wc = 0xa5
  · rw [if_pos h2, if_pos h2, if_pos h2]; rfl
  rw [if_neg h2, if_neg h2, if_neg h2]
  by_cases h2 : wc = 0x203e
  · rw [if_pos h2, if_pos h2, if_pos h2]; rfl
  rw [if_neg h2, if_neg h2, if_neg h2]
  by_cases h2 : wc ≥ 0xff61 ∧ wc ≤ 0xff9f
  · rw [if_pos h2, if_pos h2, if_pos h2]; rfl
  rw [if_neg h2, if_neg h2, if_neg h2, jxFromB_eq, jxFromW_fast, forceN_eq]
  have hj := jx_from_ok wc
  generalize jx_fromF wc = d at *
  by_cases h3 : d ≠ 0
  · have hj := hj.resolve_left h3
    rw [if_pos h3, if_pos h3]
    by_cases h4 : d &&& 0x80 ≠ 0
    · have h5 := hj.plane.resolve_left h4
      have hp : (sjx_s1 d <<< 8) ||| sjx_s2 d ≠ 0 := by
        rw [sjx_word hj]
        have := hj.s1pos
        omega
      rw [if_pos h4, if_pos h4, if_neg (not_not_intro h5)]
      simp only [W.res, BW.res]
      rw [if_neg hp]
    · rw [if_neg h4, if_neg h4]; rfl
  · rw [if_neg h3, if_neg h3]; rfl

theorem sjx_enc2 (wc : Nat) (bs : List Byte) (hh : sjx_hold wc ≠ 0) (hw : (sjx_wctomb wc).res = some bs) :
    (jxLast (sjx_hold wc)).map u8 = bs := by
  unfold sjx_hold at hh ⊢
  unfold sjx_wctomb at hw
  by_cases h1 : wc < 0x80 ∧ wc ≠ 0x5c ∧ wc ≠ 0x7e
  · rw [if_pos h1] at hh; exact absurd rfl hh
  rw [if_neg h1] at hh hw ⊢
  by_cases h2 : wc = 0xa5
  · rw [if_pos h2] at hh; exact absurd rfl hh
  rw [if_neg h2] at hh hw ⊢
  by_cases h2 : wc = 0x203e
  · rw [if_pos h2] at hh; exact absurd rfl hh
  rw [if_neg h2] at hh hw ⊢
  by_cases h2 : wc ≥ 0xff61 ∧ wc ≤ 0xff9f
  · rw [if_pos h2] at hh; exact absurd rfl hh
  rw [if_neg h2] at hh hw ⊢
  rw [jxFromW_fast, forceN_eq] at hw
  have hj := jx_from_ok wc
  generalize jx_fromF wc = d at *
  by_cases h4 : d &&& 0x80 ≠ 0
  · have h3 : d ≠ 0 := by rintro rfl; exact h4 rfl
    have hj := hj.resolve_left h3
    rw [if_pos h4, sjx_word hj]
    rw [if_pos h3] at hw
    simp only [W.res, Option.some.injEq] at hw
    rw [← hw]
    have h1 := hj.s1
    have h2 := hj.s2
    have e1 : (256 * sjx_s1 d + sjx_s2 d) >>> 8 &&& 0xff = sjx_s1 d := by
      rw [Nat.and_two_pow_sub_one_eq_mod _ 8, Nat.shiftRight_eq_div_pow]
      omega
    have e2 : (256 * sjx_s1 d + sjx_s2 d) &&& 0xff = sjx_s2 d := by
      rw [Nat.and_two_pow_sub_one_eq_mod _ 8]
      omega
    unfold jxLast
    rw [e1, e2]
  · rw [if_neg h4] at hh; exact absurd rfl hh

theorem sjx_compChk : jxCompChk sjxComp sjx_mbtowc sjxPairs = true := by decide +kernel

theorem sjx_enc4 : ∀ p ∈ sjxPairs, sjx_hold p.2.1 ≠ 0 ∧ (sjx_wctomb p.2.1).res ≠ none ∧
    (jxCompose sjxComp (sjx_hold p.2.1) p.2.2).map (·.map u8) = some p.1 := by decide +kernel

theorem sjx_enc5 : ∀ c, isTag c = true → sjx_hold c = 0 := by
  have h : allF (fun c => Nat.beq (sjx_hold c) 0) 0xe0000 128 = true := by decide +kernel
  intro c hc
  simp only [isTag, decide_eq_true_eq] at hc
  exact Nat.eq_of_beq_eq_true ((allF_iff _ _ _).1 h c (by omega) (by omega))

theorem sjx_rel {T} (ht : TableOK sjx_mbtowc sjx_wctomb T []) :
    PairRel (jxBody sjx) sjx_comp jxLast sjx_base sjx_mbtowc sjx_wctomb sjx_hold sjxPairs :=
  have hd := jx_dec sjx_good sjx_pairs (jxPairsChk_sound sjx_dec3)
  { dec1 := hd.1
    dec2 := hd.2.1
    dec3 := hd.2.2
    enc1 := fun c wc acc _ => sjx_enc1 c wc acc
    enc2 := sjx_enc2
    enc3 := jx_enc3 ht sjx_compChk sjx_enc2 fun p hp => (sjx_enc4 p hp).2.2
    enc4 := fun c1 c2 b hm => ⟨(sjx_enc4 _ hm).1, (sjx_enc4 _ hm).2.1⟩
    enc5 := sjx_enc5 }

/-- SHIFT_JISX0213 (`lib/converters/shift_jisx0213.h`). -/
def shift_jisx0213_entry : Entry :=
  pairEntry ei_shift_jisx0213 (by decide) (jxBody_good sjx_good) sjx_pairGood

end Reiconv
