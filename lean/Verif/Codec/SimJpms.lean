import Verif.Codec.Jpms

/-!
# CP50221 texts come back, except for some characters
-/

namespace Reiconv

/-- The private characters that CP50221 writes as two bytes which it reads as another character: the rows
0x79 to 0x7c stand both for private characters (writing) and for characters of CP932 (reading). And U+301D,
which is written like U+301E. -/
def jpmsLost : List Nat := 0x301d :: (List.range' 0xe178 360 ++ List.range' 0xe2e2 14)

/-- The characters that come back: no escape or shift character, and none of the lost ones. -/
def NotJpms (wc : Nat) : Prop := NotShift wc ∧ wc ∉ jpmsLost

theorem mem_jpmsLost {wc : Nat} : wc ∈ jpmsLost ↔ wc = 0x301d ∨ (0xe178 ≤ wc ∧ wc < 0xe2e0) ∨ (0xe2e2 ≤ wc ∧ wc < 0xe2f0) := by
  unfold jpmsLost
  simp only [List.mem_cons, List.mem_append, List.mem_range'_1]

theorem fin_all {n : Nat} {p : Nat → Bool} (h : (List.range n).all p = true) : ∀ i < n, p i = true :=
  fun i hi => List.all_eq_true.1 h i (List.mem_range.2 hi)

theorem M.run_on_ret {m : M MbRet} {a b : Byte} {wc : Nat} (h : m.run [a, b] = .ok (some (.char wc 2))) (s : List Byte) :
    (m.on [a.toNat, b.toNat] fun ret => M.ret ret).run s = .ok (some (.char wc 2)) := by
  unfold M.on
  simp only [List.map_cons, List.map_nil, u8_of_toNat, h]
  rfl

theorem put2 {x y : Nat} {a b : Byte} (h : (W.put [x, y]).run 0 2 = .ok (.put [a, b] 0)) : a.toNat = x % 256 ∧ b.toNat = y % 256 := by
  have h : Outcome.ok (WcRes.put [u8 x, u8 y] 0) = Outcome.ok (WcRes.put [a, b] 0) := h
  simp only [WcRes.put, Outcome.ok.injEq, WcRes.mk.injEq, List.cons.injEq, and_true] at h
  rw [← h.2.1, ← h.2.2, u8_toNat, u8_toNat]
  exact ⟨rfl, rfl⟩

theorem jisx0208_rows {a b : Byte} {wc n : Nat} (h : jisx0208_dec.mbtowc.run [a, b] = .ok (some (.char wc n))) :
    0x21 ≤ a.toNat ∧ a.toNat < 0x75 ∧ a.toNat ≠ 0x2d := by
  have h1 : 0x21 ≤ a.toNat ∧ a.toNat < 0x75 := CsDec.row (by decide +kernel) h
  refine ⟨h1.1, h1.2, fun e => ?_⟩
  have e' : a = u8 0x2d := by rw [← u8_of_toNat a, e]
  subst e'
  have h2 : jisx0208_dec.mbtowc.run [u8 0x2d] = .ok (some (.ilseq 0)) := by decide +kernel
  have := M.run_ext _ _ [b] _ h2
  rw [show [u8 0x2d] ++ [b] = [u8 0x2d, b] from rfl, h] at this
  cases this

theorem jisx0212_rows {a b : Byte} {wc n : Nat} (h : jisx0212_dec.mbtowc.run [a, b] = .ok (some (.char wc n))) :
    0x21 ≤ a.toNat ∧ a.toNat < 0x73 := CsDec.row (by decide +kernel) h

/-! ### The private characters and the tables, checked by evaluation -/

theorem jpms_pua_chk : ∀ i < 940, 0xe000 + i ∉ jpmsLost →
    (jpms_pua (i / 94 + 0x75) (i % 94 + 0x21)).run [] = .ok (some (.char (0xe000 + i) 2)) := by
  intro i hi hl
  have h := fin_all (n := 940) (p := fun i => ((376 ≤ i ∧ i < 736) ∨ (738 ≤ i ∧ i < 752)) ||
    decide ((jpms_pua (i / 94 + 0x75) (i % 94 + 0x21)).run [] = .ok (some (.char (0xe000 + i) 2)))) (by decide +kernel) i hi
  rw [mem_jpmsLost] at hl
  simp only [Bool.or_eq_true, decide_eq_true_eq] at h
  rcases h with h | h
  · omega
  · exact h

/-- The private characters of the list do not come back. -/
theorem jpms_pua_lost : ∀ i < 940, 0xe000 + i ∈ jpmsLost →
    (jpms_pua (i / 94 + 0x75) (i % 94 + 0x21)).run [] ≠ .ok (some (.char (0xe000 + i) 2)) := by
  intro i hi hl
  have h := fin_all (n := 940) (p := fun i => !((376 ≤ i ∧ i < 736) ∨ (738 ≤ i ∧ i < 752) : Bool) ||
    !decide ((jpms_pua (i / 94 + 0x75) (i % 94 + 0x21)).run [] = .ok (some (.char (0xe000 + i) 2)))) (by decide +kernel) i hi
  rw [mem_jpmsLost] at hl
  simp only [Bool.or_eq_true, Bool.not_eq_true', decide_eq_false_iff_not] at h
  rcases h with h | h
  · omega
  · exact h

theorem M.run_ret (r : MbRet) (s : List Byte) : (M.ret r).run s = .ok (some r) := rfl

/-- A program that reads nothing more gives the same with any bytes. -/
theorem jpms_pua_any {c0 c1 : Nat} (s : List Byte) {r : MbRet} (h : (jpms_pua c0 c1).run [] = .ok (some r)) :
    (jpms_pua c0 c1).run s = .ok (some r) := by
  have := M.run_ext _ [] s _ h
  simpa using this

def cp50221_0208_sb : SB := ⟨0, cp50221_0208_ext_d, cp50221_0208_ext_e⟩
def cp50221_0212_sb : SB := ⟨0, cp50221_0212_ext_d, cp50221_0212_ext_e⟩

theorem cp50221_0208_inv : chkInv cp50221_0208_sb [(0x40, 0x301d)] = true := by decide +kernel
theorem cp50221_0212_inv : chkInv cp50221_0212_sb [] = true := by decide +kernel

theorem cp50221_0208_back {wc b : Nat} (h : ofCode (encF cp50221_0208_ext_e wc) = some b) (hl : wc ≠ 0x301d) :
    ofCode (decF cp50221_0208_ext_d b) = some wc ∧ b < 256 := by
  have hs : cp50221_0208_sb.safe = true := by decide +kernel
  have he : cp50221_0208_sb.encode wc = some b := by rw [SB.encode_fast hs]; exact h
  have hb := SB.encode_lt hs he
  have := (SB.inv_sound hs cp50221_0208_inv b wc hb).1 he
  rcases this with h | h
  · have := h.1
    rw [SB.decode_fast hs] at this
    exact ⟨this, hb⟩
  · have := h.2
    simp only [List.mem_singleton, Prod.mk.injEq] at this
    omega

theorem cp50221_0212_back {wc b : Nat} (h : ofCode (encF cp50221_0212_ext_e wc) = some b) :
    ofCode (decF cp50221_0212_ext_d b) = some wc ∧ b < 256 := by
  have hs : cp50221_0212_sb.safe = true := by decide +kernel
  have he : cp50221_0212_sb.encode wc = some b := by rw [SB.encode_fast hs]; exact h
  have hb := SB.encode_lt hs he
  have := (SB.inv_sound hs cp50221_0212_inv b wc hb).1 he
  rcases this with h | h
  · have := h.1
    rw [SB.decode_fast hs] at this
    exact ⟨this, hb⟩
  · have := h.2
    simp at this

theorem cp50221_0208_rng : ∀ b < 256, ofCode (decF cp50221_0208_ext_d b) ≠ none → 1 ≤ b ∧ b ≤ 0x59 := by
  intro b hb
  have := fin_all (n := 256) (p := fun b => ofCode (decF cp50221_0208_ext_d b) = none ∨ (1 ≤ b ∧ b ≤ 0x59)) (by decide +kernel) b hb
  simp only [decide_eq_true_eq] at this
  intro h
  rcases this with h' | h'
  · exact absurd h' h
  · exact h'

theorem cp50221_0212_rng : ∀ b < 256, ofCode (decF cp50221_0212_ext_d b) ≠ none → 1 ≤ b ∧ b ≤ 188 := by
  intro b hb
  have := fin_all (n := 256) (p := fun b => ofCode (decF cp50221_0212_ext_d b) = none ∨ (1 ≤ b ∧ b ≤ 188)) (by decide +kernel) b hb
  simp only [decide_eq_true_eq] at this
  intro h
  rcases this with h' | h'
  · exact absurd h' h
  · exact h'

/-- The extended JIS X 0208: what is written is read as the character. -/
theorem jpms_0208_back {wc : Nat} {a b : Byte} (hl : wc ∉ jpmsLost) (hr : (jpms_0208_w wc).run 0 2 = .ok (.put [a, b] 0)) :
    jpms_0208.run [a, b] = .ok (some (.char wc 2)) ∧ 0x21 ≤ a.toNat := by
  unfold jpms_0208_w at hr
  unfold jpms_0208
  rw [M.run_byte0, M.run_byte1]
  by_cases hp : 0xe000 ≤ wc ∧ wc < 0xe3ac
  · rw [if_pos hp] at hr
    obtain ⟨ha, hb⟩ := put2 hr
    have hi : wc - 0xe000 < 940 := by omega
    have ha : a.toNat = (wc - 0xe000) / 94 + 0x75 := by omega
    have hb : b.toNat = (wc - 0xe000) % 94 + 0x21 := by omega
    have := jpms_pua_chk (wc - 0xe000) hi (by rw [show 0xe000 + (wc - 0xe000) = wc by omega]; exact hl)
    rw [show 0xe000 + (wc - 0xe000) = wc by omega, ← ha, ← hb] at this
    rw [if_neg (by omega), if_pos (by omega)]
    exact ⟨jpms_pua_any _ this, by omega⟩
  rw [if_neg hp] at hr
  rcases w_on_two (jisx0208_w2 wc) (jpms_0208_x wc) with ⟨x, y, h1, h⟩ | ⟨_, h⟩
  · rw [h] at hr
    obtain ⟨ha, hb⟩ := put2 hr
    have hx := UInt8.toNat_lt x
    have hy := UInt8.toNat_lt y
    have ha : a = x := by rw [← u8_of_toNat a, ha, ← u8_of_toNat x, u8_toNat, Nat.mod_mod]; congr 1; omega
    have hb : b = y := by rw [← u8_of_toNat b, hb, ← u8_of_toNat y, u8_toNat, Nat.mod_mod]; congr 1; omega
    subst ha hb
    have hm := jisx0208_back wc a b h1
    have hrow := jisx0208_rows hm
    rw [if_pos (by omega), if_neg (by omega)]
    exact ⟨M.run_on_ret hm _, by omega⟩
  · rw [h, jpms_0208_x_eq] at hr
    cases he : ofCode (encF cp50221_0208_ext_e wc) with
    | some c =>
      rw [he] at hr
      obtain ⟨h2, h3⟩ := cp50221_0208_back he (by rw [mem_jpmsLost] at hl; omega)
      have h4 := cp50221_0208_rng c h3 (by rw [h2]; simp)
      obtain ⟨ha, hb⟩ := put2 hr
      rw [if_pos (by omega), if_pos (by omega), if_pos (by omega), jpms_ext_eq cp50221_0208_ext_d_safe,
        show (b.toNat - 0x21 + 1) % 256 = c by omega, h2]
      exact ⟨rfl, by omega⟩
    | none =>
      rw [he] at hr
      dsimp only at hr
      by_cases e1 : wc = 0x663b
      · rw [if_pos e1] at hr
        obtain ⟨ha, hb⟩ := put2 hr
        rw [ha, hb, if_neg (by omega), if_pos (by omega), e1]
        exact ⟨jpms_pua_any _ (by decide +kernel), by omega⟩
      rw [if_neg e1] at hr
      by_cases e2 : wc = 0xffe2
      · rw [if_pos e2] at hr
        obtain ⟨ha, hb⟩ := put2 hr
        rw [ha, hb, if_neg (by omega), if_pos (by omega), e2]
        exact ⟨jpms_pua_any _ (by decide +kernel), by omega⟩
      rw [if_neg e2] at hr
      by_cases e3 : wc = 0xffe4
      · rw [if_pos e3] at hr
        obtain ⟨ha, hb⟩ := put2 hr
        rw [ha, hb, if_neg (by omega), if_pos (by omega), e3]
        exact ⟨jpms_pua_any _ (by decide +kernel), by omega⟩
      rw [if_neg e3] at hr
      cases hr

theorem jpms_0212_back {wc : Nat} {a b : Byte} (hr : (jpms_0212_w wc).run 0 2 = .ok (.put [a, b] 0)) :
    jpms_0212.run [a, b] = .ok (some (.char wc 2)) ∧ 0x21 ≤ a.toNat := by
  unfold jpms_0212_w at hr
  unfold jpms_0212
  rw [M.run_byte0, M.run_byte1]
  by_cases hp : 0xe3ac ≤ wc ∧ wc < 0xe758
  · rw [if_pos hp] at hr
    obtain ⟨ha, hb⟩ := put2 hr
    have ha : a.toNat = (wc - 0xe3ac) / 94 + 0x75 := by omega
    have hb : b.toNat = (wc - 0xe3ac) % 94 + 0x21 := by omega
    rw [if_neg (by omega), if_neg (by omega), if_pos (by omega), M.run_ret,
      show (a.toNat - 0x75) * 94 + (b.toNat - 0x21) + 0xe3ac = wc by omega]
    exact ⟨rfl, by omega⟩
  rw [if_neg hp] at hr
  rcases w_on_two (jisx0212_w2 wc) (jpms_0212_x wc) with ⟨x, y, h1, h⟩ | ⟨_, h⟩
  · rw [h] at hr
    obtain ⟨ha, hb⟩ := put2 hr
    have hx := UInt8.toNat_lt x
    have hy := UInt8.toNat_lt y
    have ha : a = x := by rw [← u8_of_toNat a, ha, ← u8_of_toNat x, u8_toNat, Nat.mod_mod]; congr 1; omega
    have hb : b = y := by rw [← u8_of_toNat b, hb, ← u8_of_toNat y, u8_toNat, Nat.mod_mod]; congr 1; omega
    subst ha hb
    have hm := jisx0212_back wc a b h1
    have hrow := jisx0212_rows hm
    rw [if_pos (by omega)]
    exact ⟨M.run_on_ret hm _, by omega⟩
  · rw [h, jpms_0212_x_eq] at hr
    cases he : ofCode (encF cp50221_0212_ext_e wc) with
    | some c =>
      rw [he] at hr
      obtain ⟨h2, h3⟩ := cp50221_0212_back he
      have h4 := cp50221_0212_rng c h3 (by rw [h2]; simp)
      obtain ⟨ha, hb⟩ := put2 hr
      rw [if_neg (by omega), if_pos (by omega), if_pos (by omega), jpms_ext_eq cp50221_0212_ext_d_safe,
        show ((a.toNat - 0x73) * 94 + (b.toNat - 0x21) + 1) % 256 = c by omega, h2]
      exact ⟨rfl, by omega⟩
    | none =>
      rw [he] at hr
      cases hr

/-! ### The simulation -/

theorem jpms_asc {st : Nat} {b : Byte} (h0 : st = 0) (h : b.toNat < 0x80) (h1 : NotShift b.toNat) :
    (iso2022_jpms_item st).run [b] = .ok (some (.char b.toNat 1 st)) := by
  obtain ⟨h1, h2, h3⟩ := h1
  unfold iso2022_jpms_item
  rw [M.run_byte0, if_neg h1, if_neg h2, if_neg h3, if_pos h0, if_pos h, sOne_char (ascii_run h)]
  rfl

/-- The Katakana half of JIS X 0201. -/
theorem jisx0201_kana {wc : Nat} {a : Byte} (h : (jisx0201_w wc).run 0 1 = .ok (.put [a] 0)) (ha : 0x80 ≤ a.toNat) :
    jisx0201_m.run [a] = .ok (some (.char wc 1)) ∧ 0xa1 ≤ a.toNat := by
  unfold jisx0201_w at h
  have key : ∀ x : Nat, x < 0x80 → (W.put [x]).run 0 1 ≠ .ok (.put [a] 0) := by
    intro x hx h
    have h : Outcome.ok (WcRes.put [u8 x] 0) = Outcome.ok (WcRes.put [a] 0) := h
    simp only [WcRes.put, Outcome.ok.injEq, WcRes.mk.injEq, List.cons.injEq, and_true] at h
    rw [← h.2, u8_toNat] at ha
    omega
  by_cases h0 : wc < 0x80 ∧ ¬ (wc = 0x5c ∨ wc = 0x7e)
  · rw [if_pos h0] at h
    exact absurd h (key _ h0.1)
  rw [if_neg h0] at h
  by_cases h1 : wc = 0xa5
  · rw [if_pos h1] at h
    exact absurd h (key _ (by omega))
  rw [if_neg h1] at h
  by_cases h2 : wc = 0x203e
  · rw [if_pos h2] at h
    exact absurd h (key _ (by omega))
  rw [if_neg h2] at h
  by_cases h3 : wc ≥ 0xff61 ∧ wc < 0xffa0
  · rw [if_pos h3] at h
    have h : Outcome.ok (WcRes.put [u8 (wc - 0xfec0)] 0) = Outcome.ok (WcRes.put [a] 0) := h
    simp only [WcRes.put, Outcome.ok.injEq, WcRes.mk.injEq, List.cons.injEq, and_true] at h
    have h := h.2
    have e : a.toNat = wc - 0xfec0 := by rw [← h, u8_toNat]; omega
    unfold jisx0201_m
    rw [M.run_byte0, if_neg (by omega), if_pos (by omega), M.run_ret, show a.toNat + 0xfec0 = wc by omega]
    exact ⟨rfl, by omega⟩
  · rw [if_neg h3] at h; cases h

theorem jpms_kana {st wc : Nat} {a b : Byte} (h0 : st = 2) (ha : 0xa1 ≤ a.toNat) (hb : b.toNat = a.toNat - 0x80)
    (hm : jisx0201_m.run [a] = .ok (some (.char wc 1))) :
    (iso2022_jpms_item st).run [b] = .ok (some (.char wc 1 st)) := by
  have hx := UInt8.toNat_lt a
  unfold iso2022_jpms_item
  rw [M.run_byte0, if_neg (by omega), if_neg (by omega), if_neg (by omega), if_neg (by omega), if_neg (by omega), if_pos h0,
    if_pos (by omega), show b.toNat + 0x80 = a.toNat by omega, sOne_char hm]
  rfl

theorem jpms_two {st wc : Nat} {a b : Byte} {m : M MbRet} (hd : st = 3 ∧ m = jpms_0208 ∨ st = 4 ∧ m = jpms_0212)
    (h21 : 0x21 ≤ a.toNat) (ha : a.toNat < 0x80) (hb : b.toNat < 0x80)
    (hm : m.run [a, b] = .ok (some (.char wc 2))) :
    (iso2022_jpms_item st).run [a, b] = .ok (some (.char wc 2 st)) := by
  unfold iso2022_jpms_item
  rw [M.run_byte0, if_neg (by omega), if_neg (by omega), if_neg (by omega), if_neg (by omega), if_neg (by omega), if_neg (by omega)]
  rcases hd with ⟨h, rfl⟩ | ⟨h, rfl⟩
  · rw [if_pos h]
    exact sPair_run ha hb hm
  · rw [if_neg (by omega), if_pos h]
    exact sPair_run ha hb hm

/-- Proof that `iso2022_jpms_entry` satisfies the contract `Sim`. -/
def iso2022_jpms_sim : Sim iso2022_jpms_entry NotJpms :=
  Sim.direct ei_iso2022_jpms rfl iso2022_jpms_dec iso2022_jpms_enc rfl (by simp [iso2022_jpms_encoder, sencoder])
    (fun os st => os = st ∧ st ≤ 4) ⟨rfl, by omega⟩
    (by rintro os st ⟨rfl, h⟩; exact ⟨h, h⟩)
    (by
      rintro st _ wc bs os' ⟨rfl, h⟩ hP hr
      have hr : (iso2022_jpms_wctomb st wc).res = some (bs, os') := hr
      unfold iso2022_jpms_wctomb at hr
      rw [ascii_iluni] at hr
      by_cases hw : wc < 0x80 ∧ wc < 0x80
      · rw [if_pos hw] at hr
        have hu : (u8 wc).toNat = wc := by rw [u8_toNat]; omega
        rw [← hu] at hr
        obtain ⟨rfl, hc⟩ := jpOne_chars iso2022_jpms_dec (wc := (u8 wc).toNat) h rfl
          (jpms_asc rfl (by rw [hu]; exact hw.1) (by rw [hu]; exact hP.1)) hr
        rw [hu] at hc
        exact ⟨0, hc, rfl, by omega⟩
      rw [if_neg hw] at hr
      rcases SW.try1_cases (jisx0201_w_one wc) (fun b => 0x80 ≤ b) (fun b => jpOne st 2 0x49 (b - 0x80))
        (.try2 (jpms_0208_w wc) (jpTwo st 3 [0x1b, 0x24, 0x42] 5)
          (.try2 (jpms_0212_w wc) (jpTwo st 4 [0x1b, 0x24, 0x28, 0x44] 6) .iluni)) with ⟨a, h1, h2, h3⟩ | h3
      · rw [h3] at hr
        obtain ⟨hm, ha⟩ := jisx0201_kana h1 h2
        have hx := UInt8.toNat_lt a
        have hu : (u8 (a.toNat - 0x80)).toNat = a.toNat - 0x80 := by rw [u8_toNat]; omega
        rw [← hu] at hr
        obtain ⟨rfl, hc⟩ := jpOne_chars iso2022_jpms_dec h rfl (jpms_kana rfl ha hu hm) hr
        exact ⟨2, hc, rfl, by omega⟩
      rw [h3] at hr
      rcases SW.try2_cases (jpms_0208_w2 wc) (jpTwo st 3 [0x1b, 0x24, 0x42] 5)
          (.try2 (jpms_0212_w wc) (jpTwo st 4 [0x1b, 0x24, 0x28, 0x44] 6) .iluni) with ⟨a, b, h1, ha, hb, h3⟩ | h3
      · rw [h3] at hr
        obtain ⟨hm, h21⟩ := jpms_0208_back hP.2 h1
        obtain ⟨rfl, hc⟩ := jpTwo_chars iso2022_jpms_dec h (by simp) rfl (jpms_two (.inl ⟨rfl, rfl⟩) h21 ha hb hm) hr
        exact ⟨3, hc, rfl, by omega⟩
      rw [h3] at hr
      rcases SW.try2_cases (jpms_0212_w2 wc) (jpTwo st 4 [0x1b, 0x24, 0x28, 0x44] 6) .iluni with ⟨a, b, h1, ha, hb, h3⟩ | h3
      · rw [h3] at hr
        obtain ⟨hm, h21⟩ := jpms_0212_back h1
        obtain ⟨rfl, hc⟩ := jpTwo_chars iso2022_jpms_dec h (by simp) rfl (jpms_two (.inr ⟨rfl, rfl⟩) h21 ha hb hm) hr
        exact ⟨4, hc, rfl, by omega⟩
      · rw [h3] at hr; cases hr)
    (by
      rintro st _ ⟨rfl, h⟩
      refine ⟨0, ?_, rfl, by omega⟩
      show Chars _ _ ((iso2022_jp_reset st).map u8) _ _
      unfold iso2022_jp_reset
      by_cases h0 : st = 0
      · subst h0; exact .nil _
      · rw [if_pos h0]
        exact chars_shift1 (by simp) rfl)

/-! ### The lost characters -/

deriving instance DecidableEq for SItem

/-- What is written for the characters of `jpmsLost`. -/
def jpmsCode (c : Nat) : Nat × Nat :=
  if c = 0x301d then (0x2d, 0x60) else ((c - 0xe000) / 94 + 0x75, (c - 0xe000) % 94 + 0x21)

/-- How it is read. -/
def jpmsRead (c : Nat) : Nat :=
  match (iso2022_jpms_item 3).run [u8 (jpmsCode c).1, u8 (jpmsCode c).2] with
  | .ok (some (.char wc _ _)) => wc
  | _ => c

theorem jpmsLost_enc : ∀ c ∈ jpmsLost, iso2022_jpms_entry.enc.text 0 [c] =
    some ([0x1b, 0x24, 0x42, u8 (jpmsCode c).1, u8 (jpmsCode c).2], 3) := by
  have h : (jpmsLost.all fun c => decide (iso2022_jpms_entry.enc.text 0 [c] =
    some ([0x1b, 0x24, 0x42, u8 (jpmsCode c).1, u8 (jpmsCode c).2], 3))) = true := by decide +kernel
  intro c hc
  exact of_decide_eq_true (List.all_eq_true.1 h c hc)

theorem jpmsLost_dec : ∀ c ∈ jpmsLost, jpmsRead c ≠ c ∧
    (iso2022_jpms_item 3).run [u8 (jpmsCode c).1, u8 (jpmsCode c).2] = .ok (some (.char (jpmsRead c) 2 3)) := by
  have h : (jpmsLost.all fun c => decide (jpmsRead c ≠ c ∧
    (iso2022_jpms_item 3).run [u8 (jpmsCode c).1, u8 (jpmsCode c).2] = .ok (some (.char (jpmsRead c) 2 3)))) = true := by decide +kernel
  intro c hc
  exact of_decide_eq_true (List.all_eq_true.1 h c hc)

/-- Each of these characters is written, and read as another one. -/
theorem jpmsLost_text {c : Nat} (hc : c ∈ jpmsLost) : ∃ out c', c' ≠ c ∧
    iso2022_jpms_entry.Encodes [c] out ∧ iso2022_jpms_entry.Text out [c'] := by
  obtain ⟨h1, h2⟩ := jpmsLost_dec c hc
  refine ⟨_, jpmsRead c, h1, ⟨_, _, jpmsLost_enc c hc, rfl⟩, [jpmsRead c], ⟨0, 0⟩, ?_, rfl⟩
  have ht : iso2022_jpms_entry.enc.tail 3 = [0x1b, 0x28, 0x42] := by decide +kernel
  rw [ht]
  have c1 : Chars (satom iso2022_jpms_item) ⟨0, 3⟩ [u8 0x1b, u8 0x28, u8 0x42] [] ⟨0, 0⟩ := chars_shift1 (by simp) rfl
  have c2 := chars_char1 (bo := 0) (by simp) h2
  have c3 : Chars (satom iso2022_jpms_item) ⟨0, 0⟩ [u8 0x1b, u8 0x24, u8 0x42] [] ⟨0, 3⟩ := chars_shift1 (by simp) rfl
  exact Chars.st_append iso2022_jpms_dec (show jpmsI 0 by unfold jpmsI; omega) c3
    (Chars.st_append iso2022_jpms_dec (show jpmsI 3 by unfold jpmsI; omega) c2 c1)

end Reiconv
