import Verif.Codec.Sim
import Verif.Codec.Hz
import Verif.Gen.BackCn
import Verif.Gen.BackJp
import Verif.Gen.BackKr
import Verif.Gen.BackTw

/-!
# HZ, ISO-2022-KR, ISO-2022-CN, ISO-2022-JP, ISO-2022-JP-1: the decoder follows the encoder
-/

namespace Reiconv

/-! ## ISO-2022-JP, ISO-2022-JP-1 -/

/-- What is written with an escape sequence before it if the state is not the right one. -/
theorem esc_chars {D : Decoder} (d : StDec D) {st k wc : Nat} {esc bs : List Byte} (hI : d.I st) (hk : k = st ∨ esc ≠ [])
    (he : st ≠ k → (d.item st).run esc = .ok (some (.shift esc.length k)))
    (hb : Chars (satom d.item) ⟨0, k⟩ bs [wc] ⟨0, k⟩) :
    Chars (satom d.item) ⟨0, st⟩ ((if st ≠ k then esc else []) ++ bs) [wc] ⟨0, k⟩ := by
  by_cases h : st = k
  · rw [if_neg (by omega)]; subst h; exact hb
  · rw [if_pos h]
    have hne : esc ≠ [] := by
      rcases hk with h1 | h1
      · exact absurd h1.symm h
      · exact h1
    exact Chars.st_append d hI (chars_shift1 hne (he h)) hb

theorem jpOne_chars {D : Decoder} (d : StDec D) {st k f wc os' : Nat} {b : Byte} {bs : List Byte} (hI : d.I st)
    (he : (d.item st).run ([0x1b, 0x28, f].map u8) = .ok (some (.shift 3 k)))
    (hb : (d.item k).run [b] = .ok (some (.char wc 1 k)))
    (h : (jpOne st k f b.toNat).res = some (bs, os')) :
    os' = k ∧ Chars (satom d.item) ⟨0, st⟩ bs [wc] ⟨0, k⟩ := by
  have e : (jpOne st k f b.toNat).res =
      some (((if st ≠ k then [0x1b, 0x28, f] else []) ++ [b.toNat]).map u8, k) := rfl
  rw [e] at h
  cases h
  refine ⟨rfl, ?_⟩
  have := esc_chars d (esc := [0x1b, 0x28, f].map u8) hI (.inr (by simp)) (fun _ => he)
    (chars_char1 (bo := 0) (s := [b]) (by simp) hb)
  rw [List.map_append]
  by_cases hs : st = k
  · rw [if_neg (by omega)] at this ⊢
    simpa [u8_of_toNat] using this
  · rw [if_pos hs] at this ⊢
    simpa [u8_of_toNat] using this

theorem jpTwo_chars {D : Decoder} (d : StDec D) {st k wc count os' : Nat} {esc : List Nat} {b0 b1 : Byte} {bs : List Byte}
    (hI : d.I st) (hne : esc ≠ [])
    (he : (d.item st).run (esc.map u8) = .ok (some (.shift esc.length k)))
    (hb : (d.item k).run [b0, b1] = .ok (some (.char wc 2 k)))
    (h : (jpTwo st k esc count b0.toNat b1.toNat).res = some (bs, os')) :
    os' = k ∧ Chars (satom d.item) ⟨0, st⟩ bs [wc] ⟨0, k⟩ := by
  have e : (jpTwo st k esc count b0.toNat b1.toNat).res =
      some (((if st ≠ k then esc else []) ++ [b0.toNat, b1.toNat]).map u8, k) := rfl
  rw [e] at h
  cases h
  refine ⟨rfl, ?_⟩
  have := esc_chars d (esc := esc.map u8) hI (.inr (by simpa using hne)) (fun _ => by rw [he]; simp)
    (chars_char1 (bo := 0) (s := [b0, b1]) (by simp) hb)
  rw [List.map_append]
  by_cases hs : st = k
  · rw [if_neg (by omega)] at this ⊢
    simpa [u8_of_toNat] using this
  · rw [if_pos hs] at this ⊢
    simpa [u8_of_toNat] using this

theorem jisx0208_row {a b : Byte} {wc n : Nat} (h : jisx0208_dec.mbtowc.run [a, b] = .ok (some (.char wc n))) :
    0x21 ≤ a.toNat ∧ a.toNat < 0x80 := CsDec.row (by decide +kernel) h
theorem jisx0212_row {a b : Byte} {wc n : Nat} (h : jisx0212_dec.mbtowc.run [a, b] = .ok (some (.char wc n))) :
    0x21 ≤ a.toNat ∧ a.toNat < 0x80 := CsDec.row (by decide +kernel) h
theorem gb2312_row {a b : Byte} {wc n : Nat} (h : gb2312_dec.mbtowc.run [a, b] = .ok (some (.char wc n))) :
    0x21 ≤ a.toNat ∧ a.toNat < 0x7e := CsDec.row (by decide +kernel) h
theorem ksc5601_row {a b : Byte} {wc n : Nat} (h : ksc5601_dec.mbtowc.run [a, b] = .ok (some (.char wc n))) :
    0x21 ≤ a.toNat ∧ a.toNat < 0x80 := CsDec.row (by decide +kernel) h
theorem cns11643_1_row {a b : Byte} {wc n : Nat} (h : cns11643_1_dec.mbtowc.run [a, b] = .ok (some (.char wc n))) :
    0x21 ≤ a.toNat ∧ a.toNat < 0x80 := CsDec.row (by decide +kernel) h

theorem sPair_run {m : M MbRet} {a b : Byte} {wc st : Nat} (ha : a.toNat < 0x80) (hb : b.toNat < 0x80)
    (h : m.run [a, b] = .ok (some (.char wc 2))) : (sPair m st).run [a, b] = .ok (some (.char wc 2 st)) := by
  unfold sPair
  rw [M.run_need (by simp), M.run_byte0, M.run_byte1, if_pos ⟨ha, hb⟩, sTwo_char h]
  rfl

/-- The Roman half of JIS X 0201. -/
theorem jisx0201_back {wc : Nat} {a : Byte} (h : (jisx0201_w wc).run 0 1 = .ok (.put [a] 0)) (ha : a.toNat < 0x80)
    (hw : ¬ wc < 0x80) : jisx0201_m.run [a] = .ok (some (.char wc 1)) ∧ 0x5c ≤ a.toNat := by
  unfold jisx0201_w at h
  rw [if_neg (by omega)] at h
  by_cases h1 : wc = 0xa5
  · subst h1
    rw [if_pos rfl] at h
    have h : Outcome.ok (WcRes.put [u8 0x5c] 0) = Outcome.ok (WcRes.put [a] 0) := h
    simp only [WcRes.put, Outcome.ok.injEq, WcRes.mk.injEq, List.cons.injEq, and_true] at h
    rw [← h.2]
    exact ⟨by decide, by decide⟩
  rw [if_neg h1] at h
  by_cases h2 : wc = 0x203e
  · subst h2
    rw [if_pos rfl] at h
    have h : Outcome.ok (WcRes.put [u8 0x7e] 0) = Outcome.ok (WcRes.put [a] 0) := h
    simp only [WcRes.put, Outcome.ok.injEq, WcRes.mk.injEq, List.cons.injEq, and_true] at h
    rw [← h.2]
    exact ⟨by decide, by decide⟩
  rw [if_neg h2] at h
  by_cases h3 : wc ≥ 0xff61 ∧ wc < 0xffa0
  · rw [if_pos h3] at h
    have h : Outcome.ok (WcRes.put [u8 (wc - 0xfec0)] 0) = Outcome.ok (WcRes.put [a] 0) := h
    simp only [WcRes.put, Outcome.ok.injEq, WcRes.mk.injEq, List.cons.injEq, and_true] at h
    rw [← h.2, u8_toNat] at ha
    omega
  · rw [if_neg h3] at h; cases h

theorem jp_asc {st : Nat} {b : Byte} (h0 : st = 0) (h : b.toNat < 0x80) (h1 : b.toNat ≠ 0x1b) :
    (iso2022_jp_item st).run [b] = .ok (some (.char b.toNat 1 st)) := by
  unfold iso2022_jp_item
  rw [M.run_byte0, if_neg h1, if_pos h0, if_pos h, sOne_char (ascii_run h)]
  rfl

theorem jp_roman {st wc : Nat} {b : Byte} (h0 : st = 1) (h : b.toNat < 0x80) (h1 : b.toNat ≠ 0x1b)
    (hm : jisx0201_m.run [b] = .ok (some (.char wc 1))) :
    (iso2022_jp_item st).run [b] = .ok (some (.char wc 1 st)) := by
  unfold iso2022_jp_item
  rw [M.run_byte0, if_neg h1, if_neg (by omega), if_pos h0, if_pos h, sOne_char hm]
  rfl

theorem jp_0208 {st wc : Nat} {a b : Byte} (h0 : st = 2) (hb : b.toNat < 0x80)
    (hm : jisx0208_dec.mbtowc.run [a, b] = .ok (some (.char wc 2))) :
    (iso2022_jp_item st).run [a, b] = .ok (some (.char wc 2 st)) := by
  have := jisx0208_row hm
  unfold iso2022_jp_item
  rw [M.run_byte0, if_neg (by omega), if_neg (by omega), if_neg (by omega), if_pos h0]
  exact sPair_run (by omega) hb hm

/-- A character that is not written as an escape character. -/
def NotEsc (wc : Nat) : Prop := wc ≠ 0x1b

/-- Proof that `iso2022_jp_entry` satisfies the contract `Sim`. -/
def iso2022_jp_sim : Sim iso2022_jp_entry NotEsc :=
  Sim.direct ei_iso2022_jp rfl iso2022_jp_dec iso2022_jp_enc rfl (by simp [iso2022_jp_encoder, sencoder])
    (fun os st => os = st ∧ st ≤ 2) ⟨rfl, by omega⟩
    (by rintro os st ⟨rfl, h⟩; exact ⟨h, h⟩)
    (by
      rintro st _ wc bs os' ⟨rfl, h⟩ hP hr
      have hr : (iso2022_jp_wctomb st wc).res = some (bs, os') := hr
      unfold iso2022_jp_wctomb at hr
      rw [ascii_iluni] at hr
      by_cases hw : wc < 0x80 ∧ wc < 0x80
      · rw [if_pos hw] at hr
        have hu : (u8 wc).toNat = wc := by rw [u8_toNat]; omega
        rw [← hu] at hr
        obtain ⟨rfl, hc⟩ := jpOne_chars iso2022_jp_dec (wc := (u8 wc).toNat) h rfl
          (jp_asc rfl (by rw [hu]; exact hw.1) (by rw [hu]; exact hP)) hr
        rw [hu] at hc
        exact ⟨0, hc, rfl, by omega⟩
      rw [if_neg hw] at hr
      rcases SW.try1_cases (jisx0201_w_one wc) (fun b => b < 0x80) (jpOne st 1 0x4a)
        (.try2 (jisx0208_enc.wctomb wc) (jpTwo st 2 [0x1b, 0x24, 0x42] 5) .iluni) with ⟨a, h1, h2, h3⟩ | h3
      · rw [h3] at hr
        obtain ⟨hm, ha⟩ := jisx0201_back h1 h2 (by omega)
        obtain ⟨rfl, hc⟩ := jpOne_chars iso2022_jp_dec h rfl (jp_roman rfl h2 (by omega) hm) hr
        exact ⟨1, hc, rfl, by omega⟩
      rw [h3] at hr
      rcases SW.try2_cases (jisx0208_w2 wc) (jpTwo st 2 [0x1b, 0x24, 0x42] 5) .iluni with ⟨a, b, h1, ha, hb, h3⟩ | h3
      · rw [h3] at hr
        obtain ⟨rfl, hc⟩ := jpTwo_chars iso2022_jp_dec h (by simp) rfl (jp_0208 rfl hb (jisx0208_back wc a b h1)) hr
        exact ⟨2, hc, rfl, by omega⟩
      · rw [h3] at hr; cases hr)
    (by
      rintro st _ ⟨rfl, h⟩
      refine ⟨0, ?_, rfl, by omega⟩
      show Chars _ _ ((iso2022_jp_reset st).map u8) _ _
      unfold iso2022_jp_reset
      by_cases h0 : st = 0
      · subst h0; exact .nil _
      · rw [if_pos h0]
        exact chars_shift1 (by simp) rfl)

theorem jp1_asc {st : Nat} {b : Byte} (h0 : st = 0) (h : b.toNat < 0x80) (h1 : b.toNat ≠ 0x1b) :
    (iso2022_jp1_item st).run [b] = .ok (some (.char b.toNat 1 st)) := by
  unfold iso2022_jp1_item
  rw [M.run_byte0, if_neg h1, if_pos h0, if_pos h, sOne_char (ascii_run h)]
  rfl

theorem jp1_roman {st wc : Nat} {b : Byte} (h0 : st = 1) (h : b.toNat < 0x80) (h1 : b.toNat ≠ 0x1b)
    (hm : jisx0201_m.run [b] = .ok (some (.char wc 1))) :
    (iso2022_jp1_item st).run [b] = .ok (some (.char wc 1 st)) := by
  unfold iso2022_jp1_item
  rw [M.run_byte0, if_neg h1, if_neg (by omega), if_pos h0, if_pos h, sOne_char hm]
  rfl

theorem jp1_0208 {st wc : Nat} {a b : Byte} (h0 : st = 2) (hb : b.toNat < 0x80)
    (hm : jisx0208_dec.mbtowc.run [a, b] = .ok (some (.char wc 2))) :
    (iso2022_jp1_item st).run [a, b] = .ok (some (.char wc 2 st)) := by
  have := jisx0208_row hm
  unfold iso2022_jp1_item
  rw [M.run_byte0, if_neg (by omega), if_neg (by omega), if_neg (by omega), if_pos h0]
  exact sPair_run (by omega) hb hm

theorem jp1_0212 {st wc : Nat} {a b : Byte} (h0 : st = 3) (hb : b.toNat < 0x80)
    (hm : jisx0212_dec.mbtowc.run [a, b] = .ok (some (.char wc 2))) :
    (iso2022_jp1_item st).run [a, b] = .ok (some (.char wc 2 st)) := by
  have := jisx0212_row hm
  unfold iso2022_jp1_item
  rw [M.run_byte0, if_neg (by omega), if_neg (by omega), if_neg (by omega), if_neg (by omega), if_pos h0]
  exact sPair_run (by omega) hb hm

/-- Proof that `iso2022_jp1_entry` satisfies the contract `Sim`. -/
def iso2022_jp1_sim : Sim iso2022_jp1_entry NotEsc :=
  Sim.direct ei_iso2022_jp1 rfl iso2022_jp1_dec iso2022_jp1_enc rfl (by simp [iso2022_jp1_encoder, sencoder])
    (fun os st => os = st ∧ st ≤ 3) ⟨rfl, by omega⟩
    (by rintro os st ⟨rfl, h⟩; exact ⟨h, h⟩)
    (by
      rintro st _ wc bs os' ⟨rfl, h⟩ hP hr
      have hr : (iso2022_jp1_wctomb st wc).res = some (bs, os') := hr
      unfold iso2022_jp1_wctomb at hr
      rw [ascii_iluni] at hr
      by_cases hw : wc < 0x80 ∧ wc < 0x80
      · rw [if_pos hw] at hr
        have hu : (u8 wc).toNat = wc := by rw [u8_toNat]; omega
        rw [← hu] at hr
        obtain ⟨rfl, hc⟩ := jpOne_chars iso2022_jp1_dec (wc := (u8 wc).toNat) h rfl
          (jp1_asc rfl (by rw [hu]; exact hw.1) (by rw [hu]; exact hP)) hr
        rw [hu] at hc
        exact ⟨0, hc, rfl, by omega⟩
      rw [if_neg hw] at hr
      rcases SW.try1_cases (jisx0201_w_one wc) (fun b => b < 0x80) (jpOne st 1 0x4a)
        (.try2 (jisx0208_enc.wctomb wc) (jpTwo st 2 [0x1b, 0x24, 0x42] 5)
          (.try2 (jisx0212_enc.wctomb wc) (jpTwo st 3 [0x1b, 0x24, 0x28, 0x44] 6) .iluni)) with ⟨a, h1, h2, h3⟩ | h3
      · rw [h3] at hr
        obtain ⟨hm, ha⟩ := jisx0201_back h1 h2 (by omega)
        obtain ⟨rfl, hc⟩ := jpOne_chars iso2022_jp1_dec h rfl (jp1_roman rfl h2 (by omega) hm) hr
        exact ⟨1, hc, rfl, by omega⟩
      rw [h3] at hr
      rcases SW.try2_cases (jisx0208_w2 wc) (jpTwo st 2 [0x1b, 0x24, 0x42] 5)
          (.try2 (jisx0212_enc.wctomb wc) (jpTwo st 3 [0x1b, 0x24, 0x28, 0x44] 6) .iluni) with ⟨a, b, h1, ha, hb, h3⟩ | h3
      · rw [h3] at hr
        obtain ⟨rfl, hc⟩ := jpTwo_chars iso2022_jp1_dec h (by simp) rfl (jp1_0208 rfl hb (jisx0208_back wc a b h1)) hr
        exact ⟨2, hc, rfl, by omega⟩
      rw [h3] at hr
      rcases SW.try2_cases (jisx0212_w2 wc) (jpTwo st 3 [0x1b, 0x24, 0x28, 0x44] 6) .iluni with ⟨a, b, h1, ha, hb, h3⟩ | h3
      · rw [h3] at hr
        obtain ⟨rfl, hc⟩ := jpTwo_chars iso2022_jp1_dec h (by simp) rfl (jp1_0212 rfl hb (jisx0212_back wc a b h1)) hr
        exact ⟨3, hc, rfl, by omega⟩
      · rw [h3] at hr; cases hr)
    (by
      rintro st _ ⟨rfl, h⟩
      refine ⟨0, ?_, rfl, by omega⟩
      show Chars _ _ ((iso2022_jp_reset st).map u8) _ _
      unfold iso2022_jp_reset
      by_cases h0 : st = 0
      · subst h0; exact .nil _
      · rw [if_pos h0]
        exact chars_shift1 (by simp) rfl)

/-! ## HZ -/

/-- A character that is not written as a tilde. -/
def NotTilde (wc : Nat) : Prop := wc ≠ 0x7e

theorem hz_asc {st : Nat} {b : Byte} (h0 : st = 0) (h1 : b.toNat ≠ 0x7e) :
    (hz_item st).run [b] = .ok (some (.char b.toNat 1 st)) := by
  unfold hz_item
  rw [M.run_byte0, if_neg h1, if_pos h0]
  rfl

theorem hz_gb {st wc : Nat} {a b : Byte} (h0 : st = 1)
    (hm : gb2312_dec.mbtowc.run [a, b] = .ok (some (.char wc 2))) :
    (hz_item st).run [a, b] = .ok (some (.char wc 2 st)) := by
  have := gb2312_row hm
  unfold hz_item
  rw [M.run_byte0, if_neg (by omega), if_neg (by omega), M.run_need (by simp), M.run_byte1, sTwo_char hm]
  rfl

/-- Proof that `hz_entry` satisfies the contract `Sim`. -/
def hz_sim : Sim hz_entry NotTilde :=
  Sim.direct ei_hz rfl hz_dec hz_enc rfl (by simp [hz_encoder, sencoder])
    (fun os st => os = st ∧ st ≤ 1) ⟨rfl, by omega⟩
    (by rintro os st ⟨rfl, h⟩; exact ⟨h, h⟩)
    (by
      rintro st _ wc bs os' ⟨rfl, h⟩ hP hr
      have hr : (hz_wctomb st wc).res = some (bs, os') := hr
      unfold hz_wctomb at hr
      rw [ascii_iluni] at hr
      have hst : st = 0 ∨ st = 1 := by omega
      by_cases hw : wc < 0x80 ∧ wc < 0x80
      · rw [if_pos hw] at hr
        have hu : (u8 wc).toNat = wc := by rw [u8_toNat]; omega
        have hc : Chars (satom hz_dec.item) ⟨0, 0⟩ [u8 wc] [wc] ⟨0, 0⟩ := by
          have := chars_char1 (item := hz_item) (bo := 0) (s := [u8 wc]) (by simp) (hz_asc rfl (by rw [hu]; exact hP))
          rw [hu] at this
          exact this
        rcases hst with rfl | rfl
        · cases hr
          exact ⟨0, hc, rfl, by omega⟩
        · cases hr
          exact ⟨0, Chars.st_append hz_dec h (a := [0x7e, 0x7d]) (chars_shift1 (by simp) rfl) hc, rfl, by omega⟩
      rw [if_neg hw] at hr
      rcases SW.try2_cases (gb2312_w2 wc) (fun b0 b1 => .room (if st ≠ 0 then 2 else 4) <|
        .put ((if st ≠ 0 then [] else [0x7e, 0x7b]) ++ [b0, b1]) (if st ≠ 0 then st else 1)) .iluni with
        ⟨a, b, h1, ha, hb, h3⟩ | h3
      · rw [h3] at hr
        have hc : Chars (satom hz_dec.item) ⟨0, 1⟩ [a, b] [wc] ⟨0, 1⟩ :=
          chars_char1 (item := hz_item) (bo := 0) (s := [a, b]) (by simp) (hz_gb rfl (gb2312_back wc a b h1))
        rcases hst with rfl | rfl
        · have hr : some (([0x7e, 0x7b] ++ [a.toNat, b.toNat]).map u8, 1) = some (bs, os') := hr
          cases hr
          have := Chars.st_append hz_dec h (a := [u8 0x7e, u8 0x7b]) (chars_shift1 (by simp) rfl) hc
          refine ⟨1, ?_, rfl, by omega⟩
          simpa [u8_of_toNat] using this
        · have hr : some (([a.toNat, b.toNat]).map u8, 1) = some (bs, os') := hr
          cases hr
          refine ⟨1, ?_, rfl, by omega⟩
          simpa [u8_of_toNat] using hc
      · rw [h3] at hr; cases hr)
    (by
      rintro st _ ⟨rfl, h⟩
      refine ⟨0, ?_, rfl, by omega⟩
      have hst : st = 0 ∨ st = 1 := by omega
      rcases hst with rfl | rfl
      · exact .nil _
      · show Chars _ _ [u8 0x7e, u8 0x7d] _ _
        exact chars_shift1 (by simp) rfl)

/-! ## ISO-2022-KR, ISO-2022-CN -/

/-- A character that is not written as an escape character or shift character. -/
def NotShift (wc : Nat) : Prop := wc ≠ 0x1b ∧ wc ≠ 0x0e ∧ wc ≠ 0x0f

theorem kr_asc {st : Nat} {b : Byte} (h0 : st % 256 = 0) (h : b.toNat < 0x80) (h1 : NotShift b.toNat) :
    (iso2022_kr_item st).run [b] = .ok (some (.char b.toNat 1 st)) := by
  obtain ⟨h1, h2, h3⟩ := h1
  unfold iso2022_kr_item
  rw [M.run_byte0, if_neg h1, if_neg h2, if_neg h3, if_pos h0, if_pos h, sOne_char (ascii_run h)]
  show Outcome.ok (some (SItem.char _ 1 (st % 256 + 256 * (st / 256)))) = _
  congr 3
  omega

theorem kr_ksc {st wc : Nat} {a b : Byte} (h0 : st = 1 + 256) (hb : b.toNat < 0x80)
    (hm : ksc5601_dec.mbtowc.run [a, b] = .ok (some (.char wc 2))) :
    (iso2022_kr_item st).run [a, b] = .ok (some (.char wc 2 st)) := by
  have := ksc5601_row hm
  subst h0
  unfold iso2022_kr_item
  rw [M.run_byte0, if_neg (by omega), if_neg (by omega), if_neg (by omega), if_neg (by omega), if_pos (by omega),
    M.run_need (by simp), if_neg (by omega)]
  exact sPair_run (by omega) hb hm

/-- A part of what is written that is left out in some states. -/
theorem opt_chars {D : Decoder} (d : StDec D) {c : Prop} [Decidable c] {st st' : Nat} {a b : List Byte} {cs : List Nat}
    {is : IState} (hI : d.I st) (h1 : ¬ c → st' = st)
    (h2 : c → a ≠ [] ∧ (d.item st).run a = .ok (some (.shift a.length st')))
    (hb : Chars (satom d.item) ⟨0, st'⟩ b cs is) :
    Chars (satom d.item) ⟨0, st⟩ ((if c then a else []) ++ b) cs is := by
  by_cases h : c
  · rw [if_pos h]
    exact Chars.st_append d hI (chars_shift1 (h2 h).1 (h2 h).2) hb
  · rw [if_neg h, ← h1 h]
    exact hb

/-- Proof that `iso2022_kr_entry` satisfies the contract `Sim`. -/
def iso2022_kr_sim : Sim iso2022_kr_entry NotShift :=
  Sim.direct ei_iso2022_kr rfl iso2022_kr_dec iso2022_kr_enc rfl (by simp [iso2022_kr_encoder, sencoder])
    (fun os st => krI os ∧ krI st ∧ os % 256 = st % 256 ∧ (os / 256 = 1 → st / 256 = 1))
    (by unfold krI; omega)
    (by rintro os st ⟨h1, h2, _⟩; exact ⟨h1, h2⟩)
    (by
      rintro os st wc bs os' ⟨ho, hs, h1, h2⟩ hP hr
      have hr : (iso2022_kr_wctomb os wc).res = some (bs, os') := hr
      unfold iso2022_kr_wctomb at hr
      rw [ascii_iluni] at hr
      by_cases hw : wc < 0x80 ∧ wc < 0x80
      · rw [if_pos hw] at hr
        have hu : (u8 wc).toNat = wc := by rw [u8_toNat]; omega
        have hr : some (((if os % 256 ≠ 0 then [0x0f] else []) ++ [wc]).map u8,
          0 + 256 * (if wc = 0x0a ∨ wc = 0x0d then 0 else os / 256)) = some (bs, os') := hr
        simp only [Option.some.injEq, Prod.mk.injEq] at hr
        obtain ⟨rfl, rfl⟩ := hr
        refine ⟨0 + 256 * (st / 256), ?_, ?_⟩
        · have hc := chars_char1 (item := iso2022_kr_item) (bo := 0) (s := [u8 wc]) (by simp)
            (kr_asc (st := 0 + 256 * (st / 256)) (by omega) (by rw [hu]; exact hw.1) (by rw [hu]; exact hP))
          rw [hu] at hc
          have := opt_chars iso2022_kr_dec (c := os % 256 ≠ 0) (st := st) (a := [0x0f].map u8) hs
            (fun h => by omega) (fun h => ⟨by simp, rfl⟩) hc
          rw [List.map_append]
          by_cases h0 : os % 256 ≠ 0
          · rw [if_pos h0] at this ⊢; exact this
          · rw [if_neg h0] at this ⊢; exact this
        · unfold krI at *
          split <;> omega
      rw [if_neg hw] at hr
      rcases SW.try2_cases (ksc5601_w2 wc) (fun b0 b1 => .room ((if os / 256 = 1 then 0 else 4) + (if os % 256 = 1 then 0 else 1) + 2) <|
        .put ((if os / 256 ≠ 1 then [0x1b, 0x24, 0x29, 0x43] else []) ++ (if os % 256 ≠ 1 then [0x0e] else []) ++ [b0, b1])
        (1 + 256 * 1)) .iluni with ⟨a, b, h3, ha, hb, h4⟩ | h4
      · rw [h4] at hr
        have hr : some (((if os / 256 ≠ 1 then [0x1b, 0x24, 0x29, 0x43] else []) ++ (if os % 256 ≠ 1 then [0x0e] else []) ++ [a.toNat, b.toNat]).map u8,
          257) = some (bs, os') := hr
        simp only [Option.some.injEq, Prod.mk.injEq] at hr
        obtain ⟨rfl, rfl⟩ := hr
        refine ⟨257, ?_, by unfold krI at *; omega⟩
        have hc := chars_char1 (item := iso2022_kr_item) (bo := 0) (s := [a, b]) (by simp)
          (kr_ksc rfl hb (ksc5601_back wc a b h3))
        have c1 := opt_chars iso2022_kr_dec (c := os % 256 ≠ 1) (st := st % 256 + 256 * 1) (a := [0x0e].map u8)
          (by show krI _; unfold krI at *; omega) (fun h => by omega) (fun h => ⟨by simp, by
            show (iso2022_kr_item _).run [u8 0x0e] = _
            unfold iso2022_kr_item
            rw [M.run_byte0, if_neg (by decide), if_pos (by decide), if_neg (by omega)]
            show Outcome.ok (some (SItem.shift 1 (1 + 256 * _))) = _
            have : (st % 256 + 256 * 1) / 256 = 1 := by omega
            rw [this]; rfl⟩) hc
        have c2 := opt_chars iso2022_kr_dec (c := os / 256 ≠ 1) (st := st) (a := [0x1b, 0x24, 0x29, 0x43].map u8)
          hs (fun h => by omega) (fun h => ⟨by simp, rfl⟩) c1
        rw [List.map_append, List.map_append, List.append_assoc]
        have e1 : (if os / 256 ≠ 1 then [0x1b, 0x24, 0x29, 0x43] else []).map u8 =
          if os / 256 ≠ 1 then [0x1b, 0x24, 0x29, 0x43].map u8 else [] := by split <;> rfl
        have e2 : (if os % 256 ≠ 1 then [0x0e] else []).map u8 =
          if os % 256 ≠ 1 then [0x0e].map u8 else [] := by split <;> rfl
        have e3 : [a.toNat, b.toNat].map u8 = [a, b] := by simp [u8_of_toNat]
        rw [e1, e2, e3]
        exact c2
      · rw [h4] at hr; cases hr)
    (by
      rintro os st ⟨ho, hs, h1, h2⟩
      refine ⟨0 + 256 * (st / 256), ?_, by unfold krI at *; omega⟩
      show Chars _ _ ((iso2022_kr_reset os).map u8) _ _
      unfold iso2022_kr_reset
      by_cases h0 : os % 256 ≠ 0
      · rw [if_pos h0]
        exact chars_shift1 (by simp) rfl
      · rw [if_neg h0]
        have : st = 0 + 256 * (st / 256) := by omega
        rw [← this]
        exact .nil _)

theorem cn1 {s1 s2 s3 : Nat} (h1 : s1 ≤ 1) (h2 : s2 ≤ 2) : cnSt s1 s2 s3 % 256 = s1 := by unfold cnSt; omega
theorem cn2 {s1 s2 s3 : Nat} (h1 : s1 ≤ 1) (h2 : s2 ≤ 2) : cnSt s1 s2 s3 / 256 % 256 = s2 := by unfold cnSt; omega
theorem cn3 {s1 s2 s3 : Nat} (h1 : s1 ≤ 1) (h2 : s2 ≤ 2) : cnSt s1 s2 s3 / 65536 = s3 := by unfold cnSt; omega
theorem cn_eta {st : Nat} : cnSt (st % 256) (st / 256 % 256) (st / 65536) = st := by unfold cnSt; omega

theorem cn_asc {s2 s3 : Nat} {b : Byte} (i2 : s2 ≤ 2) (h : b.toNat < 0x80) (h1 : NotShift b.toNat) :
    (iso2022_cn_item (cnSt 0 s2 s3)).run [b] =
      .ok (some (.char b.toNat 1 (if b.toNat = 0x0a ∨ b.toNat = 0x0d then cnSt 0 0 0 else cnSt 0 s2 s3))) := by
  obtain ⟨h1, h2, h3⟩ := h1
  unfold iso2022_cn_item
  rw [cn1 (by omega) i2, cn2 (by omega) i2, cn3 (by omega) i2]
  dsimp only
  rw [M.run_byte0, if_neg h1, if_neg h2, if_neg h3, if_pos rfl, if_pos h, sOne_char (ascii_run h)]
  rfl

theorem cn_two {s2 s3 wc : Nat} {a b : Byte} {d : CsDec} (hd : s2 = 1 ∧ d = gb2312_dec ∨ s2 = 2 ∧ d = cns11643_1_dec)
    (hb : b.toNat < 0x80) (hm : d.mbtowc.run [a, b] = .ok (some (.char wc 2))) :
    (iso2022_cn_item (cnSt 1 s2 s3)).run [a, b] = .ok (some (.char wc 2 (cnSt 1 s2 s3))) := by
  have i2 : s2 ≤ 2 := by omega
  unfold iso2022_cn_item
  rw [cn1 (by omega) i2, cn2 (by omega) i2, cn3 (by omega) i2]
  dsimp only
  rcases hd with ⟨rfl, rfl⟩ | ⟨rfl, rfl⟩
  · have := gb2312_row hm
    rw [M.run_byte0, if_neg (by omega), if_neg (by omega), if_neg (by omega), if_neg (by omega), if_pos rfl,
      M.run_need (by simp), M.run_byte1, if_pos (by omega), if_neg (by omega), if_pos rfl, sTwo_char hm]
    rfl
  · have := cns11643_1_row hm
    rw [M.run_byte0, if_neg (by omega), if_neg (by omega), if_neg (by omega), if_neg (by omega), if_pos rfl,
      M.run_need (by simp), M.run_byte1, if_pos (by omega), if_neg (by omega), if_neg (by omega), if_pos rfl, sTwo_char hm]
    rfl

theorem cn_n {s1 s2 wc : Nat} {a b : Byte} (i1 : s1 ≤ 1) (i2 : s2 ≤ 2) (ha : a.toNat < 0x80) (hb : b.toNat < 0x80)
    (hm : cns11643_2_dec.mbtowc.run [a, b] = .ok (some (.char wc 2))) :
    (iso2022_cn_item (cnSt s1 s2 1)).run [u8 0x1b, u8 0x4e, a, b] = .ok (some (.char wc 4 (cnSt s1 s2 1))) := by
  unfold iso2022_cn_item
  rw [cn1 i1 i2, cn2 i1 i2, cn3 i1 i2]
  dsimp only
  rw [M.run_byte0, if_pos (by decide), M.run_need (by simp), M.run_byte1, M.run_byte2, M.run_byte3]
  have e : (u8 0x4e).toNat = 0x4e := by decide
  rw [e, if_neg (by omega), if_neg (by omega), if_neg (by omega), if_pos rfl, if_neg (by omega), if_pos rfl,
    if_pos ⟨ha, hb⟩, sTwo_char hm]
  rfl

theorem cn_so {s1 s2 s3 : Nat} (i1 : s1 ≤ 1) (i2 : s2 = 1 ∨ s2 = 2) :
    (iso2022_cn_item (cnSt s1 s2 s3)).run [u8 0x0e] = .ok (some (.shift 1 (cnSt 1 s2 s3))) := by
  unfold iso2022_cn_item
  rw [cn1 i1 (by omega), cn2 i1 (by omega), cn3 i1 (by omega)]
  dsimp only
  rw [M.run_byte0, if_neg (by decide), if_pos (by decide), if_neg (by omega)]
  rfl

theorem SW.try3_cases {w : W} (h : W.Three w) (found : Nat → Nat → Nat → SW) (rest : SW) :
    (∃ a b c : Byte, w.run 0 3 = .ok (.put [a, b, c] 0) ∧
        SW.try3 w found rest = found a.toNat b.toNat c.toNat) ∨ SW.try3 w found rest = rest := by
  unfold SW.try3 SW.on
  rcases h with h | ⟨a, b, c, h⟩
  · rw [h]; exact .inr rfl
  · rw [h]; exact .inl ⟨a, b, c, rfl, rfl⟩

theorem map_u8_ite {c : Prop} [Decidable c] {l : List Nat} : (if c then l else []).map u8 = if c then l.map u8 else [] := by
  split <;> rfl

theorem map_u8_two {a b : Byte} : [a.toNat, b.toNat].map u8 = [a, b] := by simp [u8_of_toNat]

/-- A two-byte character in the shifted-out state. -/
theorem cn_gl {os st s2 wc : Nat} {a b : Byte} {d : CsDec} {f : Nat} (hs : cnI st)
    (h1 : os % 256 = st % 256) (h2 : os / 256 % 256 = s2 → st / 256 % 256 = s2)
    (hd : s2 = 1 ∧ d = gb2312_dec ∧ f = 0x41 ∨ s2 = 2 ∧ d = cns11643_1_dec ∧ f = 0x47)
    (hb : b.toNat < 0x80) (hm : d.mbtowc.run [a, b] = .ok (some (.char wc 2))) :
    Chars (satom iso2022_cn_dec.item) ⟨0, st⟩
      (((if os / 256 % 256 ≠ s2 then [0x1b, 0x24, 0x29, f] else []) ++ (if os % 256 ≠ 1 then [0x0e] else []) ++ [a.toNat, b.toNat]).map u8)
      [wc] ⟨0, cnSt 1 s2 (st / 65536)⟩ := by
  obtain ⟨i1, i2, i3⟩ := hs
  have hd' : s2 = 1 ∧ d = gb2312_dec ∨ s2 = 2 ∧ d = cns11643_1_dec := by
    rcases hd with ⟨h, h0, _⟩ | ⟨h, h0, _⟩
    · exact .inl ⟨h, h0⟩
    · exact .inr ⟨h, h0⟩
  have hc := chars_char1 (item := iso2022_cn_item) (bo := 0) (s := [a, b]) (by simp)
    (cn_two (s2 := s2) (s3 := st / 65536) hd' hb hm)
  have c1 := opt_chars iso2022_cn_dec (c := os % 256 ≠ 1) (st := cnSt (st % 256) s2 (st / 65536)) (a := [0x0e].map u8)
    (cnI_cnSt i1 (by omega) i3) (fun h => by rw [← h1, show os % 256 = 1 by omega])
    (fun h => ⟨by simp, cn_so i1 (by omega)⟩) hc
  have c2 := opt_chars iso2022_cn_dec (c := os / 256 % 256 ≠ s2) (st := st) (a := [0x1b, 0x24, 0x29, f].map u8)
    ⟨i1, i2, i3⟩ (fun h => by rw [← h2 (by omega)]; exact cn_eta)
    (fun h => ⟨by simp, by rcases hd with ⟨rfl, _, rfl⟩ | ⟨rfl, _, rfl⟩ <;> rfl⟩) c1
  rw [List.map_append, List.map_append, List.append_assoc, map_u8_ite, map_u8_ite, map_u8_two]
  exact c2

def cnR (os st : Nat) : Prop := cnI os ∧ cnI st ∧ os % 256 = st % 256 ∧
  (os / 256 % 256 ≠ 0 → st / 256 % 256 = os / 256 % 256) ∧ (os / 65536 = 1 → st / 65536 = 1)

/-- Proof that `iso2022_cn_entry` satisfies the contract `Sim`. -/
def iso2022_cn_sim : Sim iso2022_cn_entry NotShift :=
  Sim.direct ei_iso2022_cn rfl iso2022_cn_dec iso2022_cn_enc rfl (by simp [iso2022_cn_encoder, sencoder])
    cnR (by unfold cnR cnI; omega)
    (by rintro os st ⟨h1, h2, _⟩; exact ⟨h1, h2⟩)
    (by
      rintro os st wc bs os' hR hP hr
      obtain ⟨ho, hs, h1, h2, h3⟩ := id hR
      have hr : (iso2022_cn_wctomb os wc).res = some (bs, os') := hr
      unfold iso2022_cn_wctomb at hr
      dsimp only at hr
      rw [ascii_iluni] at hr
      by_cases hw : wc < 0x80 ∧ wc < 0x80
      · rw [if_pos hw] at hr
        have hu : (u8 wc).toNat = wc := by rw [u8_toNat]; omega
        have hr : some (((if os % 256 ≠ 0 then [0x0f] else []) ++ [wc]).map u8,
          if wc = 0x0a ∨ wc = 0x0d then cnSt 0 0 0 else cnSt 0 (os / 256 % 256) (os / 65536)) = some (bs, os') := hr
        simp only [Option.some.injEq, Prod.mk.injEq] at hr
        obtain ⟨rfl, rfl⟩ := hr
        refine ⟨if wc = 0x0a ∨ wc = 0x0d then cnSt 0 0 0 else cnSt 0 (st / 256 % 256) (st / 65536), ?_, ?_⟩
        · have hc := chars_char1 (item := iso2022_cn_item) (bo := 0) (s := [u8 wc]) (by simp)
            (cn_asc (s2 := st / 256 % 256) (s3 := st / 65536) hs.2.1 (by rw [hu]; exact hw.1) (by rw [hu]; exact hP))
          rw [hu] at hc
          have := opt_chars iso2022_cn_dec (c := os % 256 ≠ 0) (st := st) (a := [0x0f].map u8) hs
            (fun h => by rw [show (0 : Nat) = st % 256 by omega]; exact cn_eta) (fun h => ⟨by simp, rfl⟩) hc
          rw [List.map_append, map_u8_ite]
          exact this
        · unfold cnR cnI cnSt at *
          by_cases hn : wc = 0x0a ∨ wc = 0x0d
          · rw [if_pos hn, if_pos hn]; omega
          · rw [if_neg hn, if_neg hn]; omega
      rw [if_neg hw] at hr
      rcases SW.try2_cases (gb2312_w2 wc) _ _ with ⟨a, b, h4, ha, hb, h5⟩ | h5
      · rw [h5] at hr
        have hr : some (((if os / 256 % 256 ≠ 1 then [0x1b, 0x24, 0x29, 0x41] else []) ++ (if os % 256 ≠ 1 then [0x0e] else []) ++ [a.toNat, b.toNat]).map u8,
          cnSt 1 1 (os / 65536)) = some (bs, os') := hr
        simp only [Option.some.injEq, Prod.mk.injEq] at hr
        obtain ⟨rfl, rfl⟩ := hr
        refine ⟨cnSt 1 1 (st / 65536), ?_, by unfold cnR cnI cnSt at *; omega⟩
        exact cn_gl hs h1 (fun h => by omega) (.inl ⟨rfl, rfl, rfl⟩) hb (gb2312_back wc a b h4)
      rw [h5] at hr
      rcases SW.try3_cases (cns11643_w3 wc) _ _ with ⟨p, a, b, h4, h5⟩ | h5
      · rw [h5] at hr
        have hm := cns11643_back wc p a b h4
        by_cases hp1 : p.toNat = 1 ∧ a.toNat < 0x80 ∧ b.toNat < 0x80
        · rw [if_pos hp1] at hr
          have hr : some (((if os / 256 % 256 ≠ 2 then [0x1b, 0x24, 0x29, 0x47] else []) ++ (if os % 256 ≠ 1 then [0x0e] else []) ++ [a.toNat, b.toNat]).map u8,
            cnSt 1 2 (os / 65536)) = some (bs, os') := hr
          simp only [Option.some.injEq, Prod.mk.injEq] at hr
          obtain ⟨rfl, rfl⟩ := hr
          rw [hp1.1] at hm
          refine ⟨cnSt 1 2 (st / 65536), ?_, by unfold cnR cnI cnSt at *; omega⟩
          exact cn_gl hs h1 (fun h => by omega) (.inr ⟨rfl, rfl, rfl⟩) hp1.2.2 hm
        rw [if_neg hp1] at hr
        by_cases hp2 : p.toNat = 2 ∧ a.toNat < 0x80 ∧ b.toNat < 0x80
        · rw [if_pos hp2] at hr
          have hr : some (((if os / 65536 ≠ 1 then [0x1b, 0x24, 0x2a, 0x48] else []) ++ [0x1b, 0x4e, a.toNat, b.toNat]).map u8,
            cnSt (os % 256) (os / 256 % 256) 1) = some (bs, os') := hr
          simp only [Option.some.injEq, Prod.mk.injEq] at hr
          obtain ⟨rfl, rfl⟩ := hr
          rw [hp2.1] at hm
          refine ⟨cnSt (st % 256) (st / 256 % 256) 1, ?_, by unfold cnR cnI cnSt at *; omega⟩
          have hc := chars_char1 (item := iso2022_cn_item) (bo := 0) (s := [u8 0x1b, u8 0x4e, a, b]) (by simp)
            (cn_n (s1 := st % 256) (s2 := st / 256 % 256) hs.1 hs.2.1 hp2.2.1 hp2.2.2 hm)
          have := opt_chars iso2022_cn_dec (c := os / 65536 ≠ 1) (st := st) (a := [0x1b, 0x24, 0x2a, 0x48].map u8) hs
            (fun h => by
              have h6 : st / 65536 = 1 := h3 (by omega)
              have := cn_eta (st := st)
              rw [h6] at this
              exact this) (fun h => ⟨by simp, rfl⟩) hc
          rw [List.map_append, map_u8_ite]
          have e : [0x1b, 0x4e, a.toNat, b.toNat].map u8 = [u8 0x1b, u8 0x4e, a, b] := by simp [u8_of_toNat]
          rw [e]
          exact this
        · rw [if_neg hp2] at hr; cases hr
      · rw [h5] at hr; cases hr)
    (by
      rintro os st ⟨ho, hs, h1, h2, h3⟩
      refine ⟨cnSt 0 (st / 256 % 256) (st / 65536), ?_, by unfold cnR cnI cnSt at *; omega⟩
      show Chars _ _ ((iso2022_cn_reset os).map u8) _ _
      unfold iso2022_cn_reset
      by_cases h0 : os % 256 ≠ 0
      · rw [if_pos h0]
        exact chars_shift1 (by simp) rfl
      · rw [if_neg h0]
        have h4 : 0 = st % 256 := by omega
        have := cn_eta (st := st)
        rw [← h4] at this
        rw [this]
        exact .nil _)

end Reiconv
