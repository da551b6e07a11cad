import Verif.Codec.SimIso
import Verif.Codec.Jp2

/-!
# ISO-2022-JP-2: the decoder follows the encoder
-/

namespace Reiconv

theorem put_one {a : Byte} {x : Nat} (h : Outcome.ok (WcRes.put [u8 x] 0) = Outcome.ok (WcRes.put [a] 0)) : u8 x = a := by
  simp only [WcRes.put, Outcome.ok.injEq, WcRes.mk.injEq, List.cons.injEq, and_true] at h
  exact h.2

/-- ISO-8859-1: what is written is read. -/
theorem iso8859_1_back {wc : Nat} {a : Byte} (h : (iso8859_1_w wc).run 0 1 = .ok (.put [a] 0)) :
    iso8859_1_m.run [a] = .ok (some (.char wc 1)) := by
  unfold iso8859_1_w at h
  by_cases hw : wc < 0x100
  · rw [if_pos hw] at h
    rw [← put_one h]
    show Outcome.ok (some (MbRet.char (u8 wc).toNat 1)) = _
    rw [u8_toNat, Nat.mod_eq_of_lt hw]
  · rw [if_neg hw] at h; cases h

theorem iso8859_7_cov : covF (fun wc => Nat.rec true (fun b _ => Nat.beq (decF iso8859_7_d b) (Nat.succ wc))
    (encF iso8859_7_e wc)) iso8859_7_e = true := by
  decide +kernel

/-- ISO-8859-7: what is written is read. -/
theorem iso8859_7_back {wc : Nat} {a : Byte} (h : (iso8859_7_w wc).run 0 1 = .ok (.put [a] 0)) :
    iso8859_7_m.run [a] = .ok (some (.char wc 1)) := by
  unfold iso8859_7_w at h
  obtain ⟨e1, e2⟩ := sbEncode_fast (rs := iso8859_7_e) (by decide) wc
  rw [e1] at h
  cases hx : encF iso8859_7_e wc with
  | zero => rw [hx] at h; cases h
  | succ b =>
    rw [hx] at h e2
    have ha : u8 b = a := put_one h
    obtain ⟨r, hr, hl, hh⟩ := encF_covered (rs := iso8859_7_e) (c := wc) (by omega)
    have hc := (covF_iff _ _).1 iso8859_7_cov r hr wc hl hh
    rw [hx] at hc
    have hd : decF iso8859_7_d b = wc + 1 := Nat.eq_of_beq_eq_true hc
    unfold iso8859_7_m
    rw [M.run_byte0, sbDecode_fast (by decide), ← ha, u8_toNat, Nat.mod_eq_of_lt (by omega), hd]
    rfl

/-- The Kana half of JIS X 0201. -/
theorem jp2_kana_back {wc : Nat} {a : Byte} (h : (jisx0201_w wc).run 0 1 = .ok (.put [a] 0)) (ha : 0x80 ≤ a.toNat) :
    jisx0201_m.run [a] = .ok (some (.char wc 1)) ∧ 0xa1 ≤ a.toNat ∧ a.toNat < 0xe0 := by
  unfold jisx0201_w at h
  by_cases h0 : wc < 0x80 ∧ ¬ (wc = 0x5c ∨ wc = 0x7e)
  · rw [if_pos h0] at h
    rw [← put_one h, u8_toNat] at ha
    omega
  rw [if_neg h0] at h
  by_cases h1 : wc = 0xa5
  · rw [if_pos h1] at h
    rw [← put_one h] at ha
    exact absurd ha (by decide)
  rw [if_neg h1] at h
  by_cases h2 : wc = 0x203e
  · rw [if_pos h2] at h
    rw [← put_one h] at ha
    exact absurd ha (by decide)
  rw [if_neg h2] at h
  by_cases h3 : wc ≥ 0xff61 ∧ wc < 0xffa0
  · rw [if_pos h3] at h
    obtain ⟨x, rfl⟩ : ∃ x, wc = 0xff61 + x := ⟨wc - 0xff61, by omega⟩
    have e : 0xff61 + x - 0xfec0 = 0xa1 + x := by omega
    rw [e] at h
    have ha' : a.toNat = 0xa1 + x := by rw [← put_one h, u8_toNat]; omega
    refine ⟨?_, by omega, by omega⟩
    unfold jisx0201_m
    rw [M.run_byte0, ha', if_neg (by omega), if_pos (by omega)]
    have e2 : 0xa1 + x + 0xfec0 = 0xff61 + x := by omega
    simp only [M.run, e2]
  · rw [if_neg h3] at h; cases h

theorem jp2_1 {s1 s2 : Nat} (h1 : s1 ≤ 6) : jp2St s1 s2 % 256 = s1 := by unfold jp2St; omega
theorem jp2_2 {s1 s2 : Nat} (h1 : s1 ≤ 6) : jp2St s1 s2 / 256 = s2 := by unfold jp2St; omega

/-- Reading a character that is not written with an escape character. -/
theorem jp2_one {s1 s2 wc : Nat} {b : Byte} (h0 : s1 = 0 ∧ b.toNat = wc ∨ s1 = 1 ∧ jisx0201_m.run [b] = .ok (some (.char wc 1)))
    (h : b.toNat < 0x80) (h1 : b.toNat ≠ 0x1b) :
    (iso2022_jp2_item (jp2St s1 s2)).run [b] =
      .ok (some (.char wc 1 (if wc = 0x0a ∨ wc = 0x0d then jp2St s1 0 else jp2St s1 s2))) := by
  unfold iso2022_jp2_item
  rcases h0 with ⟨rfl, rfl⟩ | ⟨rfl, hm⟩
  · rw [jp2_1 (by omega), jp2_2 (by omega)]
    dsimp only
    rw [M.run_byte0, if_neg h1, if_pos rfl, if_pos h, sOne_char (ascii_run h)]
    rfl
  · rw [jp2_1 (by omega), jp2_2 (by omega)]
    dsimp only
    rw [M.run_byte0, if_neg h1, if_neg (by omega), if_pos rfl, if_pos h, sOne_char hm]
    rfl

theorem jp2_kana {s2 wc : Nat} {a b : Byte} (h : a.toNat = b.toNat + 0x80) (h1 : b.toNat ≠ 0x1b)
    (hm : jisx0201_m.run [a] = .ok (some (.char wc 1))) :
    (iso2022_jp2_item (jp2St 2 s2)).run [b] = .ok (some (.char wc 1 (jp2St 2 s2))) := by
  have := a.toNat_lt
  unfold iso2022_jp2_item
  rw [jp2_1 (by omega), jp2_2 (by omega)]
  dsimp only
  rw [M.run_byte0, if_neg h1, if_neg (by omega), if_neg (by omega), if_pos rfl, if_pos (by omega), ← h, sOne_char hm]
  rfl

theorem jp2_two {s1 s2 wc : Nat} {a b : Byte} {d : CsDec}
    (hd : s1 = 3 ∧ d = jisx0208_dec ∨ s1 = 4 ∧ d = jisx0212_dec ∨ s1 = 5 ∧ d = gb2312_dec ∨ s1 = 6 ∧ d = ksc5601_dec)
    (hb : b.toNat < 0x80) (hm : d.mbtowc.run [a, b] = .ok (some (.char wc 2))) :
    (iso2022_jp2_item (jp2St s1 s2)).run [a, b] = .ok (some (.char wc 2 (jp2St s1 s2))) := by
  unfold iso2022_jp2_item
  rw [jp2_1 (by omega), jp2_2 (by omega)]
  dsimp only
  rcases hd with ⟨rfl, rfl⟩ | ⟨rfl, rfl⟩ | ⟨rfl, rfl⟩ | ⟨rfl, rfl⟩
  · have := jisx0208_row hm
    rw [M.run_byte0, if_neg (by omega), if_neg (by omega), if_neg (by omega), if_neg (by omega), if_pos rfl]
    exact sPair_run (by omega) hb hm
  · have := jisx0212_row hm
    rw [M.run_byte0, if_neg (by omega), if_neg (by omega), if_neg (by omega), if_neg (by omega), if_neg (by omega), if_pos rfl]
    exact sPair_run (by omega) hb hm
  · have := gb2312_row hm
    rw [M.run_byte0, if_neg (by omega), if_neg (by omega), if_neg (by omega), if_neg (by omega), if_neg (by omega),
      if_neg (by omega), if_pos rfl]
    exact sPair_run (by omega) hb hm
  · have := ksc5601_row hm
    rw [M.run_byte0, if_neg (by omega), if_neg (by omega), if_neg (by omega), if_neg (by omega), if_neg (by omega),
      if_neg (by omega), if_neg (by omega), if_pos rfl]
    exact sPair_run (by omega) hb hm

theorem jp2_g2 {s1 s2 wc : Nat} {a b : Byte} {m : M MbRet} (h1 : s1 ≤ 6)
    (hd : s2 = 1 ∧ m = iso8859_1_m ∨ s2 = 2 ∧ m = iso8859_7_m)
    (h : a.toNat = b.toNat + 0x80) (hm : m.run [a] = .ok (some (.char wc 1))) :
    (iso2022_jp2_item (jp2St s1 s2)).run [u8 0x1b, u8 0x4e, b] = .ok (some (.char wc 3 (jp2St s1 s2))) := by
  have := a.toNat_lt
  have e : (u8 0x4e).toNat = 0x4e := by decide
  unfold iso2022_jp2_item
  rw [jp2_1 h1, jp2_2 h1]
  dsimp only
  rw [M.run_byte0, if_pos (by decide), M.run_need (by simp), M.run_byte1, M.run_byte2, e, if_neg (by omega),
    if_neg (by omega), if_neg (by omega), if_pos rfl]
  unfold jp2_ss2
  rcases hd with ⟨rfl, rfl⟩ | ⟨rfl, rfl⟩
  · rw [if_neg (by omega), if_pos rfl, if_pos (by omega), ← h, sOne_char hm]
    rfl
  · rw [if_neg (by omega), if_neg (by omega), if_pos rfl, if_pos (by omega), ← h, sOne_char hm]
    rfl

/-- What is said of a character that has been written: `s1`, `t2` are the states of the decoder. -/
def Jp2Wrote (s1 t2 s3 wc : Nat) (bs : List Byte) (os' : Nat) : Prop :=
  ∃ u1 u2 v2, os' = cnSt u1 u2 s3 ∧ Chars (satom iso2022_jp2_dec.item) ⟨0, jp2St s1 t2⟩ bs [wc] ⟨0, jp2St u1 v2⟩ ∧
    u1 ≤ 6 ∧ u2 ≤ 2 ∧ v2 ≤ 2 ∧ (u2 ≠ 0 → v2 = u2)

theorem Jp2Wrote.g0 {s1 t2 s3 k wc u2 v2 os' : Nat} {esc : List Nat} {b bs : List Byte} (h1 : s1 ≤ 6) (h2 : t2 ≤ 2)
    (hk : k ≤ 6) (hu : u2 ≤ 2) (hv : v2 ≤ 2) (huv : u2 ≠ 0 → v2 = u2)
    (he : esc ≠ []) (hr : (iso2022_jp2_item (jp2St s1 t2)).run (esc.map u8) = .ok (some (.shift esc.length (jp2St k t2))))
    (hb : Chars (satom iso2022_jp2_dec.item) ⟨0, jp2St k t2⟩ b [wc] ⟨0, jp2St k v2⟩)
    (h : some (((if s1 ≠ k then esc else []).map u8) ++ b, cnSt k u2 s3) = some (bs, os')) :
    Jp2Wrote s1 t2 s3 wc bs os' := by
  simp only [Option.some.injEq, Prod.mk.injEq] at h
  obtain ⟨rfl, rfl⟩ := h
  refine ⟨k, u2, v2, rfl, ?_, hk, hu, hv, huv⟩
  rw [map_u8_ite]
  exact opt_chars iso2022_jp2_dec (jp2DI_st h1 h2) (fun h => by rw [show s1 = k by omega])
    (fun _ => ⟨by simpa using he, by rw [List.length_map]; exact hr⟩) hb

theorem Jp2Wrote.two {s1 s2 t2 s3 k wc count os' : Nat} {esc : List Nat} {a b : Byte} {bs : List Byte} {d : CsDec}
    (h1 : s1 ≤ 6) (h2 : s2 ≤ 2) (h3 : t2 ≤ 2) (h4 : s2 ≠ 0 → t2 = s2)
    (hd : k = 3 ∧ d = jisx0208_dec ∨ k = 4 ∧ d = jisx0212_dec ∨ k = 5 ∧ d = gb2312_dec ∨ k = 6 ∧ d = ksc5601_dec)
    (he : esc ≠ []) (hr : (iso2022_jp2_item (jp2St s1 t2)).run (esc.map u8) = .ok (some (.shift esc.length (jp2St k t2))))
    (hb : b.toNat < 0x80) (hm : d.mbtowc.run [a, b] = .ok (some (.char wc 2)))
    (h : (jp2Two s1 s2 s3 k esc count a.toNat b.toNat).res = some (bs, os')) : Jp2Wrote s1 t2 s3 wc bs os' := by
  refine Jp2Wrote.g0 (k := k) (u2 := s2) (v2 := t2) h1 h3 (by omega) h2 h3 h4 he hr
    (chars_char1 (s := [a, b]) (by simp) (jp2_two hd hb hm)) ?_
  rw [← h]
  show _ = some (List.map u8 _, _)
  rw [List.map_append, map_u8_two]

theorem Jp2Wrote.gr {s1 s2 t2 s3 k f wc os' : Nat} {a : Byte} {bs : List Byte} {m : M MbRet}
    (h1 : s1 ≤ 6) (h3 : t2 ≤ 2) (h4 : s2 ≠ 0 → t2 = s2) (ha : 0x80 ≤ a.toNat)
    (hd : k = 1 ∧ m = iso8859_1_m ∨ k = 2 ∧ m = iso8859_7_m)
    (hr : (iso2022_jp2_item (jp2St s1 t2)).run ([0x1b, 0x2e, f].map u8) = .ok (some (.shift 3 (jp2St s1 k))))
    (hm : m.run [a] = .ok (some (.char wc 1)))
    (h : (jp2G2 s1 s2 s3 k f a.toNat).res = some (bs, os')) : Jp2Wrote s1 t2 s3 wc bs os' := by
  have h : some (((if s2 ≠ k then [0x1b, 0x2e, f] else []) ++ [0x1b, 0x4e, a.toNat - 0x80]).map u8, cnSt s1 k s3) =
    some (bs, os') := h
  simp only [Option.some.injEq, Prod.mk.injEq] at h
  obtain ⟨rfl, rfl⟩ := h
  refine ⟨s1, k, k, rfl, ?_, h1, by omega, by omega, fun _ => rfl⟩
  rw [List.map_append, map_u8_ite]
  have hl := a.toNat_lt
  exact opt_chars iso2022_jp2_dec (jp2DI_st h1 h3) (fun h => by rw [h4 (by omega), show s2 = k by omega])
    (fun _ => ⟨by simp, hr⟩)
    (chars_char1 (s := [u8 0x1b, u8 0x4e, u8 (a.toNat - 0x80)]) (by simp) (jp2_g2 h1 hd (by rw [u8_toNat]; omega) hm))

theorem Jp2Wrote.attempt {s1 s2 t2 s3 wc code os' : Nat} {rest : SW} {bs : List Byte} (h1 : s1 ≤ 6) (h2 : s2 ≤ 2)
    (h3 : t2 ≤ 2) (h4 : s2 ≠ 0 → t2 = s2) (hw : ¬ wc < 0x80)
    (h : (jp2_try s1 s2 s3 wc code rest).res = some (bs, os')) :
    Jp2Wrote s1 t2 s3 wc bs os' ∨ rest.res = some (bs, os') := by
  unfold jp2_try at h
  by_cases c1 : code = 1
  · rw [if_pos c1] at h
    rcases SW.try1_cases (iso8859_1_w_one wc) (fun b => b ≥ 0x80) _ _ with ⟨a, g1, g2, g3⟩ | g3
    · rw [g3] at h
      exact .inl (.gr h1 h3 h4 g2 (.inl ⟨rfl, rfl⟩) (by unfold iso2022_jp2_item; rw [jp2_1 h1, jp2_2 h1]; rfl) (iso8859_1_back g1) h)
    rw [g3] at h
    rcases SW.try1_cases (iso8859_7_w_one wc) (fun b => b ≥ 0x80) _ _ with ⟨a, g1, g2, g3⟩ | g3
    · rw [g3] at h
      exact .inl (.gr h1 h3 h4 g2 (.inr ⟨rfl, rfl⟩) (by unfold iso2022_jp2_item; rw [jp2_1 h1, jp2_2 h1]; rfl) (iso8859_7_back g1) h)
    rw [g3] at h
    exact .inr h
  rw [if_neg c1] at h
  by_cases c2 : code = 2
  · rw [if_pos c2] at h
    rcases SW.try1_cases (jisx0201_w_one wc) (fun b => b < 0x80) _ _ with ⟨a, g1, g2, g3⟩ | g3
    · rw [g3] at h
      obtain ⟨hm, ha⟩ := jisx0201_back g1 g2 hw
      have hn : ¬ (wc = 0x0a ∨ wc = 0x0d) := by omega
      have hb := jp2_one (s2 := t2) (.inr ⟨rfl, hm⟩) g2 (by omega)
      rw [if_neg hn] at hb
      refine .inl (Jp2Wrote.g0 (k := 1) (u2 := s2) (v2 := t2) (esc := [0x1b, 0x28, 0x4a]) h1 h3 (by omega) h2 h3 h4
        (by simp) (by unfold iso2022_jp2_item; rw [jp2_1 h1, jp2_2 h1]; rfl) (chars_char1 (s := [a]) (by simp) hb) ?_)
      rw [← h, if_neg hn]
      show _ = some (List.map u8 _, _)
      rw [List.map_append, List.map_cons, List.map_nil, u8_of_toNat]
    rw [g3] at h
    rcases SW.try2_cases (jisx0208_w2 wc) _ _ with ⟨a, b, g1, ga, gb, g3⟩ | g3
    · rw [g3] at h
      exact .inl (.two h1 h2 h3 h4 (.inl ⟨rfl, rfl⟩) (by simp) (by unfold iso2022_jp2_item; rw [jp2_1 h1, jp2_2 h1]; rfl) gb (jisx0208_back wc a b g1) h)
    rw [g3] at h
    rcases SW.try2_cases (jisx0212_w2 wc) _ _ with ⟨a, b, g1, ga, gb, g3⟩ | g3
    · rw [g3] at h
      exact .inl (.two h1 h2 h3 h4 (.inr (.inl ⟨rfl, rfl⟩)) (by simp) (by unfold iso2022_jp2_item; rw [jp2_1 h1, jp2_2 h1]; rfl) gb (jisx0212_back wc a b g1) h)
    rw [g3] at h
    exact .inr h
  rw [if_neg c2] at h
  by_cases c3 : code = 3
  · rw [if_pos c3] at h
    rcases SW.try2_cases (gb2312_w2 wc) _ _ with ⟨a, b, g1, ga, gb, g3⟩ | g3
    · rw [g3] at h
      exact .inl (.two h1 h2 h3 h4 (.inr (.inr (.inl ⟨rfl, rfl⟩))) (by simp) (by unfold iso2022_jp2_item; rw [jp2_1 h1, jp2_2 h1]; rfl) gb (gb2312_back wc a b g1) h)
    rw [g3] at h
    exact .inr h
  rw [if_neg c3] at h
  by_cases c4 : code = 4
  · rw [if_pos c4] at h
    rcases SW.try2_cases (ksc5601_w2 wc) _ _ with ⟨a, b, g1, ga, gb, g3⟩ | g3
    · rw [g3] at h
      exact .inl (.two h1 h2 h3 h4 (.inr (.inr (.inr ⟨rfl, rfl⟩))) (by simp) (by unfold iso2022_jp2_item; rw [jp2_1 h1, jp2_2 h1]; rfl) gb (ksc5601_back wc a b g1) h)
    rw [g3] at h
    exact .inr h
  rw [if_neg c4] at h
  by_cases c5 : code = 5
  · rw [if_pos c5] at h
    rcases SW.try1_cases (jisx0201_w_one wc) (fun b => b ≥ 0x80) _ _ with ⟨a, g1, g2, g3⟩ | g3
    · rw [g3] at h
      obtain ⟨hm, ha, ha'⟩ := jp2_kana_back g1 g2
      have hu : (u8 (a.toNat - 0x80)).toNat = a.toNat - 0x80 := by rw [u8_toNat]; omega
      have hb := jp2_kana (s2 := t2) (a := a) (b := u8 (a.toNat - 0x80)) (by omega) (by omega) hm
      refine .inl (Jp2Wrote.g0 (k := 2) (u2 := s2) (v2 := t2) (esc := [0x1b, 0x28, 0x49]) h1 h3 (by omega) h2 h3 h4
        (by simp) (by unfold iso2022_jp2_item; rw [jp2_1 h1, jp2_2 h1]; rfl) (chars_char1 (s := [u8 (a.toNat - 0x80)]) (by simp) hb) ?_)
      rw [← h]
      show _ = some (List.map u8 _, _)
      rw [List.map_append, List.map_cons, List.map_nil]
    rw [g3] at h
    exact .inr h
  rw [if_neg c5] at h
  cases h

/-- The states of the encoder and of the decoder that has read what has been written. -/
def jp2R (os st : Nat) : Prop := jp2EI os ∧ jp2DI st ∧ os % 256 = st % 256 ∧
  (os / 256 % 256 ≠ 0 → st / 256 = os / 256 % 256)

theorem Jp2Wrote.step {s1 t2 s3 wc os' : Nat} {bs : List Byte} (h3 : s3 ≤ 7) (h : Jp2Wrote s1 t2 s3 wc bs os') :
    ∃ st', Chars (satom iso2022_jp2_dec.item) ⟨0, jp2St s1 t2⟩ bs [wc] ⟨0, st'⟩ ∧ jp2R os' st' := by
  obtain ⟨u1, u2, v2, rfl, hc, g1, g2, g3, g4⟩ := h
  exact ⟨_, hc, by unfold jp2R jp2EI jp2DI cnSt jp2St; omega⟩

theorem jp2_char_wrote {s1 s2 t2 s3 wc os' : Nat} {bs : List Byte} (h1 : s1 ≤ 6) (h2 : s2 ≤ 2) (h3 : s3 ≤ 3)
    (h5 : t2 ≤ 2) (h4 : s2 ≠ 0 → t2 = s2) (hP : wc ≠ 0x1b) (h : (jp2_char s1 s2 s3 wc).res = some (bs, os')) :
    Jp2Wrote s1 t2 s3 wc bs os' := by
  rw [jp2_char_eq h3, ascii_iluni] at h
  by_cases hw : wc < 0x80 ∧ wc < 0x80
  · rw [if_pos hw] at h
    have hu : (u8 wc).toNat = wc := by rw [u8_toNat]; omega
    have hb := jp2_one (s2 := t2) (wc := wc) (b := u8 wc) (.inl ⟨rfl, hu⟩) (by omega) (by omega)
    by_cases hn : wc = 0x0a ∨ wc = 0x0d
    · rw [if_pos hn] at hb
      refine Jp2Wrote.g0 (k := 0) (u2 := 0) (v2 := 0) (esc := [0x1b, 0x28, 0x42]) h1 h5 (by omega) (by omega) (by omega)
        (fun _ => rfl) (by simp) (by unfold iso2022_jp2_item; rw [jp2_1 h1, jp2_2 h1]; rfl)
        (chars_char1 (s := [u8 wc]) (by simp) hb) ?_
      rw [← h, if_pos hn]
      show _ = some (List.map u8 _, _)
      rw [List.map_append, List.map_cons, List.map_nil]
    · rw [if_neg hn] at hb
      refine Jp2Wrote.g0 (k := 0) (u2 := s2) (v2 := t2) (esc := [0x1b, 0x28, 0x42]) h1 h5 (by omega) h2 h5
        h4 (by simp) (by unfold iso2022_jp2_item; rw [jp2_1 h1, jp2_2 h1]; rfl)
        (chars_char1 (s := [u8 wc]) (by simp) hb) ?_
      rw [← h, if_neg hn]
      show _ = some (List.map u8 _, _)
      rw [List.map_append, List.map_cons, List.map_nil]
  rw [if_neg hw] at h
  generalize jp2_order s3 = l at h
  induction l with
  | nil => cases h
  | cons c l ih =>
    rcases Jp2Wrote.attempt h1 h2 h5 h4 (by omega) h with g | g
    · exact g
    · exact ih g

theorem jp2_eta {st : Nat} : jp2St (st % 256) (st / 256) = st := by unfold jp2St; omega

/-- Proof that `iso2022_jp2_entry` satisfies the contract `Sim`. -/
def iso2022_jp2_sim : Sim iso2022_jp2_entry NotEsc :=
  Sim.directTag ei_iso2022_jp2 rfl iso2022_jp2_dec iso2022_jp2_enc rfl (by simp [iso2022_jp2_encoder, sencoder])
    jp2R (by unfold jp2R jp2EI jp2DI; omega)
    (by rintro os st ⟨h1, h2, _⟩; exact ⟨h1, h2⟩)
    (by
      rintro os st wc bs os' ⟨ho, hs, h1, h2⟩ hP hr ht
      have hr : (iso2022_jp2_wctomb os wc).res = some (bs, os') := hr
      unfold iso2022_jp2_wctomb at hr
      dsimp only at hr
      by_cases hx : wc / 128 = 0xe0000 / 128
      · rw [if_pos hx] at hr
        have hr : some (([] : List Byte), cnSt (os % 256) (os / 256 % 256) (jp2_tag (os / 65536) wc)) = some (bs, os') := hr
        simp only [Option.some.injEq, Prod.mk.injEq] at hr
        exact absurd hr.1.symm (ht ((isTag_iff wc).1 hx))
      rw [if_neg hx] at hr
      obtain ⟨i1, i2, i3⟩ := ho
      have hlt : (if os / 65536 ≥ 4 then 0 else os / 65536) ≤ 3 := by split <;> omega
      have := Jp2Wrote.step (by omega) (jp2_char_wrote (t2 := st / 256) i1 i2 hlt hs.2 h2 hP hr)
      rw [h1, jp2_eta] at this
      exact this)
    (by
      rintro os st ⟨ho, hs, h1, h2⟩
      refine ⟨jp2St 0 (st / 256), ?_, by unfold jp2R jp2EI jp2DI jp2St at *; omega⟩
      show Chars _ _ ((iso2022_jp2_reset os).map u8) _ _
      unfold iso2022_jp2_reset
      by_cases h0 : os % 256 ≠ 0
      · rw [if_pos h0]
        exact chars_shift1 (by simp) rfl
      · rw [if_neg h0]
        have h4 : 0 = st % 256 := by omega
        rw [h4, jp2_eta]
        exact .nil _)

end Reiconv
