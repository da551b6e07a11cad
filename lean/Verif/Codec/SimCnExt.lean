import Verif.Codec.SimIso
import Verif.Codec.CnExt
import Verif.Gen.TabIr165

/-!
# ISO-2022-CN-EXT texts come back
-/

namespace Reiconv

theorem isoir165_irr_back : ∀ p ∈ isoir165_irr, isoir165_mbtowc.val p.1 = .char p.2 2 := by
  have h : (isoir165_irr.all fun p => decide (isoir165_mbtowc.val p.1 = .char p.2 2)) = true := by decide +kernel
  intro p hp
  exact of_decide_eq_true (List.all_eq_true.1 h p hp)

theorem W.run_res {w : W} (h : W.Good 0 w) {a b : Byte} (hr : w.run 0 2 = .ok (.put [a, b] 0)) : w.res = some [a, b] := by
  rw [W.good_eq w 0 0 2 h] at hr
  split at hr
  · cases hw : w.res with
    | none => rw [hw] at hr; cases hr
    | some bs =>
      rw [hw] at hr
      simp only [WcRes.put, Outcome.ok.injEq, WcRes.mk.injEq] at hr
      rw [hr.2.1]
  · cases hr

theorem isoir165_back : Back isoir165_mbtowc isoir165_wctomb := by
  intro wc a b hr
  have h1 := (isoir165_table.enc_iff wc [a, b]).1 (W.run_res (isoir165_wgood wc) hr)
  have h2 : isoir165_mbtowc.val [a, b] = .char wc 2 := by
    rcases h1 with h | h
    · exact (isoir165_table.dec_iff [a, b] wc 2 (by simp)).2 ⟨by simp, by simpa using h.1⟩
    · exact isoir165_irr_back _ h.2
  rcases isoir165_m2 a b with h | ⟨x, h⟩
  · rw [M.val_of_run h] at h2; cases h2
  · rw [M.val_of_run h] at h2
    cases h2
    exact h

theorem isoir165_row {a b : Byte} {wc : Nat} (hm : isoir165_mbtowc.run [a, b] = .ok (some (.char wc 2))) :
    0x21 ≤ a.toNat ∧ a.toNat < 0x7f := by
  have h : ∀ x : Fin 256, (0x21 ≤ x.val ∧ x.val < 0x7f) ∨ isoir165_mbtowc.run [u8 x.val] = .ok (some (.ilseq 0)) := by
    decide +kernel
  rcases h ⟨a.toNat, UInt8.toNat_lt a⟩ with h | h
  · exact h
  · rw [u8_of_toNat] at h
    have := M.run_ext _ [a] [b] _ h
    rw [show [a] ++ [b] = [a, b] from rfl, hm] at this
    cases this

theorem cx1 {s1 s2 s3 s4 : Nat} (h1 : s1 ≤ 1) (h2 : s2 ≤ 3) (h3 : s3 ≤ 1) : cxSt s1 s2 s3 s4 % 256 = s1 := by unfold cxSt; omega
theorem cx2 {s1 s2 s3 s4 : Nat} (h1 : s1 ≤ 1) (h2 : s2 ≤ 3) (h3 : s3 ≤ 1) : cxSt s1 s2 s3 s4 / 256 % 256 = s2 := by unfold cxSt; omega
theorem cx3 {s1 s2 s3 s4 : Nat} (h1 : s1 ≤ 1) (h2 : s2 ≤ 3) (h3 : s3 ≤ 1) : cxSt s1 s2 s3 s4 / 65536 % 256 = s3 := by unfold cxSt; omega
theorem cx4 {s1 s2 s3 s4 : Nat} (h1 : s1 ≤ 1) (h2 : s2 ≤ 3) (h3 : s3 ≤ 1) : cxSt s1 s2 s3 s4 / 16777216 = s4 := by unfold cxSt; omega
theorem cx_eta {st : Nat} : cxSt (st % 256) (st / 256 % 256) (st / 65536 % 256) (st / 16777216) = st := by unfold cxSt; omega

theorem cx_asc {s2 s3 s4 : Nat} {b : Byte} (i2 : s2 ≤ 3) (i3 : s3 ≤ 1) (h : b.toNat < 0x80) (h1 : NotShift b.toNat) :
    (iso2022_cn_ext_item (cxSt 0 s2 s3 s4)).run [b] =
      .ok (some (.char b.toNat 1 (if b.toNat = 0x0a ∨ b.toNat = 0x0d then cxSt 0 0 0 0 else cxSt 0 s2 s3 s4))) := by
  obtain ⟨h1, h2, h3⟩ := h1
  unfold iso2022_cn_ext_item
  rw [cx1 (by omega) i2 i3, cx2 (by omega) i2 i3, cx3 (by omega) i2 i3, cx4 (by omega) i2 i3]
  dsimp only
  rw [M.run_byte0, if_neg h1, if_neg h2, if_neg h3, if_pos rfl, if_pos h, sOne_char (ascii_run h)]
  rfl

theorem cx_two {s2 s3 s4 wc : Nat} {a b : Byte} {m : M MbRet} (i3 : s3 ≤ 1)
    (hd : s2 = 1 ∧ m = gb2312_dec.mbtowc ∨ s2 = 2 ∧ m = cns11643_1_dec.mbtowc ∨ s2 = 3 ∧ m = isoir165_mbtowc)
    (hb : b.toNat < 0x80) (hm : m.run [a, b] = .ok (some (.char wc 2))) :
    (iso2022_cn_ext_item (cxSt 1 s2 s3 s4)).run [a, b] = .ok (some (.char wc 2 (cxSt 1 s2 s3 s4))) := by
  have i2 : s2 ≤ 3 := by omega
  unfold iso2022_cn_ext_item
  rw [cx1 (by omega) i2 i3, cx2 (by omega) i2 i3, cx3 (by omega) i2 i3, cx4 (by omega) i2 i3]
  dsimp only
  rcases hd with ⟨rfl, rfl⟩ | ⟨rfl, rfl⟩ | ⟨rfl, rfl⟩
  · have := gb2312_row hm
    rw [M.run_byte0, if_neg (by omega), if_neg (by omega), if_neg (by omega), if_neg (by omega), if_pos rfl,
      M.run_need (by simp), M.run_byte1, if_pos (by omega), if_neg (by omega), if_pos rfl, sTwo_char hm]
    rfl
  · have := cns11643_1_row hm
    rw [M.run_byte0, if_neg (by omega), if_neg (by omega), if_neg (by omega), if_neg (by omega), if_pos rfl,
      M.run_need (by simp), M.run_byte1, if_pos (by omega), if_neg (by omega), if_neg (by omega), if_pos rfl, sTwo_char hm]
    rfl
  · have := isoir165_row hm
    rw [M.run_byte0, if_neg (by omega), if_neg (by omega), if_neg (by omega), if_neg (by omega), if_pos rfl,
      M.run_need (by simp), M.run_byte1, if_pos (by omega), if_neg (by omega), if_neg (by omega), if_neg (by omega), if_pos rfl,
      sTwo_char hm]
    rfl

theorem cx_n {s1 s2 s4 wc : Nat} {a b : Byte} (i1 : s1 ≤ 1) (i2 : s2 ≤ 3) (ha : a.toNat < 0x80) (hb : b.toNat < 0x80)
    (hm : cns11643_2_dec.mbtowc.run [a, b] = .ok (some (.char wc 2))) :
    (iso2022_cn_ext_item (cxSt s1 s2 1 s4)).run [u8 0x1b, u8 0x4e, a, b] = .ok (some (.char wc 4 (cxSt s1 s2 1 s4))) := by
  unfold iso2022_cn_ext_item
  rw [cx1 i1 i2 (by omega), cx2 i1 i2 (by omega), cx3 i1 i2 (by omega), cx4 i1 i2 (by omega)]
  dsimp only
  rw [M.run_byte0, if_pos (by decide), M.run_need (by simp), M.run_byte1, M.run_byte2, M.run_byte3]
  have e : (u8 0x4e).toNat = 0x4e := by decide
  rw [e]
  iterate 9 rw [if_neg (by omega)]
  rw [if_pos rfl, if_neg (by omega), if_pos rfl, if_pos ⟨ha, hb⟩, sTwo_char hm]
  rfl

theorem cx_o {s1 s2 s3 s4 wc : Nat} {a b : Byte} (i1 : s1 ≤ 1) (i2 : s2 ≤ 3) (i3 : s3 ≤ 1) (h4 : 1 ≤ s4) (h5 : s4 ≤ 5)
    (ha : a.toNat < 0x80) (hb : b.toNat < 0x80)
    (hm : (cnsPlane (s4 + 2)).run [a, b] = .ok (some (.char wc 2))) :
    (iso2022_cn_ext_item (cxSt s1 s2 s3 s4)).run [u8 0x1b, u8 0x4f, a, b] = .ok (some (.char wc 4 (cxSt s1 s2 s3 s4))) := by
  unfold iso2022_cn_ext_item
  rw [cx1 i1 i2 i3, cx2 i1 i2 i3, cx3 i1 i2 i3, cx4 i1 i2 i3]
  dsimp only
  rw [M.run_byte0, if_pos (by decide), M.run_need (by simp), M.run_byte1, M.run_byte2, M.run_byte3]
  have e : (u8 0x4f).toNat = 0x4f := by decide
  rw [e]
  iterate 10 rw [if_neg (by omega)]
  rw [if_pos rfl]
  unfold cx_ss3
  dsimp only
  have h : s4 = 1 ∨ s4 = 2 ∨ s4 = 3 ∨ s4 = 4 ∨ s4 = 5 := by omega
  rcases h with rfl | rfl | rfl | rfl | rfl
  · rw [if_neg (by omega), if_pos rfl, if_pos ⟨ha, hb⟩]
    rw [sTwo_char (m := cns11643_3_dec.mbtowc) hm]; rfl
  · rw [if_neg (by omega), if_neg (by omega), if_pos rfl, if_pos ⟨ha, hb⟩]
    rw [sTwo_char (m := cns11643_4_dec.mbtowc) hm]; rfl
  · rw [if_neg (by omega), if_neg (by omega), if_neg (by omega), if_pos rfl, if_pos ⟨ha, hb⟩]
    rw [sTwo_char (m := cns11643_5_dec.mbtowc) hm]; rfl
  · rw [if_neg (by omega), if_neg (by omega), if_neg (by omega), if_neg (by omega), if_pos rfl, if_pos ⟨ha, hb⟩]
    rw [sTwo_char (m := cns11643_6_dec.mbtowc) hm]; rfl
  · rw [if_neg (by omega), if_neg (by omega), if_neg (by omega), if_neg (by omega), if_neg (by omega), if_pos rfl, if_pos ⟨ha, hb⟩]
    rw [sTwo_char (m := cns11643_7_dec.mbtowc) hm]; rfl

theorem cx_so {s1 s2 s3 s4 : Nat} (i1 : s1 ≤ 1) (i2 : s2 = 1 ∨ s2 = 2 ∨ s2 = 3) (i3 : s3 ≤ 1) :
    (iso2022_cn_ext_item (cxSt s1 s2 s3 s4)).run [u8 0x0e] = .ok (some (.shift 1 (cxSt 1 s2 s3 s4))) := by
  unfold iso2022_cn_ext_item
  rw [cx1 i1 (by omega) i3, cx2 i1 (by omega) i3, cx3 i1 (by omega) i3, cx4 i1 (by omega) i3]
  dsimp only
  rw [M.run_byte0, if_neg (by decide), if_pos (by decide), if_neg (by omega)]
  rfl

def cxR (os st : Nat) : Prop := cxI os ∧ cxI st ∧ os % 256 = st % 256 ∧
  (os / 256 % 256 ≠ 0 → st / 256 % 256 = os / 256 % 256) ∧ (os / 65536 % 256 = 1 → st / 65536 % 256 = 1) ∧
  (os / 16777216 ≠ 0 → st / 16777216 = os / 16777216)

theorem cx_g1 {os st s2 wc : Nat} {a b : Byte} {m : M MbRet} {f : Nat} {bs : List Byte} {os' : Nat} (hR : cxR os st)
    (hd : s2 = 1 ∧ m = gb2312_dec.mbtowc ∧ f = 0x41 ∨ s2 = 2 ∧ m = cns11643_1_dec.mbtowc ∧ f = 0x47 ∨
      s2 = 3 ∧ m = isoir165_mbtowc ∧ f = 0x45)
    (hb : b.toNat < 0x80) (hm : m.run [a, b] = .ok (some (.char wc 2)))
    (hr : (cxG1 (os % 256) (os / 256 % 256) (os / 65536 % 256) (os / 16777216) s2 f a.toNat b.toNat).res = some (bs, os')) :
    ∃ st', Chars (satom iso2022_cn_ext_dec.item) ⟨0, st⟩ bs [wc] ⟨0, st'⟩ ∧ cxR os' st' := by
  obtain ⟨ho, ⟨i1, i2, i3, i4⟩, h1, h2, h3, h4⟩ := id hR
  have hr : some (((if os / 256 % 256 ≠ s2 then [0x1b, 0x24, 0x29, f] else []) ++ (if os % 256 ≠ 1 then [0x0e] else []) ++ [a.toNat, b.toNat]).map u8,
    cxSt 1 s2 (os / 65536 % 256) (os / 16777216)) = some (bs, os') := hr
  simp only [Option.some.injEq, Prod.mk.injEq] at hr
  obtain ⟨rfl, rfl⟩ := hr
  have hs : 1 ≤ s2 ∧ s2 ≤ 3 := by omega
  refine ⟨cxSt 1 s2 (st / 65536 % 256) (st / 16777216), ?_, by unfold cxR cxI cxSt at *; omega⟩
  have hd' : s2 = 1 ∧ m = gb2312_dec.mbtowc ∨ s2 = 2 ∧ m = cns11643_1_dec.mbtowc ∨ s2 = 3 ∧ m = isoir165_mbtowc := by
    rcases hd with ⟨h, h0, _⟩ | ⟨h, h0, _⟩ | ⟨h, h0, _⟩
    · exact .inl ⟨h, h0⟩
    · exact .inr (.inl ⟨h, h0⟩)
    · exact .inr (.inr ⟨h, h0⟩)
  have hc := chars_char1 (item := iso2022_cn_ext_item) (bo := 0) (s := [a, b]) (by simp)
    (cx_two (s2 := s2) (s3 := st / 65536 % 256) (s4 := st / 16777216) i3 hd' hb hm)
  have c1 := opt_chars iso2022_cn_ext_dec (c := os % 256 ≠ 1) (st := cxSt (st % 256) s2 (st / 65536 % 256) (st / 16777216)) (a := [0x0e].map u8)
    (cxI_cxSt i1 (by omega) i3 i4) (fun h => by rw [← h1, show os % 256 = 1 by omega])
    (fun h => ⟨by simp, cx_so i1 (by omega) i3⟩) hc
  have c2 := opt_chars iso2022_cn_ext_dec (c := os / 256 % 256 ≠ s2) (st := st) (a := [0x1b, 0x24, 0x29, f].map u8)
    ⟨i1, i2, i3, i4⟩ (fun h => by
      have : st / 256 % 256 = s2 := by omega
      rw [← this]; exact cx_eta)
    (fun h => ⟨by simp, by rcases hd with ⟨rfl, _, rfl⟩ | ⟨rfl, _, rfl⟩ | ⟨rfl, _, rfl⟩ <;> rfl⟩) c1
  rw [List.map_append, List.map_append, List.append_assoc, map_u8_ite, map_u8_ite, map_u8_two]
  exact c2

theorem cx_g3 {os st s4 wc : Nat} {a b : Byte} {f : Nat} {bs : List Byte} {os' : Nat} (hR : cxR os st)
    (hd : s4 = 1 ∧ f = 0x49 ∨ s4 = 2 ∧ f = 0x4a ∨ s4 = 3 ∧ f = 0x4b ∨ s4 = 4 ∧ f = 0x4c ∨ s4 = 5 ∧ f = 0x4d)
    (ha : a.toNat < 0x80) (hb : b.toNat < 0x80) (hm : (cnsPlane (s4 + 2)).run [a, b] = .ok (some (.char wc 2)))
    (hr : (cxG3 (os % 256) (os / 256 % 256) (os / 65536 % 256) (os / 16777216) s4 f a.toNat b.toNat).res = some (bs, os')) :
    ∃ st', Chars (satom iso2022_cn_ext_dec.item) ⟨0, st⟩ bs [wc] ⟨0, st'⟩ ∧ cxR os' st' := by
  obtain ⟨ho, ⟨i1, i2, i3, i4⟩, h1, h2, h3, h4⟩ := id hR
  have hr : some (((if os / 16777216 ≠ s4 then [0x1b, 0x24, 0x2b, f] else []) ++ [0x1b, 0x4f, a.toNat, b.toNat]).map u8,
    cxSt (os % 256) (os / 256 % 256) (os / 65536 % 256) s4) = some (bs, os') := hr
  simp only [Option.some.injEq, Prod.mk.injEq] at hr
  obtain ⟨rfl, rfl⟩ := hr
  have hs : 1 ≤ s4 ∧ s4 ≤ 5 := by omega
  refine ⟨cxSt (st % 256) (st / 256 % 256) (st / 65536 % 256) s4, ?_, by unfold cxR cxI cxSt at *; omega⟩
  have hc := chars_char1 (item := iso2022_cn_ext_item) (bo := 0) (s := [u8 0x1b, u8 0x4f, a, b]) (by simp)
    (cx_o (s1 := st % 256) (s2 := st / 256 % 256) (s3 := st / 65536 % 256) (s4 := s4) i1 i2 i3 hs.1 hs.2 ha hb hm)
  have := opt_chars iso2022_cn_ext_dec (c := os / 16777216 ≠ s4) (st := st) (a := [0x1b, 0x24, 0x2b, f].map u8)
    ⟨i1, i2, i3, i4⟩ (fun h => by
      have : st / 16777216 = s4 := by omega
      rw [← this]; exact cx_eta) (fun h => ⟨by simp, by
        rcases hd with ⟨rfl, rfl⟩ | ⟨rfl, rfl⟩ | ⟨rfl, rfl⟩ | ⟨rfl, rfl⟩ | ⟨rfl, rfl⟩ <;> rfl⟩) hc
  rw [List.map_append, map_u8_ite]
  have e : [0x1b, 0x4f, a.toNat, b.toNat].map u8 = [u8 0x1b, u8 0x4f, a, b] := by simp [u8_of_toNat]
  rw [e]
  exact this

theorem cx_ir165 {os st wc : Nat} {bs : List Byte} {os' : Nat} (hR : cxR os st)
    (hr : (SW.try2 (isoir165_wctomb wc) (cxG1 (os % 256) (os / 256 % 256) (os / 65536 % 256) (os / 16777216) 3 0x45) .iluni).res
      = some (bs, os')) :
    ∃ st', Chars (satom iso2022_cn_ext_dec.item) ⟨0, st⟩ bs [wc] ⟨0, st'⟩ ∧ cxR os' st' := by
  rcases SW.try2_cases (isoir165_w2 wc) _ _ with ⟨a, b, h4, ha, hb, h5⟩ | h5
  · rw [h5] at hr
    exact cx_g1 hR (.inr (.inr ⟨rfl, rfl, rfl⟩)) hb (isoir165_back wc a b h4) hr
  · rw [h5] at hr; cases hr

/-- Proof that `iso2022_cn_ext_entry` satisfies the contract `Sim`. -/
def iso2022_cn_ext_sim : Sim iso2022_cn_ext_entry NotShift :=
  Sim.direct ei_iso2022_cn_ext rfl iso2022_cn_ext_dec iso2022_cn_ext_enc rfl (by simp [iso2022_cn_ext_encoder, sencoder])
    cxR (by unfold cxR cxI; omega)
    (by rintro os st ⟨h1, h2, _⟩; exact ⟨h1, h2⟩)
    (by
      rintro os st wc bs os' hR hP hr
      obtain ⟨ho, hs, h1, h2, h3, h4⟩ := id hR
      have hr : (iso2022_cn_ext_wctomb os wc).res = some (bs, os') := hr
      unfold iso2022_cn_ext_wctomb at hr
      dsimp only at hr
      rw [ascii_iluni] at hr
      by_cases hw : wc < 0x80 ∧ wc < 0x80
      · rw [if_pos hw] at hr
        have hu : (u8 wc).toNat = wc := by rw [u8_toNat]; omega
        have hr : some (((if os % 256 ≠ 0 then [0x0f] else []) ++ [wc]).map u8,
          if wc = 0x0a ∨ wc = 0x0d then cxSt 0 0 0 0 else cxSt 0 (os / 256 % 256) (os / 65536 % 256) (os / 16777216)) = some (bs, os') := hr
        simp only [Option.some.injEq, Prod.mk.injEq] at hr
        obtain ⟨rfl, rfl⟩ := hr
        refine ⟨if wc = 0x0a ∨ wc = 0x0d then cxSt 0 0 0 0 else cxSt 0 (st / 256 % 256) (st / 65536 % 256) (st / 16777216), ?_, ?_⟩
        · have hc := chars_char1 (item := iso2022_cn_ext_item) (bo := 0) (s := [u8 wc]) (by simp)
            (cx_asc (s2 := st / 256 % 256) (s3 := st / 65536 % 256) (s4 := st / 16777216) hs.2.1 hs.2.2.1
              (by rw [hu]; exact hw.1) (by rw [hu]; exact hP))
          rw [hu] at hc
          have := opt_chars iso2022_cn_ext_dec (c := os % 256 ≠ 0) (st := st) (a := [0x0f].map u8) hs
            (fun h => by rw [show (0 : Nat) = st % 256 by omega]; exact cx_eta) (fun h => ⟨by simp, rfl⟩) hc
          rw [List.map_append, map_u8_ite]
          exact this
        · unfold cxR cxI cxSt at *
          by_cases hn : wc = 0x0a ∨ wc = 0x0d
          · rw [if_pos hn, if_pos hn]; omega
          · rw [if_neg hn, if_neg hn]; omega
      rw [if_neg hw] at hr
      rcases SW.try2_cases (gb2312_w2 wc) _ _ with ⟨a, b, h4, ha, hb, h5⟩ | h5
      · rw [h5] at hr
        exact cx_g1 hR (.inl ⟨rfl, rfl, rfl⟩) hb (gb2312_back wc a b h4) hr
      rw [h5] at hr
      rcases SW.try3_cases (cns11643_w3 wc) _ _ with ⟨p, a, b, h4, h5⟩ | h5
      · rw [h5] at hr
        have hm := cns11643_back wc p a b h4
        by_cases hp1 : p.toNat = 1 ∧ a.toNat < 0x80 ∧ b.toNat < 0x80
        · rw [if_pos hp1] at hr
          rw [hp1.1] at hm
          exact cx_g1 hR (.inr (.inl ⟨rfl, rfl, rfl⟩)) hp1.2.2 hm hr
        rw [if_neg hp1] at hr
        by_cases hp2 : p.toNat = 2 ∧ a.toNat < 0x80 ∧ b.toNat < 0x80
        · rw [if_pos hp2] at hr
          have hr : some (((if os / 65536 % 256 ≠ 1 then [0x1b, 0x24, 0x2a, 0x48] else []) ++ [0x1b, 0x4e, a.toNat, b.toNat]).map u8,
            cxSt (os % 256) (os / 256 % 256) 1 (os / 16777216)) = some (bs, os') := hr
          simp only [Option.some.injEq, Prod.mk.injEq] at hr
          obtain ⟨rfl, rfl⟩ := hr
          rw [hp2.1] at hm
          refine ⟨cxSt (st % 256) (st / 256 % 256) 1 (st / 16777216), ?_, by unfold cxR cxI cxSt at *; omega⟩
          have hc := chars_char1 (item := iso2022_cn_ext_item) (bo := 0) (s := [u8 0x1b, u8 0x4e, a, b]) (by simp)
            (cx_n (s1 := st % 256) (s2 := st / 256 % 256) (s4 := st / 16777216) hs.1 hs.2.1 hp2.2.1 hp2.2.2 hm)
          have := opt_chars iso2022_cn_ext_dec (c := os / 65536 % 256 ≠ 1) (st := st) (a := [0x1b, 0x24, 0x2a, 0x48].map u8) hs
            (fun h => by
              have h6 : st / 65536 % 256 = 1 := h3 (by omega)
              have := cx_eta (st := st)
              rw [h6] at this
              exact this) (fun h => ⟨by simp, rfl⟩) hc
          rw [List.map_append, map_u8_ite]
          have e : [0x1b, 0x4e, a.toNat, b.toNat].map u8 = [u8 0x1b, u8 0x4e, a, b] := by simp [u8_of_toNat]
          rw [e]
          exact this
        rw [if_neg hp2] at hr
        by_cases hp3 : p.toNat = 3 ∧ a.toNat < 0x80 ∧ b.toNat < 0x80
        · rw [if_pos hp3] at hr
          rw [hp3.1] at hm
          exact cx_g3 (s4 := 1) hR (by omega) hp3.2.1 hp3.2.2 hm hr
        rw [if_neg hp3] at hr
        by_cases hp4 : p.toNat = 4 ∧ a.toNat < 0x80 ∧ b.toNat < 0x80
        · rw [if_pos hp4] at hr
          rw [hp4.1] at hm
          exact cx_g3 (s4 := 2) hR (by omega) hp4.2.1 hp4.2.2 hm hr
        rw [if_neg hp4] at hr
        by_cases hp5 : p.toNat = 5 ∧ a.toNat < 0x80 ∧ b.toNat < 0x80
        · rw [if_pos hp5] at hr
          rw [hp5.1] at hm
          exact cx_g3 (s4 := 3) hR (by omega) hp5.2.1 hp5.2.2 hm hr
        rw [if_neg hp5] at hr
        by_cases hp6 : p.toNat = 6 ∧ a.toNat < 0x80 ∧ b.toNat < 0x80
        · rw [if_pos hp6] at hr
          rw [hp6.1] at hm
          exact cx_g3 (s4 := 4) hR (by omega) hp6.2.1 hp6.2.2 hm hr
        rw [if_neg hp6] at hr
        by_cases hp7 : p.toNat = 7 ∧ a.toNat < 0x80 ∧ b.toNat < 0x80
        · rw [if_pos hp7] at hr
          rw [hp7.1] at hm
          exact cx_g3 (s4 := 5) hR (by omega) hp7.2.1 hp7.2.2 hm hr
        rw [if_neg hp7] at hr
        exact cx_ir165 hR hr
      · rw [h5] at hr
        exact cx_ir165 hR hr)
    (by
      rintro os st ⟨ho, hs, h1, h2, h3, h4⟩
      refine ⟨cxSt 0 (st / 256 % 256) (st / 65536 % 256) (st / 16777216), ?_, by unfold cxR cxI cxSt at *; omega⟩
      show Chars _ _ ((iso2022_cn_ext_reset os).map u8) _ _
      unfold iso2022_cn_ext_reset
      by_cases h0 : os % 256 ≠ 0
      · rw [if_pos h0]
        exact chars_shift1 (by simp) rfl
      · rw [if_neg h0]
        have h4 : 0 = st % 256 := by omega
        have := cx_eta (st := st)
        rw [← h4] at this
        rw [this]
        exact .nil _)

end Reiconv
