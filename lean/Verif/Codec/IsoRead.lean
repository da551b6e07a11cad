import Verif.Iso2022
import Verif.Codec.SimIso
import Verif.Codec.SimCnExt
import Verif.Codec.SimJp3

/-!
# The decoders of the ISO-2022 encodings follow the specification: tools
-/

namespace Reiconv.Iso

/-! ## The character sets -/

theorem two_mem {m : M MbRet} {w : Nat → W} {T irr : List (List Byte × Nat)} (ht : TableOK m w T irr) (h2 : M.Two m)
    {b : List Byte} {wc : Nat} : (b, wc) ∈ T ↔ ∃ x y, b = [x, y] ∧ m.run [x, y] = .ok (some (.char wc 2)) := by
  have key : ∀ (x y : Byte) n c, m.val [x, y] = .char c n → n = 2 ∧ m.run [x, y] = .ok (some (.char c 2)) := by
    intro x y n c h
    rcases h2 x y with h3 | ⟨z, h3⟩
    · rw [M.val_of_run h3] at h; cases h
    · rw [M.val_of_run h3] at h
      cases h
      exact ⟨rfl, h3⟩
  constructor
  · intro h
    match b, h with
    | [], h =>
      have := (ht.dec_iff [0, 0] wc 0 (by simp)).2 ⟨by simp, h⟩
      have := (key _ _ _ _ this).1
      omega
    | [x], h =>
      have := (ht.dec_iff [x, 0] wc 1 (by simp)).2 ⟨by simp, h⟩
      have := (key _ _ _ _ this).1
      omega
    | [x, y], h =>
      have := (ht.dec_iff [x, y] wc 2 (by simp)).2 ⟨by simp, h⟩
      exact ⟨x, y, rfl, (key _ _ _ _ this).2⟩
    | x :: y :: z :: t, h =>
      have h3 := (ht.dec_iff (x :: y :: z :: t) wc (t.length + 3) (by simp)).2 ⟨by simp, by simpa using h⟩
      rcases h2 x y with h4 | ⟨c, h4⟩
      · have := M.run_ext _ [x, y] (z :: t) _ h4
        rw [show [x, y] ++ z :: t = x :: y :: z :: t from rfl] at this
        rw [M.val_of_run this] at h3
        cases h3
      · have := M.run_ext _ [x, y] (z :: t) _ h4
        rw [show [x, y] ++ z :: t = x :: y :: z :: t from rfl] at this
        rw [M.val_of_run this] at h3
        simp only [MbRet.char.injEq] at h3
        omega
  · rintro ⟨x, y, rfl, h⟩
    have := (ht.dec_iff [x, y] wc 2 (by simp)).1 (M.val_of_run h)
    simpa using this.2

/-- A set with the function `m`: the bytes are two bytes below 0x80. -/
structure Two (x : Set) (m : M MbRet) : Prop where
  two : M.Two m
  chars : ∀ b w, x.Chars b w ↔ ∃ p q wc, b = [p, q] ∧ w = [wc] ∧ m.run [p, q] = .ok (some (.char wc 2))
  low : ∀ p q wc, m.run [p, q] = .ok (some (.char wc 2)) → Graphic p ∧ Graphic q

theorem two_chars {m : M MbRet} {w : Nat → W} {T irr : List (List Byte × Nat)} (ht : TableOK m w T irr) (h2 : M.Two m)
    (name : String) (entry : Entry) (b : List Byte) (ws : List Nat) : Listed ⟨name, entry, T, irr⟩ b ws ↔
    ∃ p q wc, b = [p, q] ∧ ws = [wc] ∧ m.run [p, q] = .ok (some (.char wc 2)) := by
  constructor
  · rintro ⟨wc, h, rfl⟩
    obtain ⟨x, y, rfl, h'⟩ := (two_mem ht h2).1 h
    exact ⟨x, y, wc, rfl, rfl, h'⟩
  · rintro ⟨p, q, wc, rfl, rfl, h⟩
    exact ⟨wc, (two_mem ht h2).2 ⟨p, q, rfl, h⟩, rfl⟩

theorem spanFind_range {lo hi : Nat} : ∀ (l : List Span) (c x : Nat), (l.all fun r => lo ≤ r.lo && r.hi ≤ hi) = true →
    spanFind l c = some x → lo ≤ c ∧ c < hi := by
  intro l c x
  induction l with
  | nil => intro _ h; cases h
  | cons s l ih =>
    intro h1 h2
    simp only [List.all_cons, Bool.and_eq_true, decide_eq_true_eq] at h1
    simp only [spanFind] at h2
    by_cases hc : s.lo ≤ c ∧ c < s.hi
    · omega
    · rw [if_neg hc] at h2
      exact ih h1.2 h2

/-- First and second bytes in the range 0x21..0x7e. -/
theorem CsDec.cell {d : CsDec} (h1 : (d.rows.all fun r => 0x21 ≤ r.lo && r.hi ≤ 0x7f) = true)
    (h2 : (d.cols.all fun r => 0x21 ≤ r.lo && r.hi ≤ 0x7f) = true) {a b : Byte} {wc n : Nat}
    (hr : d.mbtowc.run [a, b] = .ok (some (.char wc n))) :
    (0x21 ≤ a.toNat ∧ a.toNat < 0x7f) ∧ 0x21 ≤ b.toNat ∧ b.toNat < 0x7f := by
  refine ⟨CsDec.row h1 hr, ?_⟩
  unfold CsDec.mbtowc at hr
  rw [M.run_byte0] at hr
  cases hx : spanFind d.rows a.toNat with
  | none => rw [hx] at hr; cases hr
  | some x =>
    rw [hx] at hr
    simp only at hr
    rw [M.run_need (by simp), M.run_byte1] at hr
    cases hy : spanFind d.cols b.toNat with
    | none => rw [hy] at hr; cases hr
    | some y => exact spanFind_range _ _ _ h2 hy

theorem jisx0208_two : Two .jisx0208 jisx0208_dec.mbtowc where
  two := CsDec.two jisx0208_dec_safe
  chars := two_chars jisx0208_table (CsDec.two jisx0208_dec_safe) _ _
  low := fun _ _ _ h => CsDec.cell (by decide) (by decide) h

theorem jisx0212_two : Two .jisx0212 jisx0212_dec.mbtowc where
  two := CsDec.two jisx0212_dec_safe
  chars := two_chars jisx0212_table (CsDec.two jisx0212_dec_safe) _ _
  low := fun _ _ _ h => CsDec.cell (by decide) (by decide) h

theorem gb2312_two : Two .gb2312 gb2312_dec.mbtowc where
  two := CsDec.two gb2312_dec_safe
  chars := two_chars gb2312_table (CsDec.two gb2312_dec_safe) _ _
  low := fun _ _ _ h => CsDec.cell (by decide) (by decide) h

theorem ksc5601_two : Two .ksc5601 ksc5601_dec.mbtowc where
  two := CsDec.two ksc5601_dec_safe
  chars := two_chars ksc5601_table (CsDec.two ksc5601_dec_safe) _ _
  low := fun _ _ _ h => CsDec.cell (by decide) (by decide) h


theorem andThen_char {f : MbRet → M MbRet} {m : M MbRet} {s : List Byte} {r : MbRet}
    (h : (m.andThen f).run s = .ok (some r)) : ∃ a, m.run s = .ok (some a) ∧ (f a).run s = .ok (some r) :=
  run_andThen_some h

theorem isoir165_low {a b : Byte} {wc : Nat} (h : isoir165_mbtowc.run [a, b] = .ok (some (.char wc 2))) :
    Graphic a ∧ Graphic b := by
  refine ⟨isoir165_row h, ?_⟩
  have hr : ∀ {x}, isoir165_rest.run [a, b] = .ok (some (.char x 2)) → Graphic b := by
    intro x h
    unfold isoir165_rest at h
    obtain ⟨r, h1, h2⟩ := andThen_char h
    by_cases hc : r.code ≠ RET_ILSEQ
    · rw [if_pos hc] at h2
      cases h2
      exact (gb2312_two.low a b x h1).2
    · rw [if_neg hc, M.run_byte0] at h2
      by_cases h3 : a.toNat = 0x2a
      · rw [if_pos h3] at h2
        unfold isoir165_row2a at h2
        rw [M.run_need (by simp), M.run_byte1] at h2
        by_cases h4 : b.toNat ≥ 0x21 ∧ b.toNat < 0x7f
        · exact h4
        · rw [if_neg h4] at h2; cases h2
      · rw [if_neg h3] at h2
        exact (CsDec.cell (d := isoir165ext_dec) (by decide) (by decide) h2).2
  unfold isoir165_mbtowc at h
  rw [M.run_byte0] at h
  by_cases h1 : a.toNat = 0x28
  · rw [if_pos h1, M.run_need (by simp), M.run_byte1] at h
    by_cases h2 : b.toNat ≥ 0x21 ∧ b.toNat ≤ 0x40
    · exact ⟨h2.1, by omega⟩
    · rw [if_neg h2] at h
      exact hr h
  · rw [if_neg h1] at h
    exact hr h

theorem isoir165_two : Two .isoir165 isoir165_mbtowc where
  two := isoir165_m2
  chars := two_chars isoir165_table isoir165_m2 _ _
  low := fun _ _ _ h => isoir165_low h

/-! ### CNS 11643 -/

theorem hi_toNat {x : Byte} (h : Graphic x) : (hi x).toNat = x.toNat + 0x80 := by
  unfold hi; rw [u8_toNat]; unfold Graphic at h; omega

theorem hi_sub {x : Byte} (h : Graphic x) : (hi x).toNat - 0x80 = x.toNat := by rw [hi_toNat h]; omega

theorem listed_iff {m : M MbRet} {w : Nat → W} {T irr : List (List Byte × Nat)} (ht : TableOK m w T irr)
    (name : String) (entry : Entry) {b : List Byte} {ws : List Nat} (hb : b ≠ []) :
    Listed ⟨name, entry, T, irr⟩ b ws ↔ ∃ wc, m.val b = .char wc b.length ∧ ws = [wc] := by
  constructor
  · rintro ⟨wc, h, rfl⟩
    exact ⟨wc, (ht.dec_iff b wc b.length hb).2 ⟨Nat.le_refl _, by simpa using h⟩, rfl⟩
  · rintro ⟨wc, h, rfl⟩
    exact ⟨wc, by simpa using ((ht.dec_iff b wc b.length hb).1 h).2, rfl⟩

/-- The function of the plane. -/
def plane (p : Nat) : M MbRet :=
  if p = 1 then cns11643_1_dec.mbtowc else if p = 2 then cns11643_2_dec.mbtowc
  else if p = 3 then cns11643_3_dec.mbtowc else if p = 4 then cns11643_4_dec.mbtowc
  else if p = 5 then cns11643_5_dec.mbtowc else if p = 6 then cns11643_6_dec.mbtowc
  else cns11643_7_dec.mbtowc

theorem plane_two (p : Nat) : M.Two (plane p) := by
  unfold plane
  repeat' split
  · exact CsDec.two cns11643_1_dec_safe
  · exact CsDec.two cns11643_2_dec_safe
  · exact CsDec.two cns11643_3_dec_safe
  · exact CsDec.two cns11643_4_dec_safe
  · exact CsDec.two cns11643_5_dec_safe
  · exact CsDec.two cns11643_6_dec_safe
  · exact CsDec.two cns11643_7_dec_safe

theorem plane_low {p : Nat} {x y : Byte} {wc : Nat} (h : (plane p).run [x, y] = .ok (some (.char wc 2))) :
    Graphic x ∧ Graphic y := by
  unfold plane at h
  repeat' split at h
  all_goals exact CsDec.cell (by decide) (by decide) h

theorem on_plane {p : Nat} {x y : Byte} (hx : Graphic x) (hy : Graphic y) (s : List Byte) :
    ((plane p).on [(hi x).toNat - 0x80, (hi y).toNat - 0x80] tw_four).run s =
      match (plane p).run [x, y] with
      | .ok (some (.char wc _)) => .ok (some (.char wc 4))
      | _ => .ok (some (.ilseq 0)) := by
  rw [hi_sub hx, hi_sub hy]
  unfold M.on
  simp only [List.map_cons, List.map_nil, u8_of_toNat]
  rcases plane_two p x y with h | ⟨wc, h⟩
  · rw [h]; rfl
  · rw [h]; rfl

theorem plane_1 : cns11643_1_mbtowc = plane 1 := by
  unfold plane
  simp only [Nat.reduceEqDiff, ↓reduceIte]
theorem plane_2 : cns11643_2_mbtowc = plane 2 := by
  unfold plane
  simp only [Nat.reduceEqDiff, ↓reduceIte]
theorem plane_3 : cns11643_3_mbtowc = plane 3 := by
  unfold plane
  simp only [Nat.reduceEqDiff, ↓reduceIte]
theorem plane_4 : cns11643_4_mbtowc = plane 4 := by
  unfold plane
  simp only [Nat.reduceEqDiff, ↓reduceIte]
theorem plane_5 : cns11643_5_mbtowc = plane 5 := by
  unfold plane
  simp only [Nat.reduceEqDiff, ↓reduceIte]
theorem plane_6 : cns11643_6_mbtowc = plane 6 := by
  unfold plane
  simp only [Nat.reduceEqDiff, ↓reduceIte]
theorem plane_7 : cns11643_7_mbtowc = plane 7 := by
  unfold plane
  simp only [Nat.reduceEqDiff, ↓reduceIte]

theorem euc_tw_plane {p : Nat} (h1 : 1 ≤ p) (h7 : p ≤ 7) {x y : Byte} (hx : Graphic x) (hy : Graphic y) :
    euc_tw_mbtowc.run [0x8e, u8 (0xa0 + p), hi x, hi y] =
      match (plane p).run [x, y] with
      | .ok (some (.char wc _)) => .ok (some (.char wc 4))
      | _ => .ok (some (.ilseq 0)) := by
  have e1 : (u8 (0xa0 + p)).toNat = 0xa0 + p := by rw [u8_toNat]; omega
  have e2 : 0xa0 + p - 0xa0 = p := by omega
  have hx' := hi_toNat hx
  have hy' := hi_toNat hy
  have hx2 := hx.1
  have hx3 := hx.2
  have hy2 := hy.1
  have hy3 := hy.2
  unfold euc_tw_mbtowc
  rw [M.run_byte0, if_neg (by decide), if_neg (by decide), if_pos (by decide), M.run_need (by simp), M.run_byte1,
    if_pos (by omega), M.run_byte2, M.run_byte3, if_pos (by omega), e1, e2]
  have hp : p = 1 ∨ p = 2 ∨ p = 3 ∨ p = 4 ∨ p = 5 ∨ p = 6 ∨ p = 7 := by omega
  rcases hp with rfl | rfl | rfl | rfl | rfl | rfl | rfl
  · rw [if_pos rfl, plane_1]
    exact on_plane hx hy _
  · rw [if_neg (by decide), if_pos rfl, plane_2]
    exact on_plane hx hy _
  · rw [if_neg (by decide), if_neg (by decide), if_pos rfl, plane_3]
    exact on_plane hx hy _
  · rw [if_neg (by decide), if_neg (by decide), if_neg (by decide), if_pos rfl, plane_4]
    exact on_plane hx hy _
  · rw [if_neg (by decide), if_neg (by decide), if_neg (by decide), if_neg (by decide), if_pos rfl, plane_5]
    exact on_plane hx hy _
  · rw [if_neg (by decide), if_neg (by decide), if_neg (by decide), if_neg (by decide), if_neg (by decide), if_pos rfl, plane_6]
    exact on_plane hx hy _
  · rw [if_neg (by decide), if_neg (by decide), if_neg (by decide), if_neg (by decide), if_neg (by decide), if_neg (by decide), if_pos rfl, plane_7]
    exact on_plane hx hy _

theorem cns_two {p : Nat} (h1 : 1 ≤ p) (h7 : p ≤ 7) : Two (.cns p) (plane p) where
  two := plane_two p
  low := fun _ _ _ h => plane_low h
  chars := by
    intro b w
    have key : ∀ x y : Byte, Graphic x → Graphic y → (Listed euc_tw_row [0x8e, u8 (0xa0 + p), hi x, hi y] w ↔
        ∃ wc, w = [wc] ∧ (plane p).run [x, y] = .ok (some (.char wc 2))) := by
      intro x y hx hy
      refine Iff.trans (listed_iff euc_tw_table _ _ (by simp)) ?_
      have he := euc_tw_plane h1 h7 hx hy
      rcases plane_two p x y with h | ⟨c, h⟩
      · rw [h] at he ⊢
        rw [M.val_of_run he]
        constructor
        · rintro ⟨wc, hv, _⟩; cases hv
        · rintro ⟨wc, _, hv⟩; cases hv
      · rw [h] at he ⊢
        rw [M.val_of_run he]
        constructor
        · rintro ⟨wc, hv, rfl⟩
          cases hv
          exact ⟨c, rfl, rfl⟩
        · rintro ⟨wc, rfl, hv⟩
          cases hv
          exact ⟨c, rfl, rfl⟩
    constructor
    · rintro ⟨x, y, hx, hy, rfl, h⟩
      obtain ⟨wc, rfl, h'⟩ := (key x y hx hy).1 h
      exact ⟨x, y, wc, rfl, rfl, h'⟩
    · rintro ⟨x, y, wc, rfl, rfl, h⟩
      obtain ⟨hx, hy⟩ := plane_low h
      exact ⟨x, y, hx, hy, rfl, (key x y hx hy).2 ⟨wc, rfl, h⟩⟩

/-! ### JIS X 0213 -/

theorem val_run {m : M MbRet} {s : List Byte} {wc n : Nat} (h : m.val s = .char wc n) : m.run s = .ok (some (.char wc n)) := by
  unfold M.val at h
  cases hm : m.run s with
  | ok x =>
    cases x with
    | none => rw [hm] at h; cases h
    | some r => rw [hm] at h; simp only at h; rw [h]
  | ub => rw [hm] at h; cases h
  | abort => rw [hm] at h; cases h
  | diverge => rw [hm] at h; cases h

/-- What a second character is kept as. -/
def held (st : Nat) : List Nat := if st = 0 then [] else [st]

theorem listed2_iff {body : M SItem} {comp : Nat → Nat → Option (List Nat)} {last : Nat → List Nat}
    {base : Nat → Nat → BW} {m : M MbRet} {w : Nat → W} {hold : Nat → Nat} {C : List (List Byte × Nat × Nat)}
    {T irr : List (List Byte × Nat)} (h : PairRel body comp last base m w hold C) (ht : TableOK m w T irr)
    (name : String) (entry : Entry) {b : List Byte} {ws : List Nat} (hb : b ≠ []) :
    Listed2 ⟨name, entry, T, irr, C⟩ b ws ↔ ∃ c st, body.run b = .ok (some (.char c b.length st)) ∧ ws = c :: held st := by
  constructor
  · rintro (⟨wc, h1, rfl⟩ | ⟨c1, c2, h1, rfl⟩)
    · have := (ht.dec_iff b wc b.length hb).2 ⟨Nat.le_refl _, by simpa using h1⟩
      exact ⟨wc, 0, h.dec1 _ _ _ (val_run this), rfl⟩
    · obtain ⟨h2, _, h3⟩ := h.dec3 _ _ _ h1
      refine ⟨c1, c2, h3, ?_⟩
      unfold held
      rw [if_neg h2]
  · rintro ⟨c, st, h1, rfl⟩
    rcases h.dec2 _ _ _ _ hb h1 with ⟨rfl, h2⟩ | ⟨h2, _, h3⟩
    · exact .inl ⟨c, by simpa using ((ht.dec_iff b c b.length hb).1 (M.val_of_run h2)).2, rfl⟩
    · refine .inr ⟨c, st, by simpa using h3, ?_⟩
      unfold held
      rw [if_neg h2]

/-- What the code `v` of JIS X 0213 stands for. -/
def jxChars (v : Nat) : List Nat := if v = 0 then [] else if v < 0x80 then [(jxPair v).1, (jxPair v).2] else [v]

theorem jx_out (p : Nat) (hp : p = 1 ∨ p = 2) {x y : Nat} (hx : x < 0x80) (h : ¬ ((0x21 ≤ x ∧ x < 0x7f) ∧ 0x21 ≤ y ∧ y < 0x7f)) :
    jx_toF (p * 256 + x) y = 0 := by
  have e := jx_to_fast (p * 256 + x) y
  unfold jx_to_ucs4 at e
  have hr : ∀ x : Fin 128, ¬ (0x21 ≤ x.val ∧ x.val < 0x7f) → jxRow (1 * 256 + x.val) = none ∧ jxRow (2 * 256 + x.val) = none := by decide
  by_cases h1 : 0x21 ≤ x ∧ x < 0x7f
  · have h2 : ¬ (y ≥ 0x21 ∧ y ≤ 0x7e) := fun h2 => h ⟨h1, by omega⟩
    cases hj : jxRow (p * 256 + x) with
    | none => rw [hj] at e; exact (Outcome.ok.inj e).symm
    | some r =>
      rw [hj] at e
      simp only at e
      rw [if_neg h2] at e
      exact (Outcome.ok.inj e).symm
  · have h2 := hr ⟨x, hx⟩ h1
    have h3 : jxRow (p * 256 + x) = none := by
      rcases hp with rfl | rfl
      · exact h2.1
      · exact h2.2
    rw [h3] at e
    exact (Outcome.ok.inj e).symm

theorem euc_jx_cell {p : Nat} (hp : p = 1 ∨ p = 2) {x y : Byte} (hx : Graphic x) (hy : Graphic y) :
    (jxBody euc_jx).run (if p = 1 then [hi x, hi y] else [0x8f, hi x, hi y]) =
      .ok (some (jxRes (jx_toF (p * 256 + x.toNat) y.toNat) (if p = 1 then 2 else 3)).toItem) := by
  have hx' := hi_toNat hx
  have hy' := hi_toNat hy
  have hx2 := hx.1
  have hx3 := hx.2
  have hy2 := hy.1
  have hy3 := hy.2
  have hxor : (hi y).toNat ^^^ 0x80 = y.toNat := by
    rw [hy']
    have : ∀ z : Fin 128, (z.val + 0x80) ^^^ 0x80 = z.val := by decide
    exact this ⟨y.toNat, by omega⟩
  unfold jxBody euc_jx
  rcases hp with rfl | rfl
  · rw [if_pos rfl, if_pos rfl, M.run_andThen, M.run_byte0, if_neg (by omega), if_pos (by omega), M.run_need (by simp),
      M.run_byte1, if_pos (by omega), if_neg (by omega), if_neg (by omega), jxToM_fast, forceN_eq, hxor, hx',
      show 0x100 - 0x80 + (x.toNat + 0x80) = 1 * 256 + x.toNat by omega]
    rfl
  · rw [if_neg (by decide), if_neg (by decide), M.run_andThen, M.run_byte0, if_neg (by decide), if_pos (by decide), M.run_need (by simp),
      M.run_byte1, if_pos (by omega), if_neg (by decide), if_pos (by decide), M.run_need (by simp), M.run_byte2,
      jxToM_fast, forceN_eq, hxor, hx', show 0x200 - 0x80 + (x.toNat + 0x80) = 2 * 256 + x.toNat by omega]
    rfl

theorem jisx0213_chars {p : Nat} (hp : p = 1 ∨ p = 2) (b : List Byte) (w : List Nat) :
    (Set.jisx0213 p).Chars b w ↔ ∃ x y, Graphic x ∧ Graphic y ∧ b = [x, y] ∧ jx_toF (p * 256 + x.toNat) y.toNat ≠ 0 ∧
      w = jxChars (jx_toF (p * 256 + x.toNat) y.toNat) := by
  have key : ∀ x y : Byte, Graphic x → Graphic y →
      (Listed2 euc_jx_prow (if p = 1 then [hi x, hi y] else [0x8f, hi x, hi y]) w ↔
        jx_toF (p * 256 + x.toNat) y.toNat ≠ 0 ∧ w = jxChars (jx_toF (p * 256 + x.toNat) y.toNat)) := by
    intro x y hx hy
    refine Iff.trans (listed2_iff (euc_jx_rel euc_jx_ok) euc_jx_ok _ _ (by split <;> simp)) ?_
    rw [euc_jx_cell hp hx hy]
    have hr := jx_to_range (p * 256 + x.toNat) y.toNat
    generalize jx_toF (p * 256 + x.toNat) y.toNat = v at hr
    have hl : (if p = 1 then [hi x, hi y] else [0x8f, hi x, hi y]).length = if p = 1 then 2 else 3 := by split <;> rfl
    rw [hl]
    unfold jxRes jxChars
    by_cases h0 : v = 0
    · rw [if_pos h0]
      constructor
      · rintro ⟨c, st, h, _⟩; cases h
      · rintro ⟨h, _⟩; exact absurd h0 h
    · rw [if_neg h0, if_neg h0]
      by_cases h1 : v < 0x80
      · rw [if_pos h1, if_pos h1]
        have h2 := (jxPair_lt v (by omega)).2 h0
        constructor
        · rintro ⟨c, st, h, rfl⟩
          simp only [JxRes.toItem, Outcome.ok.injEq, Option.some.injEq, SItem.char.injEq] at h
          refine ⟨h0, ?_⟩
          unfold held
          rw [← h.2.2, ← h.1, if_neg h2]
        · rintro ⟨_, rfl⟩
          refine ⟨_, _, rfl, ?_⟩
          unfold held
          rw [if_neg h2]
      · rw [if_neg h1, if_neg h1]
        constructor
        · rintro ⟨c, st, h, rfl⟩
          simp only [JxRes.toItem, Outcome.ok.injEq, Option.some.injEq, SItem.char.injEq] at h
          refine ⟨h0, ?_⟩
          unfold held
          rw [← h.2.2, ← h.1, if_pos rfl]
        · rintro ⟨_, rfl⟩
          exact ⟨_, _, rfl, rfl⟩
  constructor
  · rintro ⟨x, y, hx, hy, rfl, h⟩
    obtain ⟨h1, h2⟩ := (key x y hx hy).1 h
    exact ⟨x, y, hx, hy, rfl, h1, h2⟩
  · rintro ⟨x, y, hx, hy, rfl, h1, h2⟩
    exact ⟨x, y, hx, hy, rfl, (key x y hx hy).2 ⟨h1, h2⟩⟩

/-! ## Programs -/

/-- What holds of the results of a program. -/
def All (Q : SItem → Prop) (m : M SItem) (s : List Byte) : Prop := ∀ x, m.run s = .ok (some x) → Q x

theorem all_ret {Q : SItem → Prop} {x : SItem} {s : List Byte} (h : Q x) : All Q (.ret x) s := by
  intro y hy; cases hy; exact h

theorem all_abort {Q : SItem → Prop} {s : List Byte} : All Q .abort s := by
  intro y hy; cases hy

theorem all_need {Q : SItem → Prop} {k : Nat} {m : M SItem} {s : List Byte} (h : All Q m s) : All Q (.need k m) s := by
  intro y hy
  simp only [M.run] at hy
  split at hy
  · exact h y hy
  · cases hy

theorem all_ite {Q : SItem → Prop} {c : Prop} [Decidable c] {m1 m2 : M SItem} {s : List Byte} (h1 : c → All Q m1 s)
    (h2 : ¬ c → All Q m2 s) : All Q (if c then m1 else m2) s := by
  split
  · exact h1 (by assumption)
  · exact h2 (by assumption)

theorem all_byte {Q : SItem → Prop} {i : Nat} {f : Nat → M SItem} {s : List Byte}
    (h : ∀ b, s[i]? = some b → All Q (f b.toNat) s) : All Q (.byte i f) s := by
  intro y hy
  simp only [M.run] at hy
  cases hb : s[i]? with
  | none => rw [hb] at hy; cases hy
  | some b => rw [hb] at hy; exact h b hb y hy

theorem all_sTwo {Q : SItem → Prop} {m : M MbRet} (h2 : M.Two m) {a b : Byte} {k : Nat → M SItem} {s : List Byte} (hQ : Q .ilseq)
    (h : ∀ wc, m.run [a, b] = .ok (some (.char wc 2)) → All Q (k wc) s) : All Q (sTwo m a.toNat b.toNat k) s := by
  rcases h2 a b with h3 | ⟨wc, h3⟩
  · unfold sTwo M.on
    simp only [List.map_cons, List.map_nil, u8_of_toNat, h3]
    rw [if_pos (by decide)]
    exact all_ret hQ
  · rw [sTwo_char h3]
    exact h wc h3

theorem all_sOne {Q : SItem → Prop} {m : M MbRet} (h1 : M.One m) {a : Byte} {k : Nat → M SItem} {s : List Byte} (hQ : Q .ilseq)
    (h : ∀ wc, m.run [a] = .ok (some (.char wc 1)) → All Q (k wc) s) : All Q (sOne m a.toNat k) s := by
  rcases h1 a with h3 | ⟨wc, h3⟩
  · unfold sOne M.on
    simp only [List.map_cons, List.map_nil, u8_of_toNat, h3]
    rw [if_pos (by decide)]
    exact all_ret hQ
  · rw [sOne_char h3]
    exact h wc h3

theorem all_sPair {Q : SItem → Prop} {m : M MbRet} (h2 : M.Two m) {st : Nat} {s : List Byte} (hQ : Q .ilseq)
    (h : ∀ a b wc, s[0]? = some a → s[1]? = some b → m.run [a, b] = .ok (some (.char wc 2)) → Q (.char wc 2 st)) :
    All Q (sPair m st) s := by
  unfold sPair
  refine all_need (all_byte fun a ha => all_byte fun b hb => all_ite (fun _ => ?_) fun _ => all_ret hQ)
  exact all_sTwo h2 hQ fun wc hw => all_ret (h a b wc ha hb hw)

theorem take1 {s : List Byte} {a : Byte} (h0 : s[0]? = some a) : s.take 1 = [a] := by
  match s, h0 with
  | x :: t, h0 => cases h0; rfl

theorem take2 {s : List Byte} {a b : Byte} (h0 : s[0]? = some a) (h1 : s[1]? = some b) : s.take 2 = [a, b] := by
  match s, h0, h1 with
  | x :: y :: t, h0, h1 => cases h0; cases h1; rfl

theorem take3 {s : List Byte} {a b c : Byte} (h0 : s[0]? = some a) (h1 : s[1]? = some b) (h2 : s[2]? = some c) :
    s.take 3 = [a, b, c] := by
  match s, h0, h1, h2 with
  | x :: y :: z :: t, h0, h1, h2 => cases h0; cases h1; cases h2; rfl

theorem take4 {s : List Byte} {a b c d : Byte} (h0 : s[0]? = some a) (h1 : s[1]? = some b) (h2 : s[2]? = some c)
    (h3 : s[3]? = some d) : s.take 4 = [a, b, c, d] := by
  match s, h0, h1, h2, h3 with
  | x :: y :: z :: u :: t, h0, h1, h2, h3 => cases h0; cases h1; cases h2; cases h3; rfl

theorem byte_eq {a : Byte} {k : Nat} (h : a.toNat = k) : a = u8 k := by rw [← h, u8_of_toNat]

/-! ## Decoders -/

/-- What an item means. -/
def ItemReads {R : Type} (Step : R → List Byte → List Nat → R → Prop) (rep : Nat → R) (pl : Nat → List Nat) (st : Nat) (s : List Byte) : SItem → Prop
  | .char wc n st' => Step (rep st) (s.take n) (wc :: pl st') (rep st')
  | .shift n st' => Step (rep st) (s.take n) [] (rep st') ∧ pl st' = []
  | .ilseq => True

/-- The decoder follows the specification: `rep` gives the registers of a state, `pl` the characters held
back in it. -/
structure Follows {D : Decoder} (d : StDec D) {R : Type} (Step : R → List Byte → List Nat → R → Prop) (rep : Nat → R) (pl : Nat → List Nat) : Prop where
  start : pl 0 = []
  kept : ∀ is, d.I is.st → D.kept is = pl is.st
  held : ∀ st, d.I st → pl st ≠ [] → ∃ p st', pl st = [p] ∧ pl st' = [] ∧ rep st' = rep st ∧ d.I st' ∧
    ∀ s, s ≠ [] → (d.item st).run s = .ok (some (.char p 0 st'))
  sound : ∀ st s, d.I st → pl st = [] → All (ItemReads Step rep pl st s) (d.item st) s
  complete : ∀ st b w g', d.I st → pl st = [] → Step (rep st) b w g' → b ≠ [] ∧ ∃ st', rep st' = g' ∧
    ((w = [] ∧ pl st' = [] ∧ (d.item st).run b = .ok (some (.shift b.length st'))) ∨
      ∃ wc, w = wc :: pl st' ∧ (d.item st).run b = .ok (some (.char wc b.length st')))

variable {D : Decoder} {d : StDec D} {R : Type} {Step : R → List Byte → List Nat → R → Prop} {rep : Nat → R} {pl : Nat → List Nat}

theorem Follows.reads (h : Follows d Step rep pl) {is is' : IState} {s : List Byte} {cs : List Nat}
    (hc : Chars (satom d.item) is s cs is') : d.I is.st →
    ∃ ws, Reads Step (rep is.st) s ws ∧ pl is.st ++ ws = cs ++ D.kept is' := by
  induction hc with
  | nil is => intro hI; exact ⟨[], .nil _, by rw [h.kept is hI]; simp⟩
  | @char is inp wc n is' cs is'' hs ha _ ih =>
    intro hI
    unfold satom at ha
    obtain ⟨o, h1, h2⟩ := d.run hI hs
    rw [h1] at ha
    match o, h1, h2, ha with
    | some (.char wc0 n0 st0), h1, h2, ha =>
      simp only [Atom.char.injEq] at ha
      obtain ⟨rfl, rfl, rfl⟩ := ha
      obtain ⟨ws, h3, h4⟩ := ih (h2 _ rfl).1
      by_cases hp : pl is.st = []
      · have h5 : Step (rep is.st) (inp.take n0) (wc0 :: pl st0) (rep st0) := h.sound is.st inp hI hp _ h1
        have := Reads.step h5 h3
        rw [List.take_append_drop] at this
        refine ⟨_, this, ?_⟩
        rw [hp]
        simp only [List.nil_append, List.cons_append]
        rw [h4]
      · obtain ⟨p, st', h5, h6, h7, _, h9⟩ := h.held is.st hI hp
        rw [h9 inp hs] at h1
        simp only [Outcome.ok.injEq, Option.some.injEq, SItem.char.injEq] at h1
        obtain ⟨rfl, rfl, rfl⟩ := h1
        refine ⟨ws, ?_, ?_⟩
        · rw [← h7]; exact h3
        · rw [h5]
          simp only [h6, List.nil_append] at h4
          rw [h4]
          rfl
    | some (.shift n0 st0), h1, h2, ha => cases ha
    | some .ilseq, h1, h2, ha => cases ha
    | none, h1, h2, ha => cases ha
  | @shift is inp n is' cs is'' hs ha _ ih =>
    intro hI
    unfold satom at ha
    obtain ⟨o, h1, h2⟩ := d.run hI hs
    rw [h1] at ha
    match o, h1, h2, ha with
    | some (.shift n0 st0), h1, h2, ha =>
      simp only [Atom.shift.injEq] at ha
      obtain ⟨rfl, rfl⟩ := ha
      obtain ⟨ws, h3, h4⟩ := ih (h2 _ rfl).1
      by_cases hp : pl is.st = []
      · have h5 : Step (rep is.st) (inp.take n0) [] (rep st0) ∧ pl st0 = [] := h.sound is.st inp hI hp _ h1
        have := Reads.step h5.1 h3
        rw [List.take_append_drop] at this
        refine ⟨_, this, ?_⟩
        rw [hp]
        simp only [h5.2, List.nil_append] at h4
        simp only [List.nil_append]
        rw [h4]
      · obtain ⟨p, st', h5, h6, h7, _, h9⟩ := h.held is.st hI hp
        rw [h9 inp hs] at h1
        cases h1
    | some (.char wc0 n0 st0), h1, h2, ha => cases ha
    | some .ilseq, h1, h2, ha => cases ha
    | none, h1, h2, ha => cases ha

theorem Follows.chars (h : Follows d Step rep pl) {g : R} {s : List Byte} {ws : List Nat} (hr : Reads Step g s ws) :
    ∀ st, d.I st → rep st = g →
    ∃ cs is', Chars (satom d.item) ⟨0, st⟩ s cs is' ∧ pl st ++ ws = cs ++ D.kept is' := by
  induction hr with
  | nil g =>
    intro st hI _
    exact ⟨[], ⟨0, st⟩, .nil _, by rw [h.kept ⟨0, st⟩ hI]; simp⟩
  | @step g b w g' s ws hst _ ih =>
    have main : ∀ st, d.I st → rep st = g → pl st = [] →
        ∃ cs is', Chars (satom d.item) ⟨0, st⟩ (b ++ s) cs is' ∧ w ++ ws = cs ++ D.kept is' := by
      intro st hI hg hp
      subst hg
      obtain ⟨hb, st', h1, h2⟩ := h.complete st b w g' hI hp hst
      have hne : b ++ s ≠ [] := by
        intro h0
        exact hb (List.append_eq_nil_iff.1 h0).1
      rcases h2 with ⟨rfl, h3, h4⟩ | ⟨wc, rfl, h4⟩
      · have h5 := M.run_ext _ b s _ h4
        obtain ⟨o, h6, h7⟩ := d.run hI hne
        rw [h5] at h6
        cases h6
        obtain ⟨cs, is', h8, h9⟩ := ih st' (h7 _ rfl).1 h1
        refine ⟨cs, is', .shift hne (n := b.length) (is' := ⟨0, st'⟩) (by unfold satom; rw [h5]) (by simpa using h8), ?_⟩
        rw [h3] at h9
        exact h9
      · have h5 := M.run_ext _ b s _ h4
        obtain ⟨o, h6, h7⟩ := d.run hI hne
        rw [h5] at h6
        cases h6
        obtain ⟨cs, is', h8, h9⟩ := ih st' (h7 _ rfl).1 h1
        refine ⟨wc :: cs, is', .char hne (n := b.length) (is' := ⟨0, st'⟩) (by unfold satom; rw [h5]) (by simpa using h8), ?_⟩
        simp only [List.cons_append]
        rw [h9]
    intro st hI hg
    by_cases hp : pl st = []
    · obtain ⟨cs, is', h1, h2⟩ := main st hI hg hp
      exact ⟨cs, is', h1, by rw [hp]; exact h2⟩
    · obtain ⟨p, st', h5, h6, h7, h8, h9⟩ := h.held st hI hp
      obtain ⟨cs, is', h1, h2⟩ := main st' h8 (h7.trans hg) h6
      have hb : b ≠ [] := (h.complete st' b w g' h8 h6 (by rw [h7, hg]; exact hst)).1
      have hne : b ++ s ≠ [] := by
        intro h0
        exact hb (List.append_eq_nil_iff.1 h0).1
      refine ⟨p :: cs, is', .char hne (n := 0) (is' := ⟨0, st'⟩) (by unfold satom; rw [h9 _ hne]) (by simpa using h1), ?_⟩
      rw [h5, h2]
      rfl

theorem Follows.text (h : Follows d Step rep pl) {idx : Nat} {hu : unitOf idx = 1} {E : Encoder} (e : StEnc E) (s : List Byte)
    (w : List Nat) : (stEntry idx hu d e).Text s w ↔ Reads Step (rep 0) s w := by
  constructor
  · rintro ⟨cs0, is, h1, rfl⟩
    have h1 : Chars (satom d.item) IState.init s cs0 is := h1
    obtain ⟨ws, h2, h3⟩ := h.reads h1 d.init
    rw [show IState.init.st = 0 from rfl] at h2
    rw [show IState.init.st = 0 from rfl, h.start, List.nil_append] at h3
    subst h3
    exact h2
  · intro h1
    obtain ⟨cs, is', h2, h3⟩ := h.chars h1 0 d.init rfl
    rw [h.start] at h3
    exact ⟨cs, is', h2, h3⟩

end Reiconv.Iso
