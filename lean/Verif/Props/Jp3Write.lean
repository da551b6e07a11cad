import Verif.Props.IsoWrite
import Verif.Codec.SimJp3

/-!
# C63: what is written in ISO-2022-JP-3

JIS X 0213 has codes for some pairs of characters. The specification says when they are used, in which set every other
character is written, and when the sets are designated. The character sets are those of `Verif.Iso2022`.
-/

namespace Reiconv.Jp3W

open Iso IsoW

/-! ## Specification -/

/-- The sets, in the order in which they are tried. -/
def order : List Set := [.ascii, .roman, .jisx0208, .jisx0213 1, .jisx0213 2, .kana]

/-- The designation of a set to G0. -/
def esc : Set → List Byte
  | .ascii => [0x1b, 0x28, 0x42]
  | .roman => [0x1b, 0x28, 0x4a]
  | .kana => [0x1b, 0x28, 0x49]
  | .jisx0208 => [0x1b, 0x24, 0x42]
  | .jisx0213 1 => [0x1b, 0x24, 0x28, 0x51]
  | .jisx0213 2 => [0x1b, 0x24, 0x28, 0x50]
  | _ => []

/-- `b` is the code of a pair of characters in plane 1 of JIS X 0213. -/
def Pair (c1 c2 : Nat) (b : List Byte) : Prop := (Set.jisx0213 1).Chars b [c1, c2]

/-- What is written for a text of which every character is in one of the sets, from the set `g` in G0 on. Two
characters that have a code together are written so. The designation of plane 1 is left out before such a code only
if plane 1 is in G0 and JIS X 0208 does not have the first of the two characters. -/
inductive Writes : Set → List Nat → List Byte → Set → Prop
  | nil {g} : Writes g [] [] g
  | one {g wc x b cs out g'} : First wc order x b → (∀ c2 rest b2, cs = c2 :: rest → ¬ Pair wc c2 b2) → Writes x cs out g' →
      Writes g (wc :: cs) ((if g = x then [] else esc x) ++ b ++ out) g'
  | again {g c1 c2 b d cs out g'} : Pair c1 c2 b → Has .jisx0208 d c1 → Writes (.jisx0213 1) cs out g' →
      Writes g (c1 :: c2 :: cs) (esc (.jisx0213 1) ++ b ++ out) g'
  | two {g c1 c2 b cs out g'} : Pair c1 c2 b → (∀ d, ¬ Has .jisx0208 d c1) → Writes (.jisx0213 1) cs out g' →
      Writes g (c1 :: c2 :: cs) ((if g = .jisx0213 1 then [] else esc (.jisx0213 1)) ++ b ++ out) g'

/-- The character has no code, neither alone nor together with `pv`. -/
def Lost (pv wc : Nat) : Prop := Missing wc order ∧ ∀ b, ¬ Pair pv wc b

/-- The characters that are left out: those that are in none of the sets and do not form a pair with the character
`pv` that was kept last. They must be tag characters, or `discard` must be set; in the latter case they are counted. -/
inductive Kept (discard : Bool) : Nat → List Nat → List Nat → Nat → Prop
  | nil {pv} : Kept discard pv [] [] 0
  | char {pv wc cs ds n} : ¬ Lost pv wc → Kept discard wc cs ds n → Kept discard pv (wc :: cs) (wc :: ds) n
  | tag {pv wc cs ds n} : Lost pv wc → isTag wc = true → Kept discard pv cs ds n → Kept discard pv (wc :: cs) ds n
  | drop {pv wc cs ds n} : Lost pv wc → isTag wc = false → discard = true → Kept discard pv cs ds n →
      Kept discard pv (wc :: cs) ds (1 + n)

/-- A whole text. It ends in ASCII. At its beginning no character was kept: U+0000 forms no pair. -/
def Text (discard : Bool) (cs : List Nat) (out : List Byte) (irr : Nat) : Prop :=
  ∃ ds o g, Kept discard 0 cs ds irr ∧ Writes .ascii ds o g ∧ out = o ++ (if g = .ascii then [] else esc .ascii)

/-! ## Proofs -/

section
variable {wc : Nat} {l : List Set}

theorem first_here {x : Set} {b : List Byte} (h : ∀ c, Has x c wc ↔ c = b) (y : Set) (c : List Byte) :
    First wc (x :: l) y c ↔ y = x ∧ c = b := by
  constructor
  · intro hf
    cases hf with
    | here h' => exact ⟨rfl, (h _).1 h'⟩
    | next h' _ => exact absurd ((h b).2 rfl) (h' b)
  · rintro ⟨rfl, rfl⟩
    exact .here ((h _).2 rfl)

theorem first_next {x : Set} (h : ∀ c, ¬ Has x c wc) (y : Set) (c : List Byte) :
    First wc (x :: l) y c ↔ First wc l y c := by
  constructor
  · intro hf
    cases hf with
    | here h' => exact absurd h' (h _)
    | next _ h' => exact h'
  · exact .next h

theorem missing_next {x : Set} (h : ∀ c, ¬ Has x c wc) : Missing wc (x :: l) ↔ Missing wc l :=
  ⟨fun h' y hy => h' y (List.mem_cons_of_mem _ hy), fun h' => List.forall_mem_cons.2 ⟨h, h'⟩⟩

theorem bw_try1 {x : Set} {w : W} (P : Nat → Prop) [DecidablePred P] (h1 : W.One w)
    (hp : ∀ c : List Byte, x.Chars c [wc] ↔ ∃ a : Byte, w.res = some [a] ∧ P a.toNat ∧ c = [u8 (a.toNat % 128)])
    (hx : x ≠ .isoir165) :
    (∃ a : Byte, P a.toNat ∧ (∀ c, Has x c wc ↔ c = [u8 (a.toNat % 128)]) ∧
      ∀ (found : Nat → BW) (rest : BW), BW.try1 w P found rest = found a.toNat) ∨
      ((∀ c, ¬ Has x c wc) ∧ ∀ (found : Nat → BW) (rest : BW), BW.try1 w P found rest = rest) := by
  rcases h1 with h | ⟨a, h⟩
  · refine .inr ⟨fun c hc => ?_, fun found rest => ?_⟩
    · obtain ⟨a, e, _⟩ := (hp c).1 hc.1
      rw [(wres_run _ _ _ h).2 rfl] at e; cases e
    · unfold BW.try1 BW.on; rw [h]; rfl
  · have e := (wres_run _ _ _ h).1 _ rfl
    have hs : ∀ (found : Nat → BW) (rest : BW), BW.try1 w P found rest = if P a.toNat then found a.toNat else rest := by
      intro found rest
      unfold BW.try1 BW.on
      rw [h]
      rfl
    by_cases hP : P a.toNat
    · refine .inl ⟨a, hP, fun c => ?_, fun found rest => by rw [hs, if_pos hP]⟩
      rw [has_iff hx, hp]
      constructor
      · rintro ⟨a', e', _, rfl⟩
        rw [e] at e'
        cases e'
        rfl
      · rintro rfl
        exact ⟨a, e, hP, rfl⟩
    · refine .inr ⟨fun c hc => ?_, fun found rest => by rw [hs, if_neg hP]⟩
      obtain ⟨a', e', h', _⟩ := (hp c).1 hc.1
      rw [e] at e'
      cases e'
      exact hP h'

end

/-! ### JIS X 0213 -/

theorem listed2_one {T irr : List (List Byte × Nat)} {C : List (List Byte × Nat × Nat)} {m : M MbRet} {w : Nat → W} (ht : TableOK m w T [])
    (name : String) (A : Entry) {b : List Byte} {wc : Nat} : Listed2 ⟨name, A, T, irr, C⟩ b [wc] ↔ (w wc).res = some b := by
  rw [ht.enc_iff]
  constructor
  · rintro (⟨c, h, e⟩ | ⟨c1, c2, _, e⟩)
    · cases e; exact .inl ⟨h, by simp⟩
    · simp at e
  · rintro (⟨h, _⟩ | ⟨_, h⟩)
    · exact .inl ⟨wc, h, rfl⟩
    · cases h

theorem listed2_two {T irr : List (List Byte × Nat)} {C : List (List Byte × Nat × Nat)}
    (name : String) (A : Entry) {b : List Byte} {c1 c2 : Nat} : Listed2 ⟨name, A, T, irr, C⟩ b [c1, c2] ↔ (b, c1, c2) ∈ C := by
  constructor
  · rintro (⟨c, h, e⟩ | ⟨c1, c2, h, e⟩)
    · simp at e
    · cases e; exact h
  · exact fun h => .inr ⟨_, _, h, rfl⟩

theorem has_jx {p wc : Nat} (b : List Byte) : Has (.jisx0213 p) b wc ↔ ∃ x y, Graphic x ∧ Graphic y ∧ b = [x, y] ∧
    (euc_jx_wctomb wc).res = some (if p = 1 then [hi x, hi y] else [0x8f, hi x, hi y]) := by
  rw [has_iff (by simp)]
  show (∃ x y, Graphic x ∧ Graphic y ∧ b = [x, y] ∧ Listed2 euc_jx_prow _ _) ↔ _
  constructor
  · rintro ⟨x, y, hx, hy, rfl, h⟩
    exact ⟨x, y, hx, hy, rfl, (listed2_one euc_jx_ok _ _).1 h⟩
  · rintro ⟨x, y, hx, hy, rfl, h⟩
    exact ⟨x, y, hx, hy, rfl, (listed2_one euc_jx_ok _ _).2 h⟩

theorem pair_jx {c1 c2 : Nat} (b : List Byte) : Pair c1 c2 b ↔ ∃ x y, Graphic x ∧ Graphic y ∧ b = [x, y] ∧
    ([hi x, hi y], c1, c2) ∈ eucJxPairs := by
  show (∃ x y, Graphic x ∧ Graphic y ∧ b = [x, y] ∧ Listed2 euc_jx_prow _ _) ↔ _
  simp only [if_true]
  constructor
  · rintro ⟨x, y, hx, hy, rfl, h⟩
    exact ⟨x, y, hx, hy, rfl, (listed2_two _ _).1 h⟩
  · rintro ⟨x, y, hx, hy, rfl, h⟩
    exact ⟨x, y, hx, hy, rfl, (listed2_two _ _).2 h⟩

theorem hi_inj {x y : Byte} (hx : Graphic x) (hy : y.toNat < 0x80) (h : hi x = hi y) : x = y := by
  have h := congrArg UInt8.toNat h
  rw [hi_toNat hx] at h
  have e : (hi y).toNat = y.toNat + 0x80 := by unfold hi; rw [u8_toNat]; omega
  rw [e] at h
  exact UInt8.toNat_inj.1 (by omega)

/-- The set of a code of JIS X 0213 and its bytes. -/
def planeOf (d : Nat) : Nat := if d &&& 0x8000 ≠ 0 then 2 else 1
def bytesOf (d : Nat) : List Byte := [u8 (d >>> 8 &&& 0x7f), u8 (d &&& 0x7f)]

theorem jxRowF_bound : jxRowF 0x17f = 0 ∧ jxRowF 0x27f = 0 := ⟨rfl, rfl⟩

theorem jx_graphic {wc : Nat} (hw : 0x80 ≤ wc) (h0 : jx_fromF wc ≠ 0) :
    (0x21 ≤ jx_fromF wc >>> 8 &&& 0x7f ∧ jx_fromF wc >>> 8 &&& 0x7f < 0x7f) ∧ (0x21 ≤ jx_fromF wc &&& 0x7f ∧ jx_fromF wc &&& 0x7f < 0x7f) := by
  obtain ⟨hb, hr⟩ := jx_back_row hw h0
  have hj := (jx_from_ok wc).resolve_left h0
  have l1 := Nat.and_le_right (n := jx_fromF wc >>> 8) (m := 0x7f)
  have l2 := Nat.and_le_right (n := jx_fromF wc) (m := 0x7f)
  refine ⟨⟨hr, Nat.lt_of_le_of_ne l1 fun e => ?_⟩, hj.col, Nat.lt_of_le_of_ne l2 fun e => ?_⟩
  · have h : jxRowF (jchRow (jx_fromF wc)) = 0 := by
      unfold jchRow; rw [e]; split
      · exact jxRowF_bound.2
      · exact jxRowF_bound.1
    unfold jx_toF at hb
    rw [h] at hb
    exact absurd hb (by show ¬ 0 = wc; omega)
  · unfold jx_toF at hb
    rw [e] at hb
    cases hr : jxRowF (jchRow (jx_fromF wc)) with
    | zero => rw [hr] at hb; exact absurd hb (by show ¬ 0 = wc; omega)
    | succ r => rw [hr] at hb; exact absurd hb (by show ¬ 0 = wc; omega)

theorem u8_or80 {a : Nat} (h : a < 256) : u8 (a ||| 0x80) = hi (u8 (a &&& 0x7f)) := by
  have l := Nat.and_le_right (n := a) (m := 0x7f)
  rw [jch_or80 a h]
  unfold hi
  rw [u8_toNat, Nat.mod_eq_of_lt (by omega), Nat.add_comm]

/-- What EUC-JISX0213 has for the character. -/
theorem euc_jx_res {wc : Nat} (hw : 0x80 ≤ wc) : (jx_fromF wc ≠ 0 → (euc_jx_wctomb wc).res =
      some (if jx_fromF wc &&& 0x8000 ≠ 0 then 0x8f :: (bytesOf (jx_fromF wc)).map hi else (bytesOf (jx_fromF wc)).map hi)) ∧
    (jx_fromF wc = 0 → ∀ b, (euc_jx_wctomb wc).res = some b → ∃ y, b = [0x8e, y]) := by
  constructor
  · intro h0
    have hk : ¬ (wc ≥ 0xff61 ∧ wc ≤ 0xff9f) := by
      intro h
      have := jxKana_zero (wc - 0xff61) (by omega)
      rw [show 0xff61 + (wc - 0xff61) = wc by omega] at this
      exact h0 this
    have hlt := jch_lt ((jx_from_ok wc).resolve_left h0)
    unfold euc_jx_wctomb
    rw [if_neg (by omega), if_neg hk, jxFromW_fast, forceN_eq, if_pos h0]
    have hhi : jx_fromF wc >>> 8 < 256 := by rw [Nat.shiftRight_eq_div_pow]; omega
    have hlo : jx_fromF wc &&& 0xff < 256 := by have := Nat.and_le_right (n := jx_fromF wc) (m := 0xff); omega
    have hcol : (jx_fromF wc &&& 0xff) &&& 0x7f = jx_fromF wc &&& 0x7f := by rw [Nat.and_assoc]; rfl
    have e1 := u8_or80 hhi
    have e2 := u8_or80 hlo
    rw [hcol] at e2
    split
    · show some [u8 0x8f, u8 (jx_fromF wc >>> 8 ||| 0x80), u8 ((jx_fromF wc &&& 0xff) ||| 0x80)] = _
      rw [e1, e2]; rfl
    · show some [u8 (jx_fromF wc >>> 8 ||| 0x80), u8 ((jx_fromF wc &&& 0xff) ||| 0x80)] = _
      rw [e1, e2]; rfl
  · intro h0 b hb
    unfold euc_jx_wctomb at hb
    rw [if_neg (by omega)] at hb
    split at hb
    · cases hb; exact ⟨_, rfl⟩
    · rw [jxFromW_fast, forceN_eq, if_neg (not_not_intro h0)] at hb
      cases hb

theorem jx_has {wc : Nat} (hw : 0x80 ≤ wc) (h0 : jx_fromF wc ≠ 0) {p : Nat} (hp : p = 1 ∨ p = 2) (b : List Byte) :
    Has (.jisx0213 p) b wc ↔ p = planeOf (jx_fromF wc) ∧ b = bytesOf (jx_fromF wc) := by
  rw [has_jx, (euc_jx_res hw).1 h0]
  obtain ⟨⟨g1, g2⟩, g3, g4⟩ := jx_graphic hw h0
  have hg1 : (u8 (jx_fromF wc >>> 8 &&& 0x7f)).toNat = jx_fromF wc >>> 8 &&& 0x7f := by rw [u8_toNat]; omega
  have hg2 : (u8 (jx_fromF wc &&& 0x7f)).toNat = jx_fromF wc &&& 0x7f := by rw [u8_toNat]; omega
  unfold planeOf
  by_cases h8 : jx_fromF wc &&& 0x8000 ≠ 0
  · rw [if_pos h8, if_pos h8]
    constructor
    · rintro ⟨x, y, hx, hy, rfl, h⟩
      rcases hp with rfl | rfl
      · rw [if_pos rfl] at h; simp [bytesOf] at h
      · refine ⟨rfl, ?_⟩
        rw [if_neg (by decide)] at h
        simp only [bytesOf, List.map_cons, List.map_nil, Option.some.injEq, List.cons.injEq, and_true] at h
        obtain ⟨h1, h2⟩ := h.2
        rw [hi_inj hx (by omega) h1.symm, hi_inj hy (by omega) h2.symm]; rfl
    · rintro ⟨rfl, rfl⟩
      exact ⟨_, _, ⟨by omega, by omega⟩, ⟨by omega, by omega⟩, rfl, rfl⟩
  · rw [if_neg h8, if_neg h8]
    constructor
    · rintro ⟨x, y, hx, hy, rfl, h⟩
      rcases hp with rfl | rfl
      · refine ⟨rfl, ?_⟩
        rw [if_pos rfl] at h
        simp only [bytesOf, List.map_cons, List.map_nil, Option.some.injEq, List.cons.injEq, and_true] at h
        obtain ⟨h1, h2⟩ := h
        rw [hi_inj hx (by omega) h1.symm, hi_inj hy (by omega) h2.symm]; rfl
      · rw [if_neg (by decide)] at h; simp [bytesOf] at h
    · rintro ⟨rfl, rfl⟩
      exact ⟨_, _, ⟨by omega, by omega⟩, ⟨by omega, by omega⟩, rfl, rfl⟩

theorem jx_no {wc : Nat} (hw : 0x80 ≤ wc) (h0 : jx_fromF wc = 0) (p : Nat) (b : List Byte) : ¬ Has (.jisx0213 p) b wc := by
  rw [has_jx]
  rintro ⟨x, y, hx, hy, rfl, h⟩
  obtain ⟨z, hz⟩ := (euc_jx_res hw).2 h0 _ h
  split at hz
  · simp only [List.cons.injEq] at hz
    have := congrArg UInt8.toNat hz.1
    rw [hi_toNat hx] at this
    have e : (0x8e : Byte).toNat = 0x8e := rfl
    rw [e] at this
    have := hx.1
    omega
  · simp at hz

/-! ### Pairs -/

/-- The code of the character if it is held back, or 0. -/
noncomputable def heldCode (wc : Nat) : Nat := if jx_fromF wc &&& 0x80 ≠ 0 then jx_fromF wc &&& 0x7f7f else 0

def grB (n : Nat) : Bool := decide (0x21 ≤ n ∧ n < 0x7f)

theorem comp_chk : ∀ m ∈ jxMarks, ∀ e ∈ (jp3Comp.drop ((jxSel m).getD (0, 0)).1).take ((jxSel m).getD (0, 0)).2,
    ((jxLast e.2).all grB = true ∧ (jxLast e.2).length = 2) ∧ ∀ d ∈ jxHeld, d &&& 0x7f7f = e.1 →
      (((jxLast e.2).map fun n => hi (u8 n)), jx_toF (jchRow d) (d &&& 0x7f), m) ∈ eucJxPairs := by
  decide +kernel

theorem pairs_chk : ∀ p ∈ eucJxPairs, (0x80 ≤ p.2.1 ∧ p.2.1 ≠ 0xa5 ∧ p.2.1 ≠ 0x203e) ∧ jx_fromF p.2.1 &&& 0x80 ≠ 0 ∧
    (jxCompose jp3Comp (jx_fromF p.2.1 &&& 0x7f7f) p.2.2).map (·.map fun n => hi (u8 n)) = some p.1 := by
  decide +kernel

theorem pair_iff {c1 c2 : Nat} (hw : 0x80 ≤ c1) (h8 : jx_fromF c1 &&& 0x80 ≠ 0) (b : List Byte) :
    Pair c1 c2 b ↔ ∃ l, jxCompose jp3Comp (jx_fromF c1 &&& 0x7f7f) c2 = some l ∧ l.map u8 = b := by
  have h0 : jx_fromF c1 ≠ 0 := by intro h; rw [h] at h8; exact h8 rfl
  rw [pair_jx]
  constructor
  · rintro ⟨x, y, hx, hy, rfl, hm⟩
    obtain ⟨_, _, hc⟩ := pairs_chk _ hm
    simp only at hc
    cases hl : jxCompose jp3Comp (jx_fromF c1 &&& 0x7f7f) c2 with
    | none => rw [hl] at hc; cases hc
    | some l =>
      rw [hl] at hc
      obtain ⟨hmk, e, he, h4, rfl⟩ := jxCompose_some hl
      obtain ⟨⟨g1, g2⟩, _⟩ := comp_chk _ hmk e he
      refine ⟨_, rfl, ?_⟩
      unfold jxLast at g1 hc ⊢
      simp only [List.all_cons, List.all_nil, Bool.and_true, Bool.and_eq_true, grB, decide_eq_true_eq] at g1
      simp only [List.map_cons, List.map_nil, Option.map_some, Option.some.injEq, List.cons.injEq, and_true] at hc ⊢
      have e1 : ∀ n, n < 0x7f → (u8 n).toNat < 0x80 := by intro n hn; rw [u8_toNat]; omega
      exact ⟨(hi_inj hx (e1 _ g1.1.2) hc.1.symm).symm, (hi_inj hy (e1 _ g1.2.2) hc.2.symm).symm⟩
  · rintro ⟨l, hl, rfl⟩
    obtain ⟨hmk, e, he, h4, rfl⟩ := jxCompose_some hl
    obtain ⟨⟨g1, g2⟩, hm⟩ := comp_chk _ hmk e he
    have hm := hm _ (jx_held h8) h4.symm
    rw [jx_back hw h0] at hm
    unfold jxLast at g1 hm ⊢
    simp only [List.all_cons, List.all_nil, Bool.and_true, Bool.and_eq_true, grB, decide_eq_true_eq] at g1
    have e1 : ∀ n, 0x21 ≤ n ∧ n < 0x7f → Graphic (u8 n) := by intro n hn; unfold Graphic; rw [u8_toNat]; omega
    exact ⟨_, _, e1 _ g1.1, e1 _ g1.2, rfl, hm⟩

theorem no_pair {c1 : Nat} (h : c1 < 0x80 ∨ c1 = 0xa5 ∨ c1 = 0x203e ∨ jx_fromF c1 &&& 0x80 = 0) (c2 : Nat) (b : List Byte) : ¬ Pair c1 c2 b := by
  rw [pair_jx]
  rintro ⟨x, y, _, _, _, hm⟩
  obtain ⟨⟨h1, h2, h3⟩, h4, _⟩ := pairs_chk _ hm
  simp only at h1 h2 h3 h4
  rcases h with h | h | h | h
  · omega
  · exact h2 h
  · exact h3 h
  · exact h4 h

/-! ### One character -/

/-- The encoder writes the character at once. -/
def Plain (wc k : Nat) (b : List Byte) : Prop :=
  (∀ c2 b2, ¬ Pair wc c2 b2) ∧ ∀ count st acc, (jp3_base count st wc).res acc =
    some (acc ++ ((if st = k then [] else esc (jp3Set k)) ++ b), k)

/-- The encoder holds the character back, with the code `h`. -/
def Holds (wc k : Nat) (b : List Byte) (h : Nat) : Prop :=
  h ≠ 0 ∧ h < 65536 ∧ (jxLast h).map u8 = b ∧
  (∀ c2 b2, Pair wc c2 b2 ↔ ∃ l, jxCompose jp3Comp h c2 = some l ∧ l.map u8 = b2) ∧
  (k = 3 ∧ (∃ d, Has .jisx0208 d wc) ∧ (∀ count st acc, (jp3_base count st wc).res acc = some (acc, jp3Join 3 h st)) ∨
   k = 4 ∧ (∀ d, ¬ Has .jisx0208 d wc) ∧ ∀ count st acc, (jp3_base count st wc).res acc =
     some (acc ++ (if st = 4 then [] else esc (.jisx0213 1)), jp3Join 4 h 4))

inductive Class (wc : Nat) : Prop
  | plain (k b) : k ≤ 5 → (∀ x c, First wc order x c ↔ x = jp3Set k ∧ c = b) → Plain wc k b → Class wc
  | holds (k b h) : k ≤ 5 → (∀ x c, First wc order x c ↔ x = jp3Set k ∧ c = b) → Holds wc k b h → Class wc
  | missing : Missing wc order → (∀ c2 b2, ¬ Pair wc c2 b2) → (∀ count st acc, (jp3_base count st wc).res acc = none) → Class wc

theorem one_res {count st k f : Nat} {a : Nat} {acc : List Byte} (he : [u8 0x1b, u8 0x28, u8 f] = esc (jp3Set k)) :
    (jp3One count st k f a).res acc = some (acc ++ ((if st = k then [] else esc (jp3Set k)) ++ [u8 a]), k) := by
  rw [← he]
  show some (acc ++ List.map u8 _, k) = _
  by_cases h : st = k <;> simp [h]

theorem last_bytes {d : Nat} : (jxLast (d &&& 0x7f7f)).map u8 = bytesOf d := by
  rw [jxLast_held]; rfl

theorem classify (wc : Nat) : Class wc := by
  rcases bw_try1 (fun b => b < 0x80) (ascii_wOne wc) ascii_hp (by simp) with ⟨a, ha, hh, hb⟩ | ⟨hn1, hb1⟩
  · have e : u8 (a.toNat % 128) = a := by rw [Nat.mod_eq_of_lt (by omega), u8_of_toNat]
    have hc : wc < 0x80 := by
      obtain ⟨x, hx, _, hv⟩ := ((hh _).2 rfl).1
      cases hv
      exact hx
    refine .plain 0 [a] (by omega) (fun x c => by rw [e] at hh; exact first_here hh x c) ⟨no_pair (.inl hc), fun count st acc => ?_⟩
    unfold jp3_base
    rw [hb, one_res (by rfl), u8_of_toNat]
  have hw : 0x80 ≤ wc := by
    by_cases h : wc < 0x80
    · refine absurd ?_ (hn1 [u8 wc])
      have : (u8 wc).toNat = wc := by rw [u8_toNat]; omega
      exact ⟨⟨u8 wc, by omega, rfl, by rw [this]⟩, fun h => by cases h⟩
    · omega
  rcases bw_try1 (fun b => b < 0x80) (jisx0201_w_one wc) roman_hp (by simp) with ⟨a, ha, hh, hb⟩ | ⟨hn2, hb2⟩
  · have e : u8 (a.toNat % 128) = a := by rw [Nat.mod_eq_of_lt (by omega), u8_of_toNat]
    have hc : wc = 0xa5 ∨ wc = 0x203e := by
      obtain ⟨x, hx, _, hv⟩ := ((hh _).2 rfl).1
      simp only [List.cons.injEq, and_true] at hv
      split at hv
      · exact .inl hv
      · split at hv
        · exact .inr hv
        · omega
    refine .plain 1 [a] (by omega) (fun x c => ?_) ⟨no_pair (.inr (by rcases hc with h | h; exact .inl h; exact .inr (.inl h))), fun count st acc => ?_⟩
    · rw [e] at hh
      exact (first_next hn1 x c).trans (first_here hh x c)
    · unfold jp3_base
      rw [hb1, hb, one_res (by rfl), u8_of_toNat]
  -- JIS X 0208
  have h208 : ∀ b, Has .jisx0208 b wc ↔ (jisx0208_wctomb wc).res = some b := has_res (x := .jisx0208) jisx0208_table (by simp) rfl
  have hkey : (∀ x c, First wc order x c ↔ First wc [.jisx0208, .jisx0213 1, .jisx0213 2, .kana] x c) ∧
      (Missing wc order ↔ Missing wc [.jisx0208, .jisx0213 1, .jisx0213 2, .kana]) :=
    ⟨fun x c => (first_next hn1 x c).trans (first_next hn2 x c), (missing_next hn1).trans (missing_next hn2)⟩
  rcases jisx0208_w2 wc with hr | ⟨a, b, hr⟩
  · have hn3 : ∀ b, ¬ Has .jisx0208 b wc := by
      intro b hb
      rw [h208] at hb
      have := (wres_run _ _ _ hr).2 rfl
      exact absurd (this.symm.trans hb) (by simp)
    have hbase : ∀ count st, jp3_base count st wc = if jx_fromF wc ≠ 0 then
        if jx_fromF wc &&& 0x8000 ≠ 0 then jp3Plane count st 5 0x50 (jx_fromF wc)
        else jp3Plane count st 4 0x51 (jx_fromF wc)
        else .try1 (jisx0201_w wc) (fun b => 0x80 ≤ b) (fun b => jp3One count st 2 0x49 (b - 0x80)) .iluni := by
      intro count st
      unfold jp3_base
      rw [hb1, hb2, jxFromB_eq, BW.try2_iluni hr]
    by_cases h0 : jx_fromF wc ≠ 0
    · have hj := (jx_from_ok wc).resolve_left h0
      have hhas1 := jx_has hw h0 (p := 1) (.inl rfl)
      have hhas2 := jx_has hw h0 (p := 2) (.inr rfl)
      by_cases h5 : jx_fromF wc &&& 0x8000 ≠ 0
      · have h8 : jx_fromF wc &&& 0x80 = 0 := hj.plane.resolve_right h5
        have hpl : planeOf (jx_fromF wc) = 2 := by unfold planeOf; rw [if_pos h5]
        rw [hpl] at hhas1 hhas2
        refine .plain 5 (bytesOf (jx_fromF wc)) (by omega) (fun x c => ?_) ⟨no_pair (.inr (.inr (.inr h8))), fun count st acc => ?_⟩
        · rw [hkey.1, first_next hn3, first_next (fun c h => by rw [hhas1] at h; simp at h)]
          exact first_here (fun c => by rw [hhas2]; simp) x c
        · rw [hbase, if_pos h0, if_pos h5]
          unfold jp3Plane
          by_cases hs : st = 5
          · rw [if_neg (not_not_intro hs), if_pos hs]
            unfold jp3Put
            rw [if_neg (not_not_intro h8)]; rfl
          · rw [if_pos hs, if_neg hs]
            unfold jp3Put
            rw [if_neg (not_not_intro h8)]
            show some (acc ++ _ ++ _, 5) = _
            rw [List.append_assoc]; rfl
      · have hpl : planeOf (jx_fromF wc) = 1 := by unfold planeOf; rw [if_neg h5]
        rw [hpl] at hhas1
        have hfirst : ∀ x c, First wc order x c ↔ x = jp3Set 4 ∧ c = bytesOf (jx_fromF wc) := by
          intro x c
          rw [hkey.1, first_next hn3]
          exact first_here (fun c => by rw [hhas1]; simp) x c
        by_cases h8 : jx_fromF wc &&& 0x80 = 0
        · refine .plain 4 (bytesOf (jx_fromF wc)) (by omega) hfirst ⟨no_pair (.inr (.inr (.inr h8))), fun count st acc => ?_⟩
          rw [hbase, if_pos h0, if_neg h5]
          unfold jp3Plane
          by_cases hs : st = 4
          · rw [if_neg (not_not_intro hs), if_pos hs]
            unfold jp3Put
            rw [if_neg (not_not_intro h8)]; rfl
          · rw [if_pos hs, if_neg hs]
            unfold jp3Put
            rw [if_neg (not_not_intro h8)]
            show some (acc ++ _ ++ _, 4) = _
            rw [List.append_assoc]; rfl
        · have hh := jch_held hj h8
          refine .holds 4 _ (jx_fromF wc &&& 0x7f7f) (by omega) hfirst
            ⟨hh.1, hh.2, last_bytes, fun c2 b2 => pair_iff hw h8 b2, .inr ⟨rfl, hn3, fun count st acc => ?_⟩⟩
          rw [hbase, if_pos h0, if_neg h5]
          unfold jp3Plane
          by_cases hs : st = 4
          · rw [if_neg (not_not_intro hs), if_pos hs]
            unfold jp3Put
            rw [if_pos h8, if_neg h5, List.append_nil]; rfl
          · rw [if_pos hs, if_neg hs]
            unfold jp3Put
            rw [if_pos h8, if_neg h5]; rfl
    · have h0 : jx_fromF wc = 0 := Decidable.of_not_not h0
      have hn4 := jx_no hw h0
      have hnp : ∀ c2 b2, ¬ Pair wc c2 b2 := no_pair (.inr (.inr (.inr (by rw [h0]; rfl))))
      have hk1 : ∀ x c, First wc order x c ↔ First wc [.kana] x c := fun x c => by
        rw [hkey.1, first_next hn3, first_next (hn4 1), first_next (hn4 2)]
      rcases bw_try1 (fun b => b ≥ 0x80) (jisx0201_w_one wc) kana_hp (by simp) with ⟨a, ha, hh, hb⟩ | ⟨hn5, hb5⟩
      · refine .plain 2 [u8 (a.toNat % 128)] (by omega) (fun x c => ?_) ⟨hnp, fun count st acc => ?_⟩
        · rw [hk1]; exact first_here hh x c
        · rw [hbase, if_neg (by simp [h0])]
          have ha : a.toNat ≥ 0x80 := ha
          have hl := a.toNat_lt
          refine (congrArg (fun w => BW.res w acc) (hb _ _)).trans ?_
          rw [one_res (by rfl)]
          have : a.toNat - 0x80 = a.toNat % 128 := by omega
          rw [this]
      · refine .missing ?_ hnp fun count st acc => ?_
        · rw [hkey.2, missing_next hn3, missing_next (hn4 1), missing_next (hn4 2), missing_next hn5]
          intro _ h; cases h
        · rw [hbase, if_neg (by simp [h0])]
          exact (congrArg (fun w => BW.res w acc) (hb5 _ _)).trans rfl
  · have hres := (wres_run _ _ _ hr).1 _ rfl
    have hhas : ∀ c, Has .jisx0208 c wc ↔ c = [a, b] := fun c => by
      rw [h208]; exact ⟨fun h => Option.some.inj (h.symm.trans hres), fun h => by rw [h]; exact hres⟩
    have hfirst : ∀ x c, First wc order x c ↔ x = jp3Set 3 ∧ c = [a, b] := fun x c => by
      rw [hkey.1]; exact first_here hhas x c
    have hp : a.toNat < 0x80 ∧ b.toNat < 0x80 := by
      obtain ⟨p, q, c, e1, e2, e3⟩ := (jisx0208_two.chars _ _).1 ((hhas _).2 rfl).1
      cases e1; cases e2
      obtain ⟨l1, l2⟩ := jisx0208_two.low _ _ _ e3
      have := l1.2
      have := l2.2
      exact ⟨by omega, by omega⟩
    by_cases h8 : jx_fromF wc &&& 0x80 = 0
    · refine .plain 3 [a, b] (by omega) hfirst ⟨no_pair (.inr (.inr (.inr h8))), fun count st acc => ?_⟩
      unfold jp3_base
      rw [hb1, hb2, jxFromB_eq, BW.try2_put hr, if_pos hp, if_neg (not_not_intro h8)]
      show some (acc ++ List.map u8 _, 3) = _
      by_cases hs : st = 3 <;> simp [hs, u8_of_toNat, esc, jp3Set] <;> decide
    · have h0 : jx_fromF wc ≠ 0 := by intro h; rw [h] at h8; exact h8 rfl
      have hh := jch_held ((jx_from_ok wc).resolve_left h0) h8
      have hl : (jxLast (jx_fromF wc &&& 0x7f7f)).map u8 = [a, b] := by
        have he := jxHeld_0208 _ (jx_held h8)
        rw [jx_back hw h0] at he
        rcases he with he | he
        · exact absurd (hr.symm.trans he) (by simp [WcRes.put, WcRes.iluni])
        · have he := hr.symm.trans he
          simp only [WcRes.put, Outcome.ok.injEq, WcRes.mk.injEq] at he
          exact he.2.1.symm
      refine .holds 3 _ (jx_fromF wc &&& 0x7f7f) (by omega) hfirst
        ⟨hh.1, hh.2, hl, fun c2 b2 => pair_iff hw h8 b2, .inl ⟨rfl, ⟨_, (hhas _).2 rfl⟩, fun count st acc => ?_⟩⟩
      unfold jp3_base
      rw [hb1, hb2, jxFromB_eq, BW.try2_put hr, if_pos hp, if_pos h8]
      rfl

/-! ### The encoder, state by state -/

abbrev E : Encoder := iso2022_jp3_encoder

theorem full_plain {k : Nat} (hk : k ≤ 5) (wc : Nat) : E.full k wc = (jp3_base 0 k wc).res [] := by
  have ho := Jp3Os.plain hk
  rw [iso2022_jp3_enc.full_eq ⟨_, _, _, ho⟩]
  show (iso2022_jp3_wctomb k wc).res [] = _
  unfold iso2022_jp3_wctomb
  rw [ho.last_eq, if_neg (not_not_intro rfl), ho.state_eq]

theorem tail_plain {k : Nat} (hk : k ≤ 5) : E.tail k = if jp3Set k = .ascii then [] else esc .ascii := by
  have ho := Jp3Os.plain hk
  rw [iso2022_jp3_enc.tail_eq ⟨_, _, _, ho⟩ (by simp [iso2022_jp3_encoder])]
  show (iso2022_jp3_tail k).map u8 = _
  unfold iso2022_jp3_tail
  rw [ho.last_eq, if_neg (not_not_intro rfl), ho.state_eq]
  have : k = 0 ∨ k = 1 ∨ k = 2 ∨ k = 3 ∨ k = 4 ∨ k = 5 := by omega
  rcases this with rfl | rfl | rfl | rfl | rfl | rfl <;> decide

theorem set_inj {a b : Nat} (ha : a ≤ 5) (hb : b ≤ 5) : jp3Set a = jp3Set b ↔ a = b := by
  have h1 : a = 0 ∨ a = 1 ∨ a = 2 ∨ a = 3 ∨ a = 4 ∨ a = 5 := by omega
  have h2 : b = 0 ∨ b = 1 ∨ b = 2 ∨ b = 3 ∨ b = 4 ∨ b = 5 := by omega
  rcases h1 with rfl | rfl | rfl | rfl | rfl | rfl <;> rcases h2 with rfl | rfl | rfl | rfl | rfl | rfl <;> simp [jp3Set]

section held
variable {os k h prev : Nat} (ho : Jp3Os os k h prev) (h0 : h ≠ 0)
include ho h0

theorem full_comp {wc : Nat} {l : List Nat} (hc : jxCompose jp3Comp h wc = some l) :
    E.full os wc = some ((if k = 4 then [] else esc (.jisx0213 1)) ++ l.map u8, 4) := by
  rw [iso2022_jp3_enc.full_eq ⟨_, _, _, ho⟩]
  show (iso2022_jp3_wctomb os wc).res [] = _
  unfold iso2022_jp3_wctomb
  rw [ho.last_eq, if_pos h0, hc, ho.state_eq]
  show some ([] ++ List.map u8 _, 4) = _
  by_cases hk : k = 4 <;> simp [hk, esc] <;> decide

theorem full_apart {wc : Nat} (hc : jxCompose jp3Comp h wc = none) :
    ∃ n, E.full os wc = (jp3_base n k wc).res ((if prev = k then [] else esc .jisx0208) ++ (jxLast h).map u8) := by
  rw [iso2022_jp3_enc.full_eq ⟨_, _, _, ho⟩]
  show ∃ n, (iso2022_jp3_wctomb os wc).res [] = _
  unfold iso2022_jp3_wctomb
  rw [ho.last_eq, if_pos h0, hc, ho.state_eq, ho.prev_eq]
  by_cases hp : prev = k
  · refine ⟨2, ?_⟩
    simp only [hp, ne_eq, not_true_eq_false, if_false, if_true]
    rfl
  · refine ⟨5, ?_⟩
    have hk : k = 3 := by have := ho.held h0; omega
    subst hk
    rw [if_neg hp, if_pos hp, if_pos hp, if_neg (not_not_intro rfl)]
    rfl

theorem tail_held : E.tail os = (if prev = k then [] else esc .jisx0208) ++ (jxLast h).map u8 ++ esc .ascii := by
  rw [iso2022_jp3_enc.tail_eq ⟨_, _, _, ho⟩ (by simp [iso2022_jp3_encoder])]
  show (iso2022_jp3_tail os).map u8 = _
  unfold iso2022_jp3_tail
  have hk : k ≠ 0 := by have := ho.held h0; omega
  rw [ho.last_eq, if_pos h0, ho.state_eq, ho.prev_eq, if_pos hk]
  by_cases hp : prev = k
  · simp [hp, esc]; decide
  · simp [hp, esc]; decide

end held

/-- The rest of the text is written from this state on. -/
def From (discard : Bool) (st : Nat) (cs : List Nat) (out : List Byte) (irr : Nat) : Prop :=
  ∃ bs st', Reiconv.writeAll (encChar E discard) st cs = some (bs, st', irr) ∧ out = bs ++ E.tail st'

theorem From.nil {discard : Bool} {st irr : Nat} {out : List Byte} : From discard st [] out irr ↔ out = E.tail st ∧ irr = 0 := by
  constructor
  · rintro ⟨bs, st', h, rfl⟩; cases h; exact ⟨rfl, rfl⟩
  · rintro ⟨rfl, rfl⟩; exact ⟨_, _, rfl, rfl⟩

theorem From.cons {discard : Bool} {st c irr : Nat} {cs : List Nat} {out : List Byte} : From discard st (c :: cs) out irr ↔
    ∃ b st1 i r j, encChar E discard st c = some (b, st1, i) ∧ From discard st1 cs r j ∧ out = b ++ r ∧ irr = i + j := by
  unfold From
  simp only [Reiconv.writeAll]
  constructor
  · rintro ⟨bs, st', h, rfl⟩
    split at h
    · cases h
    · rename_i b st1 i he
      split at h
      · cases h
      · rename_i r st2 j hw
        cases h
        exact ⟨b, st1, i, _, j, he, ⟨_, _, hw, rfl⟩, List.append_assoc .., rfl⟩
  · rintro ⟨b, st1, i, r, j, he, ⟨bs, st', hw, rfl⟩, rfl, rfl⟩
    refine ⟨b ++ bs, st', ?_, by rw [List.append_assoc]⟩
    rw [he]
    simp only [hw]

theorem From.some {discard : Bool} {st c st1 irr : Nat} {cs : List Nat} {b out : List Byte} (hf : E.full st c = some (b, st1)) :
    From discard st (c :: cs) out irr ↔ ∃ r, From discard st1 cs r irr ∧ out = b ++ r := by
  have he : encChar E discard st c = .some (b, st1, 0) := by unfold encChar; rw [hf]
  rw [From.cons, he]
  constructor
  · rintro ⟨_, _, _, r, j, h, hr, rfl, rfl⟩
    cases h
    exact ⟨r, by rw [Nat.zero_add]; exact hr, rfl⟩
  · rintro ⟨r, hr, rfl⟩
    exact ⟨_, _, _, r, irr, rfl, hr, rfl, (Nat.zero_add _).symm⟩

/-- A character that is left out, and the rest. -/
def Skip (discard : Bool) (c irr : Nat) (P : Nat → Prop) : Prop :=
  isTag c = true ∧ P irr ∨ isTag c = false ∧ discard = true ∧ ∃ i, irr = 1 + i ∧ P i

theorem Skip.congr {discard : Bool} {c irr : Nat} {P Q : Nat → Prop} (h : ∀ i, P i ↔ Q i) : Skip discard c irr P ↔ Skip discard c irr Q := by
  unfold Skip; simp only [h]

theorem From.none {discard : Bool} {st c irr : Nat} {cs : List Nat} {out : List Byte} (hf : E.full st c = none)
    (hf2 : E.full st 0xfffd = none) :
    From discard st (c :: cs) out irr ↔ Skip discard c irr (From discard st cs out) := by
  have he : encChar E discard st c = (if isTag c then Option.some ([], st, 0) else if discard then Option.some ([], st, 1) else Option.none) := by
    unfold encChar; rw [hf, hf2]
  rw [From.cons, he]
  unfold Skip
  constructor
  · rintro ⟨b, st1, i, r, j, h, hr, rfl, rfl⟩
    by_cases ht : isTag c = true
    · rw [if_pos ht] at h
      cases h
      exact .inl ⟨ht, by rw [Nat.zero_add]; exact hr⟩
    · rw [if_neg ht] at h
      by_cases hd : discard = true
      · rw [if_pos hd] at h
        cases h
        exact .inr ⟨by simpa using ht, hd, j, rfl, hr⟩
      · rw [if_neg hd] at h; cases h
  · rintro (⟨ht, hr⟩ | ⟨ht, hd, i, rfl, hr⟩)
    · exact ⟨[], st, 0, out, irr, by rw [if_pos ht], hr, rfl, (Nat.zero_add _).symm⟩
    · exact ⟨[], st, 1, out, i, by rw [if_neg (by simp [ht]), if_pos hd], hr, rfl, rfl⟩

theorem kept_missing {discard : Bool} {pv c irr : Nat} {cs ds : List Nat} (hm : Lost pv c) :
    Kept discard pv (c :: cs) ds irr ↔ Skip discard c irr (Kept discard pv cs ds) := by
  constructor
  · intro h
    cases h with
    | char h _ => exact absurd hm h
    | tag _ ht h => exact .inl ⟨ht, h⟩
    | drop _ ht hd h => exact .inr ⟨ht, hd, _, rfl, h⟩
  · rintro (⟨ht, h⟩ | ⟨ht, hd, i, rfl, h⟩)
    · exact .tag hm ht h
    · exact .drop hm ht hd h

theorem kept_there {discard : Bool} {pv c irr : Nat} {cs ds : List Nat} (hm : ¬ Lost pv c) :
    Kept discard pv (c :: cs) ds irr ↔ ∃ ds', ds = c :: ds' ∧ Kept discard c cs ds' irr := by
  constructor
  · intro h
    cases h with
    | char _ h => exact ⟨_, rfl, h⟩
    | tag h _ _ => exact absurd h hm
    | drop h _ _ _ => exact absurd h hm
  · rintro ⟨ds', rfl, h⟩
    exact .char hm h

theorem kept_nil {discard : Bool} {pv irr : Nat} {ds : List Nat} : Kept discard pv [] ds irr ↔ ds = [] ∧ irr = 0 := by
  constructor
  · intro h; cases h; exact ⟨rfl, rfl⟩
  · rintro ⟨rfl, rfl⟩; exact .nil

/-- The specification from the set `g` on, with the characters `pre` before the text. -/
def Spec (discard : Bool) (pv : Nat) (g : Set) (pre cs : List Nat) (out : List Byte) (irr : Nat) : Prop :=
  ∃ ds o g', Kept discard pv cs ds irr ∧ Writes g (pre ++ ds) o g' ∧ out = o ++ (if g' = .ascii then [] else esc .ascii)

theorem Spec.missing {discard : Bool} {g : Set} {pre cs : List Nat} {pv c irr : Nat} {out : List Byte} (hm : Lost pv c) :
    Spec discard pv g pre (c :: cs) out irr ↔ Skip discard c irr (Spec discard pv g pre cs out) := by
  unfold Spec
  simp only [kept_missing hm]
  constructor
  · rintro ⟨ds, o, g', ⟨ht, h⟩ | ⟨ht, hd, i, rfl, h⟩, hw, ho⟩
    · exact .inl ⟨ht, ds, o, g', h, hw, ho⟩
    · exact .inr ⟨ht, hd, i, rfl, ds, o, g', h, hw, ho⟩
  · rintro (⟨ht, ds, o, g', h, hw, ho⟩ | ⟨ht, hd, i, rfl, ds, o, g', h, hw, ho⟩)
    · exact ⟨ds, o, g', .inl ⟨ht, h⟩, hw, ho⟩
    · exact ⟨ds, o, g', .inr ⟨ht, hd, i, rfl, h⟩, hw, ho⟩

theorem Spec.there {discard : Bool} {g : Set} {pre cs : List Nat} {pv c irr : Nat} {out : List Byte} (hm : ¬ Lost pv c) :
    Spec discard pv g pre (c :: cs) out irr ↔ Spec discard c g (pre ++ [c]) cs out irr := by
  unfold Spec
  constructor
  · rintro ⟨ds, o, g', h, hw, ho⟩
    obtain ⟨ds', rfl, h'⟩ := (kept_there hm).1 h
    exact ⟨ds', o, g', h', by rw [List.append_assoc]; exact hw, ho⟩
  · rintro ⟨ds, o, g', h, hw, ho⟩
    exact ⟨c :: ds, o, g', (kept_there hm).2 ⟨ds, rfl, h⟩, by rw [List.append_assoc] at hw; exact hw, ho⟩

/-- Two specifications that differ in what is written first. -/
theorem Spec.step {discard : Bool} {pv : Nat} {g g1 : Set} {p p1 cs : List Nat} {irr : Nat} {out b : List Byte}
    (h : ∀ ds o g', Writes g (p ++ ds) o g' ↔ ∃ r, Writes g1 (p1 ++ ds) r g' ∧ o = b ++ r) :
    Spec discard pv g p cs out irr ↔ ∃ r, Spec discard pv g1 p1 cs r irr ∧ out = b ++ r := by
  unfold Spec
  simp only [h]
  constructor
  · rintro ⟨ds, o, g', hk, ⟨r, hw, rfl⟩, rfl⟩
    exact ⟨_, ⟨ds, r, g', hk, hw, rfl⟩, by rw [List.append_assoc]⟩
  · rintro ⟨r, ⟨ds, o, g', hk, hw, rfl⟩, rfl⟩
    exact ⟨ds, _, g', hk, ⟨o, hw, rfl⟩, by rw [List.append_assoc]⟩

/-- A character that forms no pair with what follows. -/
theorem writes_one {g x : Set} {c : Nat} {b o : List Byte} {ds : List Nat} {g' : Set}
    (hf : ∀ y c', First c order y c' ↔ y = x ∧ c' = b) (hn : ∀ c2 rest b2, ds = c2 :: rest → ¬ Pair c c2 b2) :
    Writes g (c :: ds) o g' ↔ ∃ r, Writes x ds r g' ∧ o = (if g = x then [] else esc x) ++ b ++ r := by
  constructor
  · intro h
    cases h with
    | one h1 _ h2 =>
      obtain ⟨rfl, rfl⟩ := (hf _ _).1 h1
      exact ⟨_, h2, rfl⟩
    | again h1 _ _ => exact absurd h1 (hn _ _ _ rfl)
    | two h1 _ _ => exact absurd h1 (hn _ _ _ rfl)
  · rintro ⟨r, h, rfl⟩
    exact .one ((hf _ _).2 ⟨rfl, rfl⟩) hn h

/-- The first character is in plane 1 and not in JIS X 0208: the designation can be written first. -/
theorem writes_plane {g : Set} {c : Nat} {b o : List Byte} {ds : List Nat} {g' : Set}
    (hf : ∀ y c', First c order y c' ↔ y = .jisx0213 1 ∧ c' = b) (h208 : ∀ d, ¬ Has .jisx0208 d c) :
    Writes g (c :: ds) o g' ↔ ∃ r, Writes (.jisx0213 1) (c :: ds) r g' ∧
      o = (if g = .jisx0213 1 then [] else esc (.jisx0213 1)) ++ r := by
  constructor
  · intro h
    cases h with
    | one h1 h3 h2 =>
      obtain ⟨rfl, rfl⟩ := (hf _ _).1 h1
      exact ⟨_, .one h1 h3 h2, by simp⟩
    | again _ h1 _ => exact absurd h1 (h208 _)
    | two h1 h3 h2 => exact ⟨_, .two h1 h3 h2, by simp⟩
  · rintro ⟨r, h, rfl⟩
    cases h with
    | one h1 h3 h2 =>
      obtain ⟨rfl, rfl⟩ := (hf _ _).1 h1
      have := Writes.one (g := g) h1 h3 h2
      simpa using this
    | again _ h1 _ => exact absurd h1 (h208 _)
    | two h1 h3 h2 =>
      have := Writes.two (g := g) h1 h3 h2
      simpa using this

theorem pair_unique {c1 c2 : Nat} {b b' : List Byte} (h : Pair c1 c2 b) (h' : Pair c1 c2 b') : b = b' := by
  have hm := (pair_jx b).1 h
  obtain ⟨x, y, _, _, _, hm⟩ := hm
  obtain ⟨⟨hw, _⟩, h8, _⟩ := pairs_chk _ hm
  obtain ⟨l, h1, rfl⟩ := (pair_iff hw h8 _).1 h
  obtain ⟨l', h1', rfl⟩ := (pair_iff hw h8 _).1 h'
  rw [h1] at h1'
  cases h1'
  rfl

theorem mark_chk : ∀ p ∈ eucJxPairs, (p.2.2 ≠ 0xfffd ∧ isTag p.2.2 = false) ∧ (∀ q ∈ eucJxPairs, q.2.1 = p.2.2 → 0x80 ≤ q.2.2 ∧ jx_fromF q.2.2 ≠ 0) := by
  decide +kernel

theorem jx_there {c : Nat} (hw : 0x80 ≤ c) (h0 : jx_fromF c ≠ 0) : ¬ Missing c order := by
  intro hm
  have hp : planeOf (jx_fromF c) = 1 ∨ planeOf (jx_fromF c) = 2 := by unfold planeOf; split <;> simp
  refine hm (.jisx0213 (planeOf (jx_fromF c))) ?_ _ ((jx_has hw h0 hp _).2 ⟨rfl, rfl⟩)
  rcases hp with h | h <;> rw [h] <;> decide

/-- `c` forms no pair with a character that is in none of the sets. -/
def Last (c : Nat) : Prop := ∀ c2 b, Missing c2 order → ¬ Pair c c2 b

/-- The second character of a pair is so. -/
theorem pair_last {c1 c2 : Nat} {b : List Byte} (h : Pair c1 c2 b) : Last c2 := by
  intro c3 b' hm h'
  obtain ⟨x, y, _, _, _, h⟩ := (pair_jx b).1 h
  obtain ⟨x', y', _, _, _, h'⟩ := (pair_jx b').1 h'
  obtain ⟨h1, h2⟩ := (mark_chk _ h).2 _ h' rfl
  exact jx_there h1 h2 hm

theorem pair_second {c1 c2 : Nat} {b : List Byte} (h : Pair c1 c2 b) : c2 ≠ 0xfffd ∧ isTag c2 = false := by
  obtain ⟨x, y, _, _, _, h⟩ := (pair_jx b).1 h
  exact (mark_chk _ h).1

theorem fffd_missing : Missing 0xfffd order := by
  have h0 : jx_fromF 0xfffd = 0 := by decide +kernel
  simp only [Missing, order, List.forall_mem_cons]
  refine ⟨fffd_ascii, fffd_roman, fffd_jisx0208, jx_no (by omega) h0 1, jx_no (by omega) h0 2, ?_, fun _ h => (nomatch h)⟩
  rintro b ⟨h, _⟩
  obtain ⟨a, h, _⟩ := (kana_hp b).1 h
  rw [show (jisx0201_w 0xfffd).res = none by decide +kernel] at h
  cases h

theorem base_none {c : Nat} (hm : Missing c order) (count st : Nat) (acc : List Byte) : (jp3_base count st c).res acc = none := by
  cases classify c with
  | plain k b _ hf _ => exact absurd hm (first_missing ((hf _ _).2 ⟨rfl, rfl⟩))
  | holds k b h _ hf _ => exact absurd hm (first_missing ((hf _ _).2 ⟨rfl, rfl⟩))
  | missing _ _ h => exact h _ _ _

theorem full_missing_plain {k c : Nat} (hk : k ≤ 5) (hm : Missing c order) : E.full k c = none := by
  rw [full_plain hk, base_none hm]

theorem writes {discard : Bool} : ∀ (cs : List Nat) (out : List Byte) (irr : Nat),
    (∀ pv k, Last pv → k ≤ 5 → (From discard k cs out irr ↔ Spec discard pv (jp3Set k) [] cs out irr)) ∧
    (∀ c k b h prev os, (∀ y c', First c order y c' ↔ y = jp3Set k ∧ c' = b) → Holds c k b h → Jp3Os os k h prev →
      (From discard os cs out irr ↔ Spec discard c (jp3Set prev) [c] cs out irr)) := by
  intro cs
  induction cs with
  | nil =>
    intro out irr
    constructor
    · intro pv k _ hk
      rw [From.nil, tail_plain hk]
      constructor
      · rintro ⟨rfl, rfl⟩
        exact ⟨[], [], _, .nil, .nil, rfl⟩
      · rintro ⟨ds, o, g', hd, hw, rfl⟩
        obtain ⟨rfl, rfl⟩ := kept_nil.1 hd
        cases hw
        exact ⟨rfl, rfl⟩
    · intro c k b h prev os hf hh ho
      obtain ⟨h0, _, hl, _, _⟩ := hh
      have hk := ho.held h0
      rw [From.nil, tail_held ho h0, hl]
      have hone : ∀ ds o g', ds = [] → (Writes (jp3Set prev) ([c] ++ ds) o g' ↔ ∃ r, Writes (jp3Set k) ds r g' ∧
          o = (if jp3Set prev = jp3Set k then [] else esc (jp3Set k)) ++ b ++ r) := by
        rintro ds o g' rfl
        exact writes_one hf (by rintro _ _ _ ⟨⟩)
      have hne : jp3Set k ≠ .ascii := by
        have := set_inj ho.st_le (b := 0) (by omega)
        intro e
        have := this.1 e
        omega
      have hesc : (if prev = k then [] else esc .jisx0208) = (if jp3Set prev = jp3Set k then [] else esc (jp3Set k)) := by
        simp only [set_inj ho.prev_le ho.st_le]
        by_cases hp : prev = k
        · rw [if_pos hp, if_pos hp]
        · rw [if_neg hp, if_neg hp]
          have : k = 3 := by omega
          rw [this]; rfl
      rw [hesc]
      constructor
      · rintro ⟨rfl, rfl⟩
        refine ⟨[], _, _, .nil, (hone [] _ _ rfl).2 ⟨[], .nil, rfl⟩, ?_⟩
        rw [if_neg hne, List.append_nil]
      · rintro ⟨ds, o, g', hd, hw, rfl⟩
        obtain ⟨rfl, rfl⟩ := kept_nil.1 hd
        obtain ⟨r, hr, rfl⟩ := (hone [] _ _ rfl).1 hw
        cases hr
        rw [if_neg hne, List.append_nil]
        exact ⟨rfl, rfl⟩
  | cons c cs ih =>
    -- `c` is in one of the sets and is written after `acc`
    have key : ¬ Missing c order → ∀ n k acc st out irr, k ≤ 5 → E.full st c = (jp3_base n k c).res acc →
        (From discard st (c :: cs) out irr ↔ ∃ r, Spec discard c (jp3Set k) [c] cs r irr ∧ out = acc ++ r) := by
      intro hm n k acc st out irr hk hst
      cases classify c with
      | plain k' b hk' hf hp =>
        rw [hp.2] at hst
        rw [From.some hst]
        have hs : ∀ r, Spec discard c (jp3Set k) [c] cs r irr ↔ ∃ r', Spec discard c (jp3Set k') [] cs r' irr ∧
            r = (if k = k' then [] else esc (jp3Set k')) ++ b ++ r' := by
          intro r
          apply Spec.step
          intro ds o g'
          have := writes_one (g := jp3Set k) (ds := ds) (o := o) (g' := g') hf (fun c2 rest b2 _ => hp.1 c2 b2)
          simp only [set_inj hk hk'] at this
          exact this
        simp only [hs, (ih _ irr).1 c k' (fun c2 b _ => hp.1 c2 b) hk']
        constructor
        · rintro ⟨r, h, rfl⟩
          exact ⟨_, ⟨r, h, rfl⟩, by simp⟩
        · rintro ⟨_, ⟨r, h, rfl⟩, rfl⟩
          exact ⟨r, h, by simp⟩
      | holds k' b h hk' hf hh =>
        have hh' := hh
        obtain ⟨h0, hlt, _, _, ⟨rfl, _, hr⟩ | ⟨rfl, h208, hr⟩⟩ := hh
        · rw [hr] at hst
          rw [From.some hst]
          have ho := jp3Os_held hk hlt h0 (.inl (Eq.refl 3))
          simp only [(ih _ irr).2 c 3 b h k _ hf hh' ho]
        · rw [hr] at hst
          rw [From.some hst]
          have ho := jp3Os_held (prev := 4) (by omega) hlt h0 (.inr ⟨Eq.refl 4, rfl⟩)
          have hs : ∀ r, Spec discard c (jp3Set k) [c] cs r irr ↔ ∃ r', Spec discard c (jp3Set 4) [c] cs r' irr ∧
              r = (if k = 4 then [] else esc (.jisx0213 1)) ++ r' := by
            intro r
            apply Spec.step
            intro ds o g'
            have := writes_plane (g := jp3Set k) (ds := ds) (o := o) (g' := g') hf h208
            have e : jp3Set k = .jisx0213 1 ↔ k = 4 := set_inj hk (b := 4) (by omega)
            simp only [e] at this
            exact this
          simp only [hs, (ih _ irr).2 c 4 b h 4 _ hf hh' ho]
          constructor
          · rintro ⟨r, h, rfl⟩
            exact ⟨_, ⟨r, h, rfl⟩, by simp⟩
          · rintro ⟨_, ⟨r, h, rfl⟩, rfl⟩
            exact ⟨r, h, by simp⟩
      | missing h _ _ => exact absurd h hm
    intro out irr
    constructor
    · intro pv k hpv hk
      by_cases hm : Missing c order
      · rw [From.none (full_missing_plain hk hm) (full_missing_plain hk fffd_missing), Spec.missing ⟨hm, fun b => hpv c b hm⟩]
        exact Skip.congr fun i => (ih out i).1 pv k hpv hk
      · rw [key hm 0 k [] k out irr hk (full_plain hk c), Spec.there fun h => hm h.1]
        simp
    · intro c1 k b h prev os hf hh ho
      have hh' := hh
      obtain ⟨h0, hlt, hl, hp, hcase⟩ := hh
      have hheld := ho.held h0
      have hk := ho.st_le
      have hesc : (if prev = k then [] else esc .jisx0208) = (if jp3Set prev = jp3Set k then [] else esc (jp3Set k)) := by
        simp only [set_inj ho.prev_le ho.st_le]
        by_cases hp : prev = k
        · rw [if_pos hp, if_pos hp]
        · rw [if_neg hp, if_neg hp]
          have : k = 3 := by omega
          rw [this]; rfl
      have hnone : ∀ c', Missing c' order → (∀ b, ¬ Pair c1 c' b) → E.full os c' = none := by
        intro c' hm hn
        cases hc : jxCompose jp3Comp h c' with
        | none =>
          obtain ⟨n, e⟩ := full_apart ho h0 hc
          rw [e, base_none hm]
        | some l => exact absurd ((hp _ _).2 ⟨l, hc, rfl⟩) (hn _)
      cases hc : jxCompose jp3Comp h c with
      | some l =>
        have hpair : Pair c1 c (l.map u8) := (hp _ _).2 ⟨l, hc, rfl⟩
        rw [From.some (full_comp ho h0 hc), Spec.there fun h => h.2 _ hpair]
        simp only [(ih _ irr).1 c 4 (pair_last hpair) (by omega)]
        refine (Spec.step fun ds o g' => ?_).symm
        show Writes (jp3Set prev) (c1 :: c :: ds) o g' ↔ ∃ r, Writes (.jisx0213 1) ds r g' ∧ _
        constructor
        · intro hw
          cases hw with
          | one _ h1 _ => exact absurd hpair (h1 _ _ _ rfl)
          | again h1 h2 h3 =>
            rw [pair_unique h1 hpair]
            rcases hcase with ⟨rfl, _, _⟩ | ⟨_, h4, _⟩
            · exact ⟨_, h3, by simp⟩
            · exact absurd h2 (h4 _)
          | two h1 h2 h3 =>
            rw [pair_unique h1 hpair]
            rcases hcase with ⟨_, ⟨d, h4⟩, _⟩ | ⟨rfl, h4, _⟩
            · exact absurd h4 (h2 _)
            · have : prev = 4 := by omega
              subst this
              exact ⟨_, h3, by simp [jp3Set]⟩
        · rintro ⟨r, h3, rfl⟩
          rcases hcase with ⟨rfl, ⟨d, h4⟩, _⟩ | ⟨rfl, h4, _⟩
          · have := Writes.again (g := jp3Set prev) hpair h4 h3
            simpa using this
          · have : prev = 4 := by omega
            subst this
            have := Writes.two (g := jp3Set 4) hpair h4 h3
            simpa [jp3Set] using this
      | none =>
        have hnp : ∀ b2, ¬ Pair c1 c b2 := by
          intro b2 h1
          obtain ⟨l, h1, _⟩ := (hp _ _).1 h1
          rw [hc] at h1
          cases h1
        by_cases hm : Missing c order
        · rw [From.none (hnone c hm hnp) (hnone _ fffd_missing fun b h => (pair_second h).1 rfl), Spec.missing ⟨hm, hnp⟩]
          exact Skip.congr fun i => (ih out i).2 c1 k b h prev os hf hh' ho
        · rw [Spec.there fun h => hm h.1]
          obtain ⟨n, e⟩ := full_apart ho h0 hc
          rw [key hm n k _ os out irr hk e, hl, hesc]
          refine (Spec.step fun ds o g' => ?_).symm
          refine writes_one hf ?_
          rintro c2 rest b2 he h1
          cases he
          exact hnp _ h1

theorem text_iff {discard : Bool} {cs : List Nat} {out : List Byte} {irr : Nat} : Text discard cs out irr ↔
    ∃ bs st, Reiconv.writeAll (encChar E discard) 0 cs = some (bs, st, irr) ∧ out = bs ++ E.tail st :=
  ((writes cs out irr).1 0 0 (fun _ b _ => no_pair (.inl (by omega)) _ b) (by omega)).symm

end Reiconv.Jp3W

namespace Reiconv

open Jp3W

/-! ## The property -/

/-- C63: the conversion of a text to ISO-2022-JP-3 is what the specification says, for every source encoding, with and
without the discard flag. -/
theorem C63_writes (A : Entry) (discard : Bool) (inp : List Byte) (cs : List Nat) (h : A.Text inp cs) (out : List Byte) (irr : Nat) :
    Whole A.atom (A.conv iso2022_jp3_entry discard) St.init inp out irr ↔ Jp3W.Text discard cs out irr :=
  (whole_iff_write h out irr).trans Jp3W.text_iff.symm

/-- C63 at the API: if the specification gives bytes for the text then `reiconv_result_size` returns their number, and
`reiconv_convert_static_size` writes exactly these bytes into a buffer that has 64 bytes more. If it gives none then
`reiconv_result_size` fails with `EILSEQ`. -/
theorem C63_api (A : Entry) (discard : Bool) (inp : List Byte) (cs : List Nat) (h : A.Text inp cs) :
    (∀ out irr, Jp3W.Text discard cs out irr →
      (∃ s, resultSize (A.conv iso2022_jp3_entry discard) St.init inp = .ok (.ok out.length, s)) ∧
      ∀ room : List Byte, out.length + 64 ≤ room.length → ∃ s b,
        convertStatic (A.conv iso2022_jp3_entry discard) St.init inp ⟨false, [], room⟩ = .ok (.ok (), s, b) ∧ b.out = out) ∧
    ((¬ ∃ out irr, Jp3W.Text discard cs out irr) →
      ∃ s, resultSize (A.conv iso2022_jp3_entry discard) St.init inp = .ok (.error .EILSEQ, s)) := by
  obtain ⟨sz, s1, h1, _, _, h2⟩ := size_whole A iso2022_jp3_entry discard inp
  constructor
  · intro out irr hj
    have hw := (C63_writes A discard inp cs h out irr).2 hj
    constructor
    · rcases h2 with ⟨n, o, i, rfl, hw', rfl, _⟩ | ⟨_, hno⟩
      · obtain ⟨rfl, _⟩ := whole_det hw hw'
        exact ⟨s1, h1⟩
      · exact absurd hw (hno _ _)
    · intro room hroom
      obtain ⟨ret, s2, b, hx, hl, h5⟩ := static_whole A iso2022_jp3_entry discard St.init A.decOK.inv_init
        iso2022_jp3_entry.encOK.inv_init inp room hw (.inl (by omega))
      rcases h5 with ⟨rfl, h5, _⟩ | ⟨_, h5, ⟨rest, h6⟩, _⟩
      · exact ⟨s2, b, hx, h5⟩
      · rw [h6, List.length_append] at hroom
        omega
  · intro hno
    rcases h2 with ⟨n, o, i, rfl, hw', _⟩ | ⟨rfl, _⟩
    · exact absurd ⟨_, _, (C63_writes A discard inp cs h _ _).1 hw'⟩ hno
    · exact ⟨s1, h1⟩

/-- The specification gives at most one result. -/
theorem C63_unique {discard : Bool} {cs : List Nat} {o o' : List Byte} {i i' : Nat}
    (h : Jp3W.Text discard cs o i) (h' : Jp3W.Text discard cs o' i') : o = o' ∧ i = i' := by
  obtain ⟨b, s, e, rfl⟩ := Jp3W.text_iff.1 h
  obtain ⟨b', s', e', rfl⟩ := Jp3W.text_iff.1 h'
  rw [e] at e'
  cases e'
  exact ⟨rfl, rfl⟩

/-- Each of the characters has a code, alone or together with the one before. -/
def Jp3W.Chain : Nat → List Nat → Prop
  | _, [] => True
  | pv, c :: ds => ¬ Lost pv c ∧ Jp3W.Chain c ds

theorem Jp3W.kept_chain {discard : Bool} {pv irr : Nat} {cs ds : List Nat} (h : Kept discard pv cs ds irr) : Chain pv ds := by
  induction h with
  | nil => trivial
  | char h _ ih => exact ⟨h, ih⟩
  | tag _ _ _ ih => exact ih
  | drop _ _ _ _ ih => exact ih

theorem Jp3W.writes_all : ∀ (n : Nat) (pv : Nat) (ds : List Nat), ds.length ≤ n → Last pv → Chain pv ds →
    ∀ g, ∃ o g', Writes g ds o g' := by
  have hfirst : ∀ c, ¬ IsoW.Missing c order → ∃ x b, IsoW.First c order x b ∧ ∀ ds, (∀ c2 rest, ds = c2 :: rest → ∀ b, ¬ Pair c c2 b) →
      Chain c ds → Chain 0 ds := by
    intro c hm
    have h2 : ∀ ds, (∀ c2 rest, ds = c2 :: rest → ∀ b, ¬ Pair c c2 b) → Chain c ds → Chain 0 ds := by
      intro ds hn hc
      cases ds with
      | nil => trivial
      | cons c2 rest => exact ⟨fun h => hc.1 ⟨h.1, hn _ _ rfl⟩, hc.2⟩
    cases classify c with
    | plain k b _ hf _ => exact ⟨_, _, (hf _ _).2 ⟨rfl, rfl⟩, h2⟩
    | holds k b h _ hf _ => exact ⟨_, _, (hf _ _).2 ⟨rfl, rfl⟩, h2⟩
    | missing h _ _ => exact absurd h hm
  intro n
  induction n with
  | zero =>
    intro pv ds hn _ _ g
    cases ds with
    | nil => exact ⟨_, _, .nil⟩
    | cons => simp at hn
  | succ n ih =>
    intro pv ds hn hl hc g
    cases ds with
    | nil => exact ⟨_, _, .nil⟩
    | cons c ds =>
      simp only [List.length_cons] at hn
      have hm : ¬ IsoW.Missing c order := fun hm => hc.1 ⟨hm, fun b => hl c b hm⟩
      by_cases hp : ∃ c2 rest b, ds = c2 :: rest ∧ Pair c c2 b
      · obtain ⟨c2, rest, b, rfl, hp⟩ := hp
        simp only [List.length_cons] at hn
        obtain ⟨o, g', hw⟩ := ih c2 rest (by omega) (pair_last hp) hc.2.2 (.jisx0213 1)
        by_cases h8 : ∃ d, IsoW.Has .jisx0208 d c
        · obtain ⟨d, h8⟩ := h8
          exact ⟨_, _, .again hp h8 hw⟩
        · exact ⟨_, _, .two hp (fun d h => h8 ⟨d, h⟩) hw⟩
      · have hnp : ∀ c2 rest, ds = c2 :: rest → ∀ b, ¬ Pair c c2 b := fun c2 rest he b h => hp ⟨c2, rest, b, he, h⟩
        obtain ⟨x, b, hf, hch⟩ := hfirst c hm
        obtain ⟨o, g', hw⟩ := ih 0 ds (by omega) (fun _ b _ => no_pair (.inl (by omega)) _ b) (hch ds hnp hc.2) x
        exact ⟨_, _, .one hf (fun c2 rest b2 he => hnp c2 rest he b2) hw⟩

/-- The texts that can be written: those from which no character must be left out that may not be left out. -/
theorem C63_exists (discard : Bool) (cs : List Nat) :
    (∃ out irr, Jp3W.Text discard cs out irr) ↔ ∃ ds irr, Kept discard 0 cs ds irr := by
  constructor
  · rintro ⟨out, irr, ds, o, g, h, _, _⟩
    exact ⟨ds, irr, h⟩
  · rintro ⟨ds, irr, h⟩
    obtain ⟨o, g, hw⟩ := Jp3W.writes_all _ 0 ds (Nat.le_refl _) (fun _ b _ => no_pair (.inl (by omega)) _ b) (kept_chain h) .ascii
    exact ⟨_, _, ds, o, g, h, hw, rfl⟩

/-- With `discard` every text can be written, and without it at least every text of tag characters and characters that
are in one of the sets. -/
theorem C63_can (discard : Bool) (cs : List Nat) (h : discard = true ∨ ∀ wc ∈ cs, isTag wc = true ∨ ¬ IsoW.Missing wc order) :
    ∃ out irr, Jp3W.Text discard cs out irr := by
  rw [C63_exists]
  generalize 0 = pv
  induction cs generalizing pv with
  | nil => exact ⟨_, _, .nil⟩
  | cons c cs ih =>
    have ih := ih (h.imp id fun h x hx => h x (by simp [hx]))
    by_cases hm : Lost pv c
    · obtain ⟨ds, irr, hk⟩ := ih pv
      by_cases ht : isTag c = true
      · exact ⟨_, _, .tag hm ht hk⟩
      · have hd : discard = true := by
          rcases h with h | h
          · exact h
          · exact absurd hm.1 ((h c (by simp)).resolve_left ht)
        exact ⟨_, _, .drop hm (by simpa using ht) hd hk⟩
    · obtain ⟨ds, irr, hk⟩ := ih c
      exact ⟨_, _, .char hm hk⟩

/-- The mark U+309A can be written after か but not alone. -/
theorem C63_mark : (¬ ∃ out irr, Jp3W.Text false [0x309a] out irr) ∧
    Jp3W.Text false [0x304b, 0x309a] [0x1b, 0x24, 0x28, 0x51, 0x24, 0x77, 0x1b, 0x28, 0x42] 0 := by
  constructor
  · rintro ⟨out, irr, h⟩
    obtain ⟨bs, st, h, _⟩ := Jp3W.text_iff.1 h
    have : Reiconv.writeAll (encChar Jp3W.E false) 0 [0x309a] = none := by decide +kernel
    rw [this] at h
    cases h
  · exact Jp3W.text_iff.2 ⟨_, _, by rfl, by decide +kernel⟩

/-- The designation of plane 1 is repeated before the second か゚ (U+304B U+309A), although plane 1 is in G0. It is not
repeated before the second ㇷ゚ (U+31F7 U+309A), which JIS X 0208 does not have. -/
theorem C63_redundant :
    Jp3W.Text false [0x304b, 0x309a, 0x304b, 0x309a]
      [0x1b, 0x24, 0x28, 0x51, 0x24, 0x77, 0x1b, 0x24, 0x28, 0x51, 0x24, 0x77, 0x1b, 0x28, 0x42] 0 ∧
    Jp3W.Text false [0x31f7, 0x309a, 0x31f7, 0x309a] [0x1b, 0x24, 0x28, 0x51, 0x26, 0x78, 0x26, 0x78, 0x1b, 0x28, 0x42] 0 :=
  ⟨Jp3W.text_iff.2 ⟨_, _, by rfl, by decide +kernel⟩, Jp3W.text_iff.2 ⟨_, _, by rfl, by decide +kernel⟩⟩

/-- All six sets; か without a mark; a character that is left out between か and its mark. -/
example : Jp3W.Text true [0x41, 0xa5, 0x304b, 0x20089, 0xff71, 0x304b, 0x0e01, 0x309a, 0x1f1]
      [0x41, 0x1b, 0x28, 0x4a, 0x5c, 0x1b, 0x24, 0x42, 0x24, 0x2b, 0x1b, 0x24, 0x28, 0x50, 0x21, 0x21, 0x1b, 0x28, 0x49, 0x31,
        0x1b, 0x24, 0x28, 0x51, 0x24, 0x77, 0x1b, 0x28, 0x42] 2 :=
  Jp3W.text_iff.2 ⟨_, _, by rfl, by decide +kernel⟩

end Reiconv
