import Verif.Codec.Jp3
import Verif.Codec.SimJpms
import Verif.Gen.TabEucJx

/-!
# ISO-2022-JP-3 texts come back
-/

namespace Reiconv

/-! ### The codes of JIS X 0213 -/

/-- The plane and row, and the column, for a code: as in the decoders. -/
def jchRow (d : Nat) : Nat := (if d &&& 0x8000 ≠ 0 then 0x200 else 0x100) + (d >>> 8 &&& 0x7f)

theorem jch_or80 : ∀ a, a < 256 → (a ||| 0x80) = 0x80 + (a &&& 0x7f) := by decide +kernel
theorem jch_xor80 : ∀ a, a < 256 → (a ||| 0x80) ^^^ 0x80 = a &&& 0x7f := by decide +kernel

theorem jxKana_zero : ∀ i < 63, jx_fromF (0xff61 + i) = 0 := by
  intro i hi
  have := fin_all (n := 63) (p := fun i => jx_fromF (0xff61 + i) == 0) (by decide +kernel) i hi
  simpa using this

theorem jch_lt {d : Nat} (h : JchOK d) : d < 65536 := by
  have := h.small
  have := Nat.left_le_or (n := d) (m := 0x8080)
  omega

theorem run_andThen_some {α β : Type} {f : α → M β} {m : M α} {s : List Byte} {r : β}
    (h : (m.andThen f).run s = .ok (some r)) : ∃ a, m.run s = .ok (some a) ∧ (f a).run s = .ok (some r) := by
  rw [M.run_andThen] at h
  cases hm : m.run s with
  | ok x =>
    cases x with
    | some a => rw [hm] at h; exact ⟨a, rfl, h⟩
    | none => rw [hm] at h; cases h
  | ub => rw [hm] at h; cases h
  | abort => rw [hm] at h; cases h
  | diverge => rw [hm] at h; cases h

theorem jx_char {v wc n m : Nat} {s : List Byte} {a : JxRes} (h : (M.ret (jxRes v n)).run s = .ok (some a))
    (h2 : (M.ret a.toRet).run s = .ok (some (.char wc m))) : v = wc := by
  simp only [M.run, Outcome.ok.injEq, Option.some.injEq] at h h2
  subst h
  unfold jxRes at h2
  split at h2
  · cases h2
  · split at h2
    · cases h2
    · cases h2
      rfl

/-- What is in the set is found again at its code. -/
theorem jx_back_row {wc : Nat} (hw : 0x80 ≤ wc) (h0 : jx_fromF wc ≠ 0) :
    jx_toF (jchRow (jx_fromF wc)) (jx_fromF wc &&& 0x7f) = wc ∧ 0x21 ≤ jx_fromF wc >>> 8 &&& 0x7f := by
  have hk : ¬ (wc ≥ 0xff61 ∧ wc ≤ 0xff9f) := by
    intro h
    have := jxKana_zero (wc - 0xff61) (by omega)
    rw [show 0xff61 + (wc - 0xff61) = wc by omega] at this
    exact h0 this
  have hj := (jx_from_ok wc).resolve_left h0
  have hlt := jch_lt hj
  have ht := euc_jx_table
  have he : ∀ bs, (euc_jx_wctomb wc).res = some bs → bs ≠ [] → euc_jx_mbtowc.run bs = .ok (some (.char wc bs.length)) := by
    intro bs hr hb
    have h1 := (ht.enc_iff wc bs).1 hr
    have h2 : (bs, wc) ∈ tableOf (pieceTabs euc_jx_pieces) := by
      have e : euc_jx_irr = [] := rfl
      rw [e] at h1
      simpa using h1
    exact M.val_char ((ht.dec_iff bs wc bs.length hb).2 ⟨Nat.le_refl _, by rw [List.take_length]; exact h2⟩)
  have hhi : jx_fromF wc >>> 8 < 256 := by rw [Nat.shiftRight_eq_div_pow]; omega
  have hlo : jx_fromF wc &&& 0xff < 256 := by have := Nat.and_le_right (n := jx_fromF wc) (m := 0xff); omega
  have hcol : (jx_fromF wc &&& 0xff) &&& 0x7f = jx_fromF wc &&& 0x7f := by rw [Nat.and_assoc]; rfl
  unfold euc_jx_wctomb at he
  rw [if_neg (by omega), if_neg hk, jxFromW_fast, forceN_eq, if_pos h0] at he
  unfold jchRow
  generalize jx_fromF wc = d at *
  have e1 := jch_or80 _ hhi
  have e2 := jch_or80 _ hlo
  have e3 := jch_xor80 _ hlo
  have l1 := Nat.and_le_right (n := d >>> 8) (m := 0x7f)
  have l2 := Nat.and_le_right (n := d &&& 0xff) (m := 0x7f)
  by_cases hp : d &&& 0x8000 ≠ 0
  · rw [if_pos hp] at he ⊢
    have he := he _ rfl (by simp)
    unfold euc_jx_mbtowc jxSingle at he
    obtain ⟨a, he, ha⟩ := run_andThen_some he
    simp only [List.map_cons, List.map_nil, euc_jx] at he
    rw [M.run_byte0, if_neg (by decide), if_pos (by decide), M.run_need (by simp), M.run_byte1] at he
    have u1 : (u8 (d >>> 8 ||| 0x80)).toNat = 0x80 + (d >>> 8 &&& 0x7f) := by rw [u8_toNat, e1]; omega
    have u2 : (u8 ((d &&& 0xff) ||| 0x80)).toNat = (d &&& 0xff) ||| 0x80 := by rw [u8_toNat, e2]; omega
    rw [u1] at he
    split at he
    · rw [if_neg (by decide), if_pos (by decide), M.run_need (by simp), M.run_byte2, jxToM_fast, forceN_eq, u2, e3, hcol] at he
      rw [show 0x200 - 0x80 + (0x80 + (d >>> 8 &&& 0x7f)) = 0x200 + (d >>> 8 &&& 0x7f) by omega] at he
      exact ⟨jx_char he ha, by omega⟩
    · cases he; cases ha
  · rw [if_neg hp] at he ⊢
    have he := he _ rfl (by simp)
    unfold euc_jx_mbtowc jxSingle at he
    obtain ⟨a, he, ha⟩ := run_andThen_some he
    simp only [List.map_cons, List.map_nil, euc_jx] at he
    have u1 : (u8 (d >>> 8 ||| 0x80)).toNat = 0x80 + (d >>> 8 &&& 0x7f) := by rw [u8_toNat, e1]; omega
    have u2 : (u8 ((d &&& 0xff) ||| 0x80)).toNat = (d &&& 0xff) ||| 0x80 := by rw [u8_toNat, e2]; omega
    have hrow : d >>> 8 &&& 0x7f = d >>> 8 := by
      have h1 : (d >>> 8) &&& 0x80 = 0 := by
        have e : ((d >>> 8) &&& 0x80) = (d &&& 0x8000) >>> 8 := by rw [Nat.shiftRight_and_distrib]; rfl
        rw [e, Decidable.of_not_not hp]; rfl
      have h2 : ∀ a, a < 256 → a &&& 0x80 = 0 → a &&& 0x7f = a := by decide +kernel
      exact h2 _ hhi h1
    have hr := hj.row
    rw [M.run_byte0, u1, if_neg (by omega)] at he
    split at he
    · rw [M.run_need (by simp), M.run_byte1] at he
      split at he
      · rw [if_neg (by omega), if_neg (by omega), jxToM_fast, forceN_eq, u2, e3, hcol] at he
        rw [show 0x100 - 0x80 + (0x80 + (d >>> 8 &&& 0x7f)) = 0x100 + (d >>> 8 &&& 0x7f) by omega] at he
        exact ⟨jx_char he ha, by omega⟩
      · cases he; cases ha
    · cases he; cases ha

theorem jx_back {wc : Nat} (hw : 0x80 ≤ wc) (h0 : jx_fromF wc ≠ 0) :
    jx_toF (jchRow (jx_fromF wc)) (jx_fromF wc &&& 0x7f) = wc := (jx_back_row hw h0).1

/-- The codes of the characters that may begin a pair. -/
def jxHeld : List Nat := [0x29dc, 0x2bb8, 0x2bb0, 0x2bc3, 0x2bb7, 0x2be0, 0x2be4, 0x24ab, 0x24ad, 0x24af, 0x24b1, 0x24b3,
  0x25ab, 0x25ad, 0x25af, 0x25b1, 0x25b3, 0x25bb, 0x25c4, 0x25c8, 0x26f5]

noncomputable def memNF (x : Nat) (l : List Nat) : Bool :=
  List.rec false (fun b _ ih => Bool.rec ih true (Nat.beq x b)) l

theorem memNF_sound {x : Nat} : ∀ {l : List Nat}, memNF x l = true → x ∈ l := by
  intro l
  induction l with
  | nil => intro h; cases h
  | cons b l ih =>
    intro h
    have e : memNF x (b :: l) = Bool.rec (memNF x l) true (Nat.beq x b) := rfl
    rw [e, bool_rec_beq] at h
    split at h
    · next h1 => rw [h1]; exact List.mem_cons_self ..
    · exact List.mem_cons_of_mem _ (ih h)

theorem jxHeld_chk : all64 (fun i => Bool.rec true (forceN (tabsF jxData i) fun d =>
    Bool.rec (memNF d jxHeld) true (Nat.beq (Nat.land d 0x80) 0)) (Nat.ble (Nat.succ i) 11208)) 176 = true := by
  decide +kernel

theorem jx_held {ucs : Nat} (h : jx_fromF ucs &&& 0x80 ≠ 0) : jx_fromF ucs ∈ jxHeld := by
  rcases (jx_from_fast ucs).2 with h1 | ⟨i, hi, h1⟩
  · rw [h1] at h; exact absurd rfl h
  · rw [h1] at h ⊢
    have := (all64_iff _ _).1 jxHeld_chk i (by omega)
    rw [bool_rec_ble, if_pos (Nat.succ_le_of_lt hi), forceN_eq, bool_rec_beq] at this
    exact memNF_sound ((if_neg h).symm.trans this)

/-- JIS X 0208 has these characters at the same place, or not at all. -/
theorem jxHeld_0208 : ∀ d ∈ jxHeld,
    (jisx0208_enc.wctomb (jx_toF (jchRow d) (d &&& 0x7f))).run 0 2 = .ok (.iluni 0) ∨
    (jisx0208_enc.wctomb (jx_toF (jchRow d) (d &&& 0x7f))).run 0 2 = .ok (.put ((jxLast (d &&& 0x7f7f)).map u8) 0) := by
  decide +kernel

/-! ### The items -/

theorem jp3_item_eq {d : Nat} (h : d ≤ 5) : iso2022_jp3_item d = iso2022_jp3_body d := by
  unfold iso2022_jp3_item
  rw [shr3, if_neg (by omega)]

theorem jp3_asc {b : Byte} (h : b.toNat < 0x80) (h1 : b.toNat ≠ 0x1b) :
    (iso2022_jp3_item 0).run [b] = .ok (some (.char b.toNat 1 0)) := by
  rw [jp3_item_eq (by omega)]
  unfold iso2022_jp3_body
  rw [M.run_byte0, if_neg h1, if_pos rfl, if_pos h, sOne_char (ascii_run h)]
  rfl

theorem jp3_roman {wc : Nat} {b : Byte} (h : b.toNat < 0x80) (h1 : b.toNat ≠ 0x1b)
    (hm : jisx0201_m.run [b] = .ok (some (.char wc 1))) :
    (iso2022_jp3_item 1).run [b] = .ok (some (.char wc 1 1)) := by
  rw [jp3_item_eq (by omega)]
  unfold iso2022_jp3_body
  rw [M.run_byte0, if_neg h1, if_neg (by omega), if_pos rfl, if_pos h, sOne_char hm]
  rfl

theorem jp3_kana {wc : Nat} {a b : Byte} (ha : 0xa1 ≤ a.toNat) (hb : b.toNat = a.toNat - 0x80)
    (hm : jisx0201_m.run [a] = .ok (some (.char wc 1))) :
    (iso2022_jp3_item 2).run [b] = .ok (some (.char wc 1 2)) := by
  have hx := UInt8.toNat_lt a
  rw [jp3_item_eq (by omega)]
  unfold iso2022_jp3_body
  rw [M.run_byte0, if_neg (by omega), if_neg (by omega), if_neg (by omega), if_pos rfl, if_pos (by omega),
    show b.toNat + 0x80 = a.toNat by omega, sOne_char hm]
  rfl

theorem jp3_0208 {wc : Nat} {a b : Byte} (hb : b.toNat < 0x80)
    (hm : jisx0208_dec.mbtowc.run [a, b] = .ok (some (.char wc 2))) :
    (iso2022_jp3_item 3).run [a, b] = .ok (some (.char wc 2 3)) := by
  have := jisx0208_row hm
  rw [jp3_item_eq (by omega)]
  unfold iso2022_jp3_body
  rw [M.run_byte0, if_neg (by omega), if_neg (by omega), if_neg (by omega), if_neg (by omega), if_pos rfl]
  exact sPair_run (by omega) hb hm

theorem jp3_0213 {st wc x y : Nat} (hs : st = 4 ∨ st = 5) (hx : x < 0x80) (h21 : 0x21 ≤ x) (hy : y < 0x80)
    (h : jx_toF ((st - 4 + 1) <<< 8 + x) y = wc) (hw : 0x80 ≤ wc) :
    (iso2022_jp3_item st).run ([x, y].map u8) = .ok (some (.char wc 2 st)) := by
  rw [jp3_item_eq (by omega)]
  unfold iso2022_jp3_body
  have ux : (u8 x).toNat = x := by rw [u8_toNat]; omega
  have uy : (u8 y).toNat = y := by rw [u8_toNat]; omega
  simp only [List.map_cons, List.map_nil]
  rw [M.run_byte0, ux, if_neg (by omega), if_neg (by omega), if_neg (by omega), if_neg (by omega), if_neg (by omega), if_pos hs,
    M.run_need (by simp), M.run_byte0, M.run_byte1, ux, uy, if_pos ⟨hx, hy⟩, jxToM_fast, forceN_eq, h]
  unfold jp3Code
  rw [if_neg (by omega), if_neg (by omega)]
  rfl

/-! ### Held characters -/

/-- In the state `s` the held bytes are read as the character `c`. -/
def Jp3Held (s l c : Nat) : Prop :=
  (s = 3 ∨ s = 4) ∧ (iso2022_jp3_item s).run ((jxLast l).map u8) = .ok (some (.char c 2 s))

theorem jxLast_held (d : Nat) : jxLast (d &&& 0x7f7f) = [d >>> 8 &&& 0x7f, d &&& 0x7f] := by
  unfold jxLast
  rw [Nat.shiftRight_and_distrib, Nat.and_assoc, Nat.and_assoc]
  rfl

theorem jp3_held4 {wc : Nat} (hw : 0x80 ≤ wc) (h8 : jx_fromF wc &&& 0x80 ≠ 0) :
    Jp3Held 4 (jx_fromF wc &&& 0x7f7f) wc := by
  have h0 : jx_fromF wc ≠ 0 := by intro h; rw [h] at h8; exact h8 rfl
  have hb := jx_back hw h0
  have hm := jx_held h8
  refine ⟨.inr rfl, ?_⟩
  rw [jxLast_held]
  have hr : ∀ d ∈ jxHeld, 0x21 ≤ (d >>> 8 &&& 0x7f) ∧ (d >>> 8 &&& 0x7f) < 0x80 ∧ (d &&& 0x7f) < 0x80 ∧
      jchRow d = (4 - 4 + 1) <<< 8 + (d >>> 8 &&& 0x7f) := by decide
  obtain ⟨h1, h2, h3, h4⟩ := hr _ hm
  rw [h4] at hb
  exact jp3_0213 (.inl rfl) h2 h1 h3 hb hw

theorem jp3_held3 {wc : Nat} {a b : Byte} (hw : 0x80 ≤ wc) (h8 : jx_fromF wc &&& 0x80 ≠ 0) (hb : b.toNat < 0x80)
    (hr : (jisx0208_enc.wctomb wc).run 0 2 = .ok (.put [a, b] 0)) :
    Jp3Held 3 (jx_fromF wc &&& 0x7f7f) wc := by
  have h0 : jx_fromF wc ≠ 0 := by intro h; rw [h] at h8; exact h8 rfl
  have hm := jx_held h8
  have he := jxHeld_0208 _ hm
  rw [jx_back hw h0, hr] at he
  refine ⟨.inl rfl, ?_⟩
  rcases he with he | he
  · cases he
  · simp only [WcRes.put, Outcome.ok.injEq, WcRes.mk.injEq] at he
    rw [← he.2.1]
    exact jp3_0208 hb (jisx0208_back wc a b hr)

/-- Two bytes read as a character. -/
def jp3Read (s l : Nat) : Option (Nat × Nat × Nat) :=
  match (iso2022_jp3_item s).run ((jxLast l).map u8) with
  | .ok (some (.char c n st)) => some (c, n, st)
  | _ => none

theorem jp3Read_some {s l c n st : Nat} : jp3Read s l = some (c, n, st) ↔
    (iso2022_jp3_item s).run ((jxLast l).map u8) = .ok (some (.char c n st)) := by
  unfold jp3Read
  constructor
  · intro h
    split at h
    · next h1 => cases h; exact h1
    · cases h
  · intro h
    rw [h]

/-- The composed characters. -/
theorem jp3_comp_chk : ∀ m ∈ jxMarks, ∀ e ∈ (jp3Comp.drop ((jxSel m).getD (0, 0)).1).take ((jxSel m).getD (0, 0)).2,
    ∀ s ∈ [3, 4], jp3Read s e.1 = none ∨ jp3Read 4 e.2 = some (((jp3Read s e.1).getD (0, 0, 0)).1, 2, 4 + 8 * m) := by
  decide +kernel

theorem jp3_comp {s l c wc : Nat} {bs : List Nat} (h : Jp3Held s l c) (hc : jxCompose jp3Comp l wc = some bs) :
    (iso2022_jp3_item 4).run (bs.map u8) = .ok (some (.char c 2 (4 + 8 * wc))) ∧ wc ∈ jxMarks := by
  obtain ⟨hm, e, he, h4, rfl⟩ := jxCompose_some hc
  refine ⟨?_, hm⟩
  have := jp3_comp_chk wc hm e he s (by have := h.1; simpa using this)
  rw [h4, jp3Read_some.2 h.2] at this
  rcases this with h | h
  · cases h
  · exact jp3Read_some.1 h

/-! ### The pending character -/

abbrev jp3Chars := Chars (satom iso2022_jp3_item)

/-- The pending character, if any. -/
def jp3Pend (p : Nat) : List Nat := if p = 0 then [] else [p]

theorem jp3_pend {d p : Nat} {bs : List Byte} {cs : List Nat} {is : IState} (hd : d ≤ 5) (hb : bs ≠ [])
    (h : jp3Chars ⟨0, d⟩ bs cs is) : jp3Chars ⟨0, d + 8 * p⟩ bs (jp3Pend p ++ cs) is := by
  unfold jp3Pend
  by_cases hp : p = 0
  · subst hp; exact h
  · rw [if_neg hp]
    refine .char hb (n := 0) (is' := ⟨0, d⟩) ?_ h
    have e : iso2022_jp3_item (d + 8 * p) = .ret (.char p 0 d) := by
      unfold iso2022_jp3_item
      rw [shr3, and7, if_pos (by omega), show (d + 8 * p) / 8 = p by omega, show (d + 8 * p) % 8 = d by omega]
    unfold satom
    rw [e]
    rfl

theorem jp3_pend_any {d d' p : Nat} {bs : List Byte} {cs : List Nat} (hd : d ≤ 5) (hp : p < 0x110000)
    (h : jp3Chars ⟨0, d⟩ bs cs ⟨0, d'⟩) :
    ∃ p' cs', p' < 0x110000 ∧ jp3Chars ⟨0, d + 8 * p⟩ bs cs' ⟨0, d' + 8 * p'⟩ ∧ jp3Pend p ++ cs = cs' ++ jp3Pend p' := by
  by_cases hb : bs = []
  · subst hb
    obtain ⟨h1, h2⟩ := h.det (.nil _)
    cases h1
    cases h2
    exact ⟨p, [], hp, .nil _, by simp⟩
  · exact ⟨0, jp3Pend p ++ cs, by omega, by simpa using jp3_pend hd hb h, by simp [jp3Pend]⟩

/-! ### The simulation -/

theorem jp3_esc1 {d k f : Nat} (hd : d ≤ 5) (h : f = 0x42 ∧ k = 0 ∨ f = 0x4a ∧ k = 1 ∨ f = 0x49 ∧ k = 2) :
    (iso2022_jp3_item d).run ([0x1b, 0x28, f].map u8) = .ok (some (.shift 3 k)) := by
  rw [jp3_item_eq hd]
  rcases h with ⟨rfl, rfl⟩ | ⟨rfl, rfl⟩ | ⟨rfl, rfl⟩ <;> rfl

theorem jp3_esc2 {d : Nat} (hd : d ≤ 5) :
    (iso2022_jp3_item d).run ([0x1b, 0x24, 0x42].map u8) = .ok (some (.shift 3 3)) := by
  rw [jp3_item_eq hd]
  rfl

theorem jp3_esc3 {d k f : Nat} (hd : d ≤ 5) (h : f = 0x51 ∧ k = 4 ∨ f = 0x50 ∧ k = 5) :
    (iso2022_jp3_item d).run ([0x1b, 0x24, 0x28, f].map u8) = .ok (some (.shift 4 k)) := by
  rw [jp3_item_eq hd]
  rcases h with ⟨rfl, rfl⟩ | ⟨rfl, rfl⟩ <;> rfl

theorem jp3_state {d : Nat} (h : d ≤ 5) : jp3I d := by unfold jp3I; omega

/-- An escape sequence, if needed, and the bytes of a character. -/
theorem jp3_chars {d k : Nat} {esc : List Nat} {bs : List Byte} {cs : List Nat} {is : IState} (hd : d ≤ 5) (he : esc ≠ [])
    (h : (iso2022_jp3_item d).run (esc.map u8) = .ok (some (.shift esc.length k))) (hb : jp3Chars ⟨0, k⟩ bs cs is) :
    jp3Chars ⟨0, d⟩ ((if d ≠ k then esc else []).map u8 ++ bs) cs is := by
  by_cases hk : d = k
  · subst hk
    rw [if_neg (by simp)]
    exact hb
  · rw [if_pos hk]
    exact Chars.st_append iso2022_jp3_dec (jp3_state hd) (chars_shift1 (by simpa using he) (by rw [List.length_map]; exact h)) hb

/-- What is written for a character by `jp3_base`, in the decoder's view: the character, or an escape
sequence, the character being held back. -/
def Jp3Wrote (d wc : Nat) (bs : List Byte) (os : Nat) : Prop :=
  (os ≤ 5 ∧ bs ≠ [] ∧ jp3Chars ⟨0, d⟩ bs [wc] ⟨0, os⟩) ∨
  ∃ s l d', Jp3Os os s l d' ∧ l ≠ 0 ∧ Jp3Held s l wc ∧ jp3Chars ⟨0, d⟩ bs [] ⟨0, d'⟩

theorem jp3One_wrote {count d k f wc os' : Nat} {b : Byte} {acc bs : List Byte} (hd : d ≤ 5)
    (hk : f = 0x42 ∧ k = 0 ∨ f = 0x4a ∧ k = 1 ∨ f = 0x49 ∧ k = 2)
    (hb : (iso2022_jp3_item k).run [b] = .ok (some (.char wc 1 k)))
    (h : (jp3One count d k f b.toNat).res acc = some (bs, os')) :
    ∃ bs1, bs = acc ++ bs1 ∧ Jp3Wrote d wc bs1 os' := by
  simp only [jp3One, BW.res, Option.some.injEq, Prod.mk.injEq] at h
  obtain ⟨rfl, rfl⟩ := h
  refine ⟨_, rfl, .inl ⟨by omega, by simp, ?_⟩⟩
  rw [List.map_append]
  refine jp3_chars hd (by simp) (jp3_esc1 hd hk) ?_
  have := chars_char1 (bo := 0) (s := [b]) (by simp) hb
  simpa [u8_of_toNat] using this

theorem jp3Put_wrote {count d k wc os' : Nat} {acc bs : List Byte} (hw : 0x80 ≤ wc) (h0 : jx_fromF wc ≠ 0)
    (hk : k = 4 ∧ jx_fromF wc &&& 0x8000 = 0 ∨ k = 5 ∧ jx_fromF wc &&& 0x8000 ≠ 0)
    (h : (jp3Put count k (jx_fromF wc)).res acc = some (bs, os'))
    {esc : List Byte} (he : jp3Chars ⟨0, d⟩ esc [] ⟨0, k⟩) (hI : d ≤ 5) :
    ∃ bs1, bs = acc ++ bs1 ∧ Jp3Wrote d wc (esc ++ bs1) os' := by
  have hj := (jx_from_ok wc).resolve_left h0
  unfold jp3Put at h
  by_cases h8 : jx_fromF wc &&& 0x80 ≠ 0
  · have h5 := hj.plane.resolve_left h8
    have hk : k = 4 := by
      rcases hk with hk | hk
      · exact hk.1
      · exact absurd h5 hk.2
    subst hk
    rw [if_pos h8, if_neg (not_not_intro h5)] at h
    simp only [BW.res, Option.some.injEq, Prod.mk.injEq] at h
    obtain ⟨rfl, rfl⟩ := h
    have hh := jch_held hj h8
    exact ⟨[], by simp, .inr ⟨4, _, 4, jp3Os_held (by omega) hh.2 hh.1 (.inr ⟨rfl, rfl⟩), hh.1, jp3_held4 hw h8, by simpa using he⟩⟩
  · rw [if_neg h8] at h
    simp only [BW.res, Option.some.injEq, Prod.mk.injEq] at h
    obtain ⟨rfl, rfl⟩ := h
    refine ⟨_, rfl, .inl ⟨by omega, by simp, ?_⟩⟩
    have hb := jx_back hw h0
    have l1 := Nat.and_le_right (n := jx_fromF wc >>> 8) (m := 0x7f)
    have l2 := Nat.and_le_right (n := jx_fromF wc) (m := 0x7f)
    have hlt := jch_lt hj
    have hrow : 0x21 ≤ jx_fromF wc >>> 8 &&& 0x7f := (jx_back_row hw h0).2
    have hc : (iso2022_jp3_item k).run ([jx_fromF wc >>> 8 &&& 0x7f, jx_fromF wc &&& 0x7f].map u8) = .ok (some (.char wc 2 k)) := by
      refine jp3_0213 (by omega) (by omega) hrow (by omega) ?_ hw
      unfold jchRow at hb
      rcases hk with ⟨rfl, hk⟩ | ⟨rfl, hk⟩
      · rw [if_neg (not_not_intro hk)] at hb; exact hb
      · rw [if_pos hk] at hb; exact hb
    exact Chars.st_append iso2022_jp3_dec (jp3_state hI) he (chars_char1 (bo := 0) (by simp) hc)

theorem jp3Plane_wrote {count d k f wc os' : Nat} {acc bs : List Byte} (hw : 0x80 ≤ wc) (h0 : jx_fromF wc ≠ 0) (hd : d ≤ 5)
    (hk : k = 4 ∧ jx_fromF wc &&& 0x8000 = 0 ∨ k = 5 ∧ jx_fromF wc &&& 0x8000 ≠ 0)
    (hf : f = 0x51 ∧ k = 4 ∨ f = 0x50 ∧ k = 5)
    (h : (jp3Plane count d k f (jx_fromF wc)).res acc = some (bs, os')) :
    ∃ bs1, bs = acc ++ bs1 ∧ Jp3Wrote d wc bs1 os' := by
  unfold jp3Plane at h
  by_cases hk' : d = k
  · subst hk'
    rw [if_neg (by simp)] at h
    exact jp3Put_wrote hw h0 hk h (.nil _) hd
  · rw [if_pos hk'] at h
    simp only [BW.res] at h
    obtain ⟨bs1, h1, h2⟩ := jp3Put_wrote (d := d) hw h0 hk h (esc := [0x1b, 0x24, 0x28, f].map u8)
      (chars_shift1 (by simp) (jp3_esc3 hd hf)) hd
    exact ⟨_, by rw [h1, List.append_assoc], h2⟩

theorem BW.ascii_lt {wc : Nat} (hw : wc < 0x80) (found : Nat → BW) (rest : BW) :
    BW.try1 (ascii_w wc) (fun b => b < 0x80) found rest = found wc := by
  have e : (u8 wc).toNat = wc := by rw [u8_toNat]; omega
  rcases BW.try1_cases (ascii_wOne wc) (fun b => b < 0x80) found rest with ⟨a, h1, h2, h3⟩ | h3
  · rw [h3, (ascii_put h1).2]
  · unfold BW.try1 BW.on ascii_w
    rw [if_pos hw]
    have e2 : (if (WcRes.put [u8 wc] 0).ws.length ≤ 1 then
        (fun (ret : Int) (buf : List Nat) =>
          if ret ≠ RET_ILUNI then
            if ret ≠ 1 then BW.abort
            else if bufAt buf 0 < 0x80 then found (bufAt buf 0)
            else rest
          else rest) (WcRes.put [u8 wc] 0).ret.code ((WcRes.put [u8 wc] 0).ws.map (·.toNat)) else .ub) =
        if (u8 wc).toNat < 0x80 then found (u8 wc).toNat else rest := rfl
    rw [e, if_pos hw] at e2
    exact e2

theorem jp3_base_wrote {count d wc os' : Nat} {acc bs : List Byte} (hd : d ≤ 5) (hP : NotEsc wc)
    (h : (jp3_base count d wc).res acc = some (bs, os')) : ∃ bs1, bs = acc ++ bs1 ∧ Jp3Wrote d wc bs1 os' := by
  unfold jp3_base at h
  by_cases hw : wc < 0x80
  · have e : (u8 wc).toNat = wc := by rw [u8_toNat]; omega
    rw [BW.ascii_lt hw, ← e] at h
    refine jp3One_wrote hd (.inl ⟨rfl, rfl⟩) ?_ h
    have := jp3_asc (b := u8 wc) (by omega) (by rw [e]; exact hP)
    rwa [e] at this
  have hw : 0x80 ≤ wc := by omega
  rcases BW.try1_cases (ascii_wOne wc) (fun b => b < 0x80) (jp3One count d 0 0x42) _ with ⟨a, h1, h2, h3⟩ | h3
  · obtain ⟨ha, _⟩ := ascii_put h1
    omega
  rw [h3] at h
  clear h3
  rcases BW.try1_cases (jisx0201_w_one wc) (fun b => b < 0x80) (jp3One count d 1 0x4a) _ with ⟨a, h1, h2, h3⟩ | h3
  · rw [h3] at h
    obtain ⟨hm, ha⟩ := jisx0201_back h1 h2 (by omega)
    exact jp3One_wrote hd (.inr (.inl ⟨rfl, rfl⟩)) (jp3_roman h2 (by omega) hm) h
  rw [h3, jxFromB_eq] at h
  clear h3
  have rest : (if jx_fromF wc ≠ 0 then
      if jx_fromF wc &&& 0x8000 ≠ 0 then jp3Plane count d 5 0x50 (jx_fromF wc)
      else jp3Plane count d 4 0x51 (jx_fromF wc)
    else BW.try1 (jisx0201_w wc) (fun b => 0x80 ≤ b) (fun b => jp3One count d 2 0x49 (b - 0x80)) .iluni).res acc = some (bs, os') →
      ∃ bs1, bs = acc ++ bs1 ∧ Jp3Wrote d wc bs1 os' := by
    intro h
    by_cases h0 : jx_fromF wc ≠ 0
    · rw [if_pos h0] at h
      by_cases h5 : jx_fromF wc &&& 0x8000 ≠ 0
      · rw [if_pos h5] at h
        exact jp3Plane_wrote hw h0 hd (.inr ⟨rfl, h5⟩) (.inr ⟨rfl, rfl⟩) h
      · rw [if_neg h5] at h
        exact jp3Plane_wrote hw h0 hd (.inl ⟨rfl, Decidable.of_not_not h5⟩) (.inl ⟨rfl, rfl⟩) h
    · rw [if_neg h0] at h
      rcases BW.try1_cases (jisx0201_w_one wc) (fun b => 0x80 ≤ b) (fun b => jp3One count d 2 0x49 (b - 0x80)) .iluni
        with ⟨a, h1, h2, h3⟩ | h3
      · rw [h3] at h
        obtain ⟨hm, ha⟩ := jisx0201_kana h1 h2
        have hx := UInt8.toNat_lt a
        have hu : (u8 (a.toNat - 0x80)).toNat = a.toNat - 0x80 := by rw [u8_toNat]; omega
        rw [← hu] at h
        exact jp3One_wrote hd (.inr (.inr ⟨rfl, rfl⟩)) (jp3_kana ha hu hm) h
      · rw [h3] at h; cases h
  rcases jisx0208_w2 wc with hr | ⟨a, b, hr⟩
  · rw [BW.try2_iluni hr] at h
    exact rest h
  · rw [BW.try2_put hr] at h
    by_cases hp : a.toNat < 0x80 ∧ b.toNat < 0x80
    · rw [if_pos hp] at h
      by_cases h8 : jx_fromF wc &&& 0x80 ≠ 0
      · rw [if_pos h8] at h
        simp only [BW.res, Option.some.injEq, Prod.mk.injEq] at h
        obtain ⟨rfl, rfl⟩ := h
        have hj := (jx_from_ok wc).resolve_left (by intro e; rw [e] at h8; exact h8 rfl)
        have hh := jch_held hj h8
        exact ⟨[], by simp, .inr ⟨3, _, d, jp3Os_held hd hh.2 hh.1 (.inl rfl), hh.1, jp3_held3 hw h8 hp.2 hr, .nil _⟩⟩
      · rw [if_neg h8] at h
        simp only [BW.res, Option.some.injEq, Prod.mk.injEq] at h
        obtain ⟨rfl, rfl⟩ := h
        refine ⟨_, rfl, .inl ⟨by omega, by simp, ?_⟩⟩
        rw [List.map_append]
        refine jp3_chars hd (by simp) (jp3_esc2 hd) ?_
        have := chars_char1 (bo := 0) (s := [a, b]) (by simp) (jp3_0208 hp.2 (jisx0208_back wc a b hr))
        simpa [u8_of_toNat] using this
    · rw [if_neg hp] at h
      exact rest h

/-- The held character is written. -/
theorem jp3_flush {os s l d c : Nat} (h : Jp3Os os s l d) (hl : l ≠ 0) (hh : Jp3Held s l c) :
    jp3Chars ⟨0, d⟩ ((if d ≠ s then [0x1b, 0x24, 0x42] else []).map u8 ++ (jxLast l).map u8) [c] ⟨0, s⟩ := by
  have hc := chars_char1 (bo := 0) (by simp [jxLast]) hh.2
  rcases h.held hl with rfl | ⟨rfl, rfl⟩
  · exact jp3_chars h.prev_le (by simp) (jp3_esc2 h.prev_le) hc
  · rw [if_neg (by simp)]
    exact hc

/-- The decoder, in state `d` with the pending character `p`, and the encoder. -/
def Jp3R (os : Nat) (is : IState) (u : List Byte) (k : List Nat) : Prop :=
  u = [] ∧ ∃ d p, d ≤ 5 ∧ p < 0x110000 ∧ is = ⟨0, d + 8 * p⟩ ∧
    ((os = d ∧ k = jp3Pend p) ∨ ∃ s l c, Jp3Os os s l d ∧ l ≠ 0 ∧ Jp3Held s l c ∧ k = jp3Pend p ++ [c])

theorem jp3_kept {d p : Nat} (hd : d ≤ 5) : iso2022_jp3_decoder.kept ⟨0, d + 8 * p⟩ = jp3Pend p := by
  show (iso2022_jp3_flushwc ⟨0, d + 8 * p⟩).1.toList = _
  unfold iso2022_jp3_flushwc jp3Pend
  simp only [shr3]
  rw [show (d + 8 * p) / 8 = p by omega]
  by_cases hp : p = 0
  · rw [if_neg (not_not_intro hp), if_pos hp]; rfl
  · rw [if_pos hp, if_neg hp]; rfl

theorem Jp3R.enc {os : Nat} {is : IState} {u : List Byte} {k : List Nat} (h : Jp3R os is u k) : jp3EI os := by
  obtain ⟨_, d, p, hd, _, _, h⟩ := h
  rcases h with ⟨rfl, _⟩ | ⟨s, l, c, h, _⟩
  · exact ⟨_, 0, 0, .plain hd⟩
  · exact ⟨_, _, _, h⟩

/-- What is written for a character, after `cs`, is what the decoder expects. -/
theorem jp3_wrote_step {d p wc os' e : Nat} {pre bs1 : List Byte} {cs : List Nat} (hd : d ≤ 5) (he : e ≤ 5) (hp : p < 0x110000)
    (hpre : jp3Chars ⟨0, d⟩ pre cs ⟨0, e⟩) (h : Jp3Wrote e wc bs1 os') :
    ∃ cs' k' is', jp3Chars ⟨0, d + 8 * p⟩ (pre ++ bs1) cs' is' ∧ (jp3Pend p ++ cs) ++ [wc] = cs' ++ k' ∧ Jp3R os' is' [] k' := by
  rcases h with ⟨h5, hne, hc⟩ | ⟨s, l, d', ho, hl, hh, hc⟩
  · have h1 := Chars.st_append iso2022_jp3_dec (jp3_state hd) hpre hc
    have h2 := jp3_pend (p := p) hd (by simp [hne]) h1
    exact ⟨_, [], _, h2, by simp, rfl, os', 0, h5, by omega, rfl, .inl ⟨rfl, rfl⟩⟩
  · have h1 := Chars.st_append iso2022_jp3_dec (jp3_state hd) hpre hc
    obtain ⟨p', cs', hp', h2, h3⟩ := jp3_pend_any hd hp h1
    refine ⟨cs', jp3Pend p' ++ [wc], _, h2, ?_, rfl, d', p', ho.prev_le, hp', rfl, .inr ⟨s, l, wc, ho, hl, hh, rfl⟩⟩
    rw [← List.append_assoc, ← h3]
    simp

/-- Proof that `iso2022_jp3_entry` satisfies the contract `Sim`. -/
def iso2022_jp3_sim : Sim iso2022_jp3_entry NotEsc where
  R := Jp3R
  start := ⟨rfl, 0, 0, by omega, by omega, rfl, .inl ⟨rfl, rfl⟩⟩
  kept0 := rfl
  inv := by
    rintro os is u k ⟨_, d, p, hd, hp, rfl, _⟩
    exact ⟨rfl, by show (d + 8 * p) % 8 ≤ 5; omega, by show (d + 8 * p) / 8 < _; omega⟩
  step := by
    intro os is u k wc bs os' hR hP hf
    have hf : iso2022_jp3_encoder.full os wc = some (bs, os') := Encoder.rep_full hf
    rw [iso2022_jp3_enc.full_eq hR.enc] at hf
    have hf : (iso2022_jp3_wctomb os wc).res [] = some (bs, os') := hf
    obtain ⟨rfl, d, p, hd, hp, rfl, h⟩ := hR
    unfold iso2022_jp3_wctomb at hf
    rcases h with ⟨rfl, rfl⟩ | ⟨s, l, c, ho, hl, hh, rfl⟩
    · have ho := Jp3Os.plain hd
      rw [ho.last_eq, ho.state_eq, if_neg (by simp)] at hf
      obtain ⟨bs1, rfl, hw⟩ := jp3_base_wrote hd hP hf
      obtain ⟨cs', k', is', h1, h2, h3⟩ := jp3_wrote_step (p := p) hd hd hp (.nil _) hw
      exact ⟨_, [], cs', k', is', by simp, h1, by simpa using h2, h3⟩
    · rw [ho.last_eq, ho.state_eq, ho.prev_eq, if_pos hl] at hf
      cases hc : jxCompose jp3Comp l wc with
      | some b2 =>
        rw [hc] at hf
        simp only [BW.res, Option.some.injEq, Prod.mk.injEq] at hf
        obtain ⟨rfl, rfl⟩ := hf
        obtain ⟨hr, hm⟩ := jp3_comp hh hc
        have hb2 := jxCompose_len hc
        have hmk : ∀ m ∈ jxMarks, m ≠ 0 ∧ m < 0x110000 := by decide
        have hb : jp3Chars ⟨0, 4⟩ (b2.map u8) [c] ⟨0, 4 + 8 * wc⟩ :=
          chars_char1 (by intro e; rw [List.map_eq_nil_iff] at e; rw [e] at hb2; cases hb2) (by rw [List.length_map, hb2]; exact hr)
        have hpre : jp3Chars ⟨0, d⟩ ((if s ≠ 4 then [0x1b, 0x24, 0x28, 0x51] else []).map u8 ++ b2.map u8) [c] ⟨0, 4 + 8 * wc⟩ := by
          rcases ho.held hl with rfl | ⟨rfl, rfl⟩
          · exact Chars.st_append iso2022_jp3_dec (jp3_state hd) (chars_shift1 (by simp) (jp3_esc3 hd (.inl ⟨rfl, rfl⟩))) hb
          · exact hb
        have h1 := jp3_pend (p := p) hd (by
          intro e
          have e := congrArg List.length e
          rw [List.length_append, List.length_map, List.length_map, hb2] at e
          simp at e) hpre
        refine ⟨_, [], _, [wc], _, by simp, h1, by simp, rfl, 4, wc, by omega, (hmk wc hm).2, rfl, .inl ⟨rfl, ?_⟩⟩
        unfold jp3Pend
        rw [if_neg (hmk wc hm).1]
      | none =>
        rw [hc] at hf
        simp only [BW.res] at hf
        have hfl := jp3_flush ho hl hh
        have hs := ho.st_le
        by_cases hds : d = s
        · rw [if_neg (not_not_intro hds)] at hf hfl
          simp only [BW.res] at hf
          obtain ⟨bs1, rfl, hw⟩ := jp3_base_wrote hs hP hf
          obtain ⟨cs', k', is', h1, h2, h3⟩ := jp3_wrote_step (p := p) hd hs hp hfl hw
          exact ⟨_, [], cs', k', is', by simp, h1, h2, h3⟩
        · have hs3 : s = 3 := by
            rcases ho.held hl with h | ⟨h, h'⟩
            · exact h
            · exact absurd (h'.trans h.symm) hds
          rw [if_pos hds] at hf hfl
          rw [if_neg (not_not_intro hs3)] at hf
          simp only [BW.res] at hf
          obtain ⟨bs1, rfl, hw⟩ := jp3_base_wrote hs hP hf
          obtain ⟨cs', k', is', h1, h2, h3⟩ := jp3_wrote_step (p := p) hd hs hp hfl hw
          exact ⟨_, [], cs', k', is', by simp, h1, h2, h3⟩
  tail := by
    intro os is u k hR
    have ht : iso2022_jp3_entry.enc.tail os = (iso2022_jp3_tail os).map u8 :=
      iso2022_jp3_enc.tail_eq hR.enc (by simp [iso2022_jp3_encoder])
    rw [ht]
    obtain ⟨rfl, d, p, hd, hp, rfl, h⟩ := hR
    have key : ∃ cs, jp3Chars ⟨0, d⟩ ((iso2022_jp3_tail os).map u8) cs ⟨0, 0⟩ ∧ k = jp3Pend p ++ cs := by
      unfold iso2022_jp3_tail
      rcases h with ⟨rfl, rfl⟩ | ⟨s, l, c, ho, hl, hh, rfl⟩
      · have ho := Jp3Os.plain hd
        rw [ho.last_eq, ho.state_eq, if_neg (by simp)]
        refine ⟨[], ?_, by simp⟩
        by_cases h0 : os = 0
        · subst h0; exact .nil _
        · rw [if_pos h0]
          exact chars_shift1 (by simp) (jp3_esc1 hd (.inl ⟨rfl, rfl⟩))
      · rw [ho.last_eq, ho.state_eq, ho.prev_eq, if_pos hl]
        have hs := ho.st_le
        have h3 : s ≠ 0 := by have := ho.held hl; omega
        rw [if_pos h3]
        refine ⟨[c], ?_, rfl⟩
        rw [List.map_append, List.map_append]
        exact Chars.st_append iso2022_jp3_dec (jp3_state hd) (jp3_flush ho hl hh)
          (chars_shift1 (by simp) (jp3_esc1 hs (.inl ⟨rfl, rfl⟩)))
    obtain ⟨cs, hc, rfl⟩ := key
    obtain ⟨p', cs', hp', h1, h2⟩ := jp3_pend_any hd hp hc
    have hk : iso2022_jp3_entry.dec.kept ⟨0, 0 + 8 * p'⟩ = jp3Pend p' := jp3_kept (by omega)
    refine ⟨cs', _, h1, by rw [hk]; exact h2, rfl, 0, p', by omega, hp', rfl, .inl ⟨rfl, hk⟩⟩

end Reiconv
