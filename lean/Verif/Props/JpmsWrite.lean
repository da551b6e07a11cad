import Verif.Props.IsoWrite
import Verif.Props.Cp50221

/-!
# C65: what is written in CP50221

The specification says which set and which code is written for each character, in terms of the published tables of
JIS X 0208, JIS X 0212 and CP932 and of the extension of JIS X 0212 in `Verif/Cp50221.lean`.
-/

namespace Reiconv.JpmsW

open Iso (Listed Graphic)
open Cp50221 (Cset cp932Bytes rows0212)

/-! ## Specification -/

deriving instance DecidableEq for Cp50221.Cset

/-- The place of the private use area from `base` on: row 85 and the rows that follow. -/
def user (base wc : Nat) : List Byte := [u8 (0x75 + (wc - base) / 94), u8 (0x21 + (wc - base) % 94)]

/-- The bytes that are written for a character in a set. In the extended JIS X 0208: 940 characters of the private use
area, also at the places where CP932 has other characters; JIS X 0208; row 13 of CP932 (U+301E is written as U+301D);
three characters of the rows 89 to 92 of CP932. In the extended JIS X 0212: another 940 characters of the private use
area, JIS X 0212, its extension. JIS X 0201 Roman is never written. -/
inductive Code : Cset → List Byte → Nat → Prop
  | ascii {b wc} : Iso.Set.ascii.Chars b [wc] → Code .ascii b wc
  | kana {b wc} : Iso.Set.kana.Chars b [wc] → Code .kana b wc
  | user0208 {wc} : 0xe000 ≤ wc → wc < 0xe000 + 940 → Code .jisx0208 (user 0xe000 wc) wc
  | jisx0208 {b wc} : Listed jisx0208_mbrow b [wc] → Code .jisx0208 b wc
  | row13 {y wc c} : Graphic y → Listed cp932_row (cp932Bytes 0x2d y) [c] → (∀ b, ¬ Listed jisx0208_mbrow b [c]) →
      (wc = c ∨ c = 0x301d ∧ wc = 0x301e) → Code .jisx0208 [0x2d, y] wc
  | not : Code .jisx0208 [0x7c, 0x7b] 0xffe2
  | bar : Code .jisx0208 [0x7c, 0x7c] 0xffe4
  | kanji : Code .jisx0208 [0x7a, 0x36] 0x663b
  | user0212 {wc} : 0xe3ac ≤ wc → wc < 0xe3ac + 940 → Code .jisx0212 (user 0xe3ac wc) wc
  | jisx0212 {b wc} : Listed jisx0212_mbrow b [wc] → Code .jisx0212 b wc
  | ext0212 {i wc} : (i, wc) ∈ rows0212 → Code .jisx0212 [u8 (0x73 + i / 94), u8 (0x21 + i % 94)] wc

/-- The order in which the sets are tried. -/
def order : List Cset := [.ascii, .kana, .jisx0208, .jisx0212]

/-- `x` is the first of the sets that has the character, and `b` its bytes. -/
inductive First (wc : Nat) : List Cset → Cset → List Byte → Prop
  | here {x l b} : Code x b wc → First wc (x :: l) x b
  | next {y l x b} : (∀ c, ¬ Code y c wc) → First wc l x b → First wc (y :: l) x b

/-- None of the sets has the character. -/
def Missing (wc : Nat) (l : List Cset) : Prop := ∀ x ∈ l, ∀ b, ¬ Code x b wc

/-- The escape sequence that is written for a set. -/
def esc : Cset → List Byte
  | .ascii => [0x1b, 0x28, 0x42]
  | .roman => [0x1b, 0x28, 0x4a]
  | .kana => [0x1b, 0x28, 0x49]
  | .jisx0208 => [0x1b, 0x24, 0x42]
  | .jisx0212 => [0x1b, 0x24, 0x28, 0x44]

/-- What is written for the characters of a text in the set `g`: an escape sequence only where the set changes. A
character that no set has is left out if it is a tag character, and left out and counted if `discard` is set. -/
inductive Write (discard : Bool) : Cset → List Nat → List Byte → Nat → Cset → Prop
  | nil {g} : Write discard g [] [] 0 g
  | char {g wc x b cs out n g'} : First wc order x b → Write discard x cs out n g' →
      Write discard g (wc :: cs) ((if g = x then [] else esc x) ++ b ++ out) n g'
  | tag {g wc cs out n g'} : Missing wc order → isTag wc = true → Write discard g cs out n g' →
      Write discard g (wc :: cs) out n g'
  | drop {g wc cs out n g'} : Missing wc order → isTag wc = false → discard = true → Write discard g cs out n g' →
      Write discard g (wc :: cs) out (n + 1) g'

/-- A whole text ends in ASCII. -/
def Text (discard : Bool) (cs : List Nat) (out : List Byte) (irr : Nat) : Prop :=
  ∃ o g, Write discard .ascii cs o irr g ∧ out = o ++ (if g = .ascii then [] else esc .ascii)

/-! ## Proofs -/

open Cp50221 (at932 at932_iff jisx0208_none)

theorem pua_none : (List.range 940).all (fun i => (jisx0208_wctomb (0xe000 + i)).res.isNone &&
    (jisx0212_wctomb (0xe3ac + i)).res.isNone && (ofCode (encF cp50221_0208_ext_e (0xe000 + i))).isNone &&
    (ofCode (encF cp50221_0212_ext_e (0xe3ac + i))).isNone) = true := by decide +kernel

theorem row13_enc : (List.range 94).all (fun i => match at932 0x2d (u8 (i + 0x21)) with
    | some c => !(jisx0208_wctomb c).res.isNone || (ofCode (encF cp50221_0208_ext_e c) == some (i + 1))
    | none => true) = true := by decide +kernel

theorem rows0212_dec : (List.range 256).all (fun k => ofCode (decF cp50221_0212_ext_d k) ==
    if k = 0 then none else rows0212.lookup (k - 1)) = true := by decide +kernel

theorem rows0212_enc : rows0212.all (fun p => (jisx0212_wctomb p.2).res.isNone && Nat.blt p.1 188 &&
    !(Nat.ble 0xe3ac p.2 && Nat.blt p.2 0xe758) &&
    (ofCode (encF cp50221_0212_ext_e p.2) == some (p.1 + 1))) = true := by decide +kernel

theorem listed0208 {wc : Nat} {b : List Byte} : Listed jisx0208_mbrow b [wc] ↔ (jisx0208_wctomb wc).res = some b :=
  Iso.set_res jisx0208_table _ _ wc b

theorem listed0212 {wc : Nat} {b : List Byte} : Listed jisx0212_mbrow b [wc] ↔ (jisx0212_wctomb wc).res = some b :=
  Iso.set_res jisx0212_table _ _ wc b

theorem pua_at {wc : Nat} (h : 0xe000 ≤ wc) (h' : wc < 0xe000 + 940) : (jisx0208_wctomb wc).res = none ∧
    ofCode (encF cp50221_0208_ext_e wc) = none := by
  have := List.all_eq_true.1 pua_none (wc - 0xe000) (List.mem_range.2 (by omega))
  rw [show 0xe000 + (wc - 0xe000) = wc by omega] at this
  simp only [Bool.and_eq_true, Option.isNone_iff_eq_none] at this
  exact ⟨this.1.1.1, this.1.2⟩

theorem pua2_at {wc : Nat} (h : 0xe3ac ≤ wc) (h' : wc < 0xe3ac + 940) : (jisx0212_wctomb wc).res = none ∧
    ofCode (encF cp50221_0212_ext_e wc) = none := by
  have := List.all_eq_true.1 pua_none (wc - 0xe3ac) (List.mem_range.2 (by omega))
  rw [show 0xe3ac + (wc - 0xe3ac) = wc by omega] at this
  simp only [Bool.and_eq_true, Option.isNone_iff_eq_none] at this
  exact ⟨this.1.1.2, this.2⟩

/-- Row 13, from the table to the encoder. -/
theorem row13_to {y : Byte} {wc c : Nat} (hy : Graphic y) (h : Listed cp932_row (cp932Bytes 0x2d y) [c])
    (hn : ∀ b, ¬ Listed jisx0208_mbrow b [c]) (hw : wc = c ∨ c = 0x301d ∧ wc = 0x301e) :
    (jisx0208_wctomb wc).res = none ∧ ofCode (encF cp50221_0208_ext_e wc) = some (y.toNat - 0x20) := by
  have h1 := hy.1
  have h2 := hy.2
  have := List.all_eq_true.1 row13_enc (y.toNat - 0x21) (List.mem_range.2 (by omega))
  rw [show y.toNat - 0x21 + 0x21 = y.toNat by omega, u8_of_toNat, at932_iff.2 h] at this
  rw [jisx0208_none] at hn
  simp only [hn, Option.isNone_none, Bool.not_true, Bool.false_or, beq_iff_eq] at this
  rw [show y.toNat - 0x21 + 1 = y.toNat - 0x20 by omega] at this
  rcases hw with rfl | ⟨rfl, rfl⟩
  · exact ⟨hn, this⟩
  · refine ⟨by decide +kernel, ?_⟩
    rw [show ofCode (encF cp50221_0208_ext_e 0x301d) = some 0x40 by decide +kernel] at this
    rw [← this]
    decide +kernel

/-- Row 13, from the encoder to the table. -/
theorem row13_from {wc k : Nat} (h : ofCode (encF cp50221_0208_ext_e wc) = some k) :
    1 ≤ k ∧ k ≤ 0x59 ∧ ∃ c, Listed cp932_row (cp932Bytes 0x2d (u8 (k + 0x20))) [c] ∧ (∀ b, ¬ Listed jisx0208_mbrow b [c]) ∧
      (wc = c ∨ c = 0x301d ∧ wc = 0x301e) := by
  by_cases hl : wc = 0x301d
  · subst hl
    rw [show ofCode (encF cp50221_0208_ext_e 0x301d) = some 0x40 by decide +kernel] at h
    cases h
    exact ⟨by omega, by omega, 0x301d, at932_iff.1 (by decide +kernel), jisx0208_none.2 (by decide +kernel), .inl rfl⟩
  · obtain ⟨h2, h3⟩ := cp50221_0208_back h hl
    have h4 := cp50221_0208_rng k h3 (by rw [h2]; simp)
    refine ⟨h4.1, h4.2, ?_⟩
    have ht : (u8 (k + 0x20)).toNat = k + 0x20 := by rw [u8_toNat]; omega
    have hg : Graphic (u8 (k + 0x20)) := ⟨by omega, by omega⟩
    have hr : jpms_0208.run [0x2d, u8 (k + 0x20)] = .ok (some (.char wc 2)) := by
      unfold jpms_0208
      rw [M.run_byte0, M.run_byte1, if_pos (by decide), if_pos (by decide), ht, if_pos (by omega), jpms_ext_eq cp50221_0208_ext_d_safe,
        show (k + 0x20 - 0x21 + 1) % 256 = k by omega, h2]
      rfl
    have hin := (Cp50221.in0208_iff (x := 0x2d) ⟨by decide, by decide⟩ hg).2 hr
    unfold Cp50221.In0208 at hin
    rw [if_pos (by decide)] at hin
    obtain ⟨c, g1, g2, g3⟩ := hin
    refine ⟨c, g1, g2, ?_⟩
    split at g3
    · exact .inr ⟨by assumption, g3⟩
    · exact .inl g3

theorem code0208 {wc : Nat} {b : List Byte} : Code .jisx0208 b wc ↔ (jpms_0208_w wc).res = some b := by
  unfold jpms_0208_w
  by_cases hp : 0xe000 ≤ wc ∧ wc < 0xe3ac
  · rw [if_pos hp]
    obtain ⟨n1, n2⟩ := pua_at hp.1 (by omega)
    have hu : (W.put [(wc - 0xe000) / 94 + 0x75, (wc - 0xe000) % 94 + 0x21]).res = some (user 0xe000 wc) := by
      show some [u8 ((wc - 0xe000) / 94 + 0x75), u8 ((wc - 0xe000) % 94 + 0x21)] = _
      unfold user
      rw [Nat.add_comm _ 0x75, Nat.add_comm _ 0x21]
    rw [hu]
    constructor
    · intro h
      cases h with
      | user0208 => rfl
      | jisx0208 h => rw [listed0208, n1] at h; cases h
      | row13 h1 h2 h3 h4 => rw [(row13_to h1 h2 h3 h4).2] at n2; cases n2
      | not => omega
      | bar => omega
      | kanji => omega
    · intro h; cases h; exact .user0208 hp.1 (by omega)
  rw [if_neg hp]
  rcases w_on_two (jisx0208_w2 wc) (jpms_0208_x wc) with ⟨x, y, h1, h⟩ | ⟨h1, h⟩
  · rw [h]
    have hr : (jisx0208_wctomb wc).res = some [x, y] := (Iso.wres_run _ _ _ h1).1 _ rfl
    have hu : (W.put [x.toNat, y.toNat]).res = some [x, y] := by
      show some [u8 x.toNat, u8 y.toNat] = _
      rw [u8_of_toNat, u8_of_toNat]
    rw [hu, ← hr, ← listed0208]
    constructor
    · intro h
      cases h with
      | user0208 => omega
      | jisx0208 h => exact h
      | row13 h1 h2 h3 h4 => rw [(row13_to h1 h2 h3 h4).1] at hr; cases hr
      | not => rw [show (jisx0208_wctomb 0xffe2).res = none by decide +kernel] at hr; cases hr
      | bar => rw [show (jisx0208_wctomb 0xffe4).res = none by decide +kernel] at hr; cases hr
      | kanji => rw [show (jisx0208_wctomb 0x663b).res = none by decide +kernel] at hr; cases hr
    · exact .jisx0208
  · rw [h, jpms_0208_x_eq]
    have hr : (jisx0208_wctomb wc).res = none := (Iso.wres_run _ _ _ h1).2 rfl
    cases he : ofCode (encF cp50221_0208_ext_e wc) with
    | some k =>
      obtain ⟨k1, k2, c, g1, g2, g3⟩ := row13_from he
      have hu : (W.put [0x2d, k % 256 - 1 + 0x21]).res = some [0x2d, u8 (k + 0x20)] := by
        show some [u8 0x2d, u8 (k % 256 - 1 + 0x21)] = _
        rw [show k % 256 - 1 + 0x21 = k + 0x20 by omega]
        rfl
      simp only [hu]
      constructor
      · intro h
        cases h with
        | user0208 => omega
        | jisx0208 h => rw [listed0208, hr] at h; cases h
        | @row13 y _ c' h1 h2 h3 h4 =>
          have := (row13_to h1 h2 h3 h4).2
          rw [he] at this
          have hy := h1.1
          rw [Option.some.inj this, show y.toNat - 0x20 + 0x20 = y.toNat by omega, u8_of_toNat]
        | not => rw [show ofCode (encF cp50221_0208_ext_e 0xffe2) = none by decide +kernel] at he; cases he
        | bar => rw [show ofCode (encF cp50221_0208_ext_e 0xffe4) = none by decide +kernel] at he; cases he
        | kanji => rw [show ofCode (encF cp50221_0208_ext_e 0x663b) = none by decide +kernel] at he; cases he
      · intro h
        cases h
        have ht : (u8 (k + 0x20)).toNat = k + 0x20 := by rw [u8_toNat]; omega
        exact .row13 ⟨by omega, by omega⟩ g1 g2 g3
    | none =>
      simp only
      have hno : Code .jisx0208 b wc → (b = [0x7c, 0x7b] ∧ wc = 0xffe2) ∨ (b = [0x7c, 0x7c] ∧ wc = 0xffe4) ∨
          (b = [0x7a, 0x36] ∧ wc = 0x663b) := by
        intro h
        cases h with
        | user0208 => omega
        | jisx0208 h => rw [listed0208, hr] at h; cases h
        | row13 h1 h2 h3 h4 => rw [(row13_to h1 h2 h3 h4).2] at he; cases he
        | not => exact .inl ⟨rfl, rfl⟩
        | bar => exact .inr (.inl ⟨rfl, rfl⟩)
        | kanji => exact .inr (.inr ⟨rfl, rfl⟩)
      constructor
      · intro h
        rcases hno h with ⟨rfl, rfl⟩ | ⟨rfl, rfl⟩ | ⟨rfl, rfl⟩ <;> rfl
      · intro hx
        split at hx
        · rename_i e; subst e; exact Option.some.inj hx ▸ .kanji
        split at hx
        · rename_i e; subst e; exact Option.some.inj hx ▸ .not
        split at hx
        · rename_i e; subst e; exact Option.some.inj hx ▸ .bar
        · cases hx

theorem ext0212_to {i wc : Nat} (h : (i, wc) ∈ rows0212) : (jisx0212_wctomb wc).res = none ∧ i < 188 ∧
    ¬ (0xe3ac ≤ wc ∧ wc < 0xe758) ∧ ofCode (encF cp50221_0212_ext_e wc) = some (i + 1) := by
  have := List.all_eq_true.1 rows0212_enc _ h
  simp only [Bool.and_eq_true, Option.isNone_iff_eq_none, beq_iff_eq, Bool.not_eq_true', Bool.and_eq_false_iff] at this
  obtain ⟨⟨⟨h1, h2⟩, h3⟩, h4⟩ := this
  refine ⟨h1, by rw [Nat.blt_eq] at h2; exact h2, ?_, h4⟩
  rintro ⟨a, b⟩
  rcases h3 with h | h
  · rw [Nat.ble_eq_true_of_le a] at h; cases h
  · have : Nat.blt wc 0xe758 = true := by rw [Nat.blt_eq]; exact b
    rw [h] at this
    cases this

theorem ext0212_from {k wc : Nat} (h : ofCode (encF cp50221_0212_ext_e wc) = some k) : 1 ≤ k ∧ k ≤ 188 ∧ (k - 1, wc) ∈ rows0212 := by
  obtain ⟨h2, h3⟩ := cp50221_0212_back h
  have h4 := cp50221_0212_rng k h3 (by rw [h2]; simp)
  refine ⟨h4.1, h4.2, ?_⟩
  have := List.all_eq_true.1 rows0212_dec k (List.mem_range.2 h3)
  rw [h2, if_neg (by omega), beq_iff_eq] at this
  exact (Cp50221.lookup_mem (by decide)).1 this.symm

theorem code0212 {wc : Nat} {b : List Byte} : Code .jisx0212 b wc ↔ (jpms_0212_w wc).res = some b := by
  unfold jpms_0212_w
  by_cases hp : 0xe3ac ≤ wc ∧ wc < 0xe758
  · rw [if_pos hp]
    obtain ⟨n1, n2⟩ := pua2_at hp.1 (by omega)
    have hu : (W.put [(wc - 0xe3ac) / 94 + 0x75, (wc - 0xe3ac) % 94 + 0x21]).res = some (user 0xe3ac wc) := by
      show some [u8 ((wc - 0xe3ac) / 94 + 0x75), u8 ((wc - 0xe3ac) % 94 + 0x21)] = _
      unfold user
      rw [Nat.add_comm _ 0x75, Nat.add_comm _ 0x21]
    rw [hu]
    constructor
    · intro h
      cases h with
      | user0212 => rfl
      | jisx0212 h => rw [listed0212, n1] at h; cases h
      | ext0212 h => exact absurd hp (ext0212_to h).2.2.1
    · intro h; cases h; exact .user0212 hp.1 (by omega)
  rw [if_neg hp]
  rcases w_on_two (jisx0212_w2 wc) (jpms_0212_x wc) with ⟨x, y, h1, h⟩ | ⟨h1, h⟩
  · rw [h]
    have hr : (jisx0212_wctomb wc).res = some [x, y] := (Iso.wres_run _ _ _ h1).1 _ rfl
    have hu : (W.put [x.toNat, y.toNat]).res = some [x, y] := by
      show some [u8 x.toNat, u8 y.toNat] = _
      rw [u8_of_toNat, u8_of_toNat]
    rw [hu, ← hr, ← listed0212]
    constructor
    · intro h
      cases h with
      | user0212 => omega
      | jisx0212 h => exact h
      | ext0212 h => rw [(ext0212_to h).1] at hr; cases hr
    · exact .jisx0212
  · rw [h, jpms_0212_x_eq]
    have hr : (jisx0212_wctomb wc).res = none := (Iso.wres_run _ _ _ h1).2 rfl
    cases he : ofCode (encF cp50221_0212_ext_e wc) with
    | some k =>
      obtain ⟨k1, k2, g⟩ := ext0212_from he
      have hu : (W.put [(k % 256 - 1) / 94 + 0x73, (k % 256 - 1) % 94 + 0x21]).res =
          some [u8 (0x73 + (k - 1) / 94), u8 (0x21 + (k - 1) % 94)] := by
        show some [u8 ((k % 256 - 1) / 94 + 0x73), u8 ((k % 256 - 1) % 94 + 0x21)] = _
        rw [Nat.mod_eq_of_lt (show k < 256 by omega), Nat.add_comm _ 0x73, Nat.add_comm _ 0x21]
      simp only [hu]
      constructor
      · intro h
        cases h with
        | user0212 => omega
        | jisx0212 h => rw [listed0212, hr] at h; cases h
        | ext0212 h =>
          have := (ext0212_to h).2.2.2
          rw [he] at this
          rw [Option.some.inj this, Nat.add_sub_cancel]
      · intro h; cases h; exact .ext0212 g
    | none =>
      simp only
      constructor
      · intro h
        cases h with
        | user0212 => omega
        | jisx0212 h => rw [listed0212, hr] at h; cases h
        | ext0212 h => rw [(ext0212_to h).2.2.2] at he; cases he
      · intro h; cases h

/-- Both bytes of a code are below 0x80. -/
theorem code_low {x : Cset} {a b : Byte} {wc : Nat} (h : Code x [a, b] wc) : a.toNat < 0x80 ∧ b.toNat < 0x80 := by
  generalize hc : [a, b] = c at h
  cases h with
  | ascii h => obtain ⟨x, _, rfl, _⟩ := h; cases hc
  | kana h => obtain ⟨x, _, _, rfl, _⟩ := h; cases hc
  | user0208 h1 h2 | user0212 h1 h2 =>
    unfold user at hc
    simp only [List.cons.injEq, and_true] at hc
    rw [hc.1, hc.2, u8_toNat, u8_toNat]
    omega
  | jisx0208 h =>
    subst hc
    have := jisx0208_rows (Cp50221.jisx0208_listed.1 h)
    obtain ⟨p, q, c, e1, e2, e3⟩ := (Iso.jisx0208_two.chars _ _).1 h
    cases e1; cases e2
    obtain ⟨l1, l2⟩ := Iso.jisx0208_two.low _ _ _ e3
    have := l1.2
    have := l2.2
    omega
  | jisx0212 h =>
    subst hc
    obtain ⟨p, q, c, e1, e2, e3⟩ := (Iso.jisx0212_two.chars _ _).1 h
    cases e1; cases e2
    obtain ⟨l1, l2⟩ := Iso.jisx0212_two.low _ _ _ e3
    have := l1.2
    have := l2.2
    omega
  | row13 h1 h2 h3 h4 =>
    cases hc
    have := h1.2
    exact ⟨by decide, by omega⟩
  | not => cases hc; decide
  | bar => cases hc; decide
  | kanji => cases hc; decide
  | ext0212 h =>
    have := (ext0212_to h).2.1
    simp only [List.cons.injEq, and_true] at hc
    rw [hc.1, hc.2, u8_toNat, u8_toNat]
    omega

/-! ### Characters -/

theorem first_missing {wc : Nat} {l : List Cset} {x : Cset} {b : List Byte} (h : First wc l x b) : ¬ Missing wc l := by
  induction h with
  | here h => exact fun hm => hm _ (List.mem_cons_self ..) _ h
  | next _ _ ih => exact fun hm => ih fun y hy => hm y (List.mem_cons_of_mem _ hy)

/-- The set of a state. -/
def cset : Nat → Cset
  | 0 => .ascii
  | 1 => .roman
  | 2 => .kana
  | 3 => .jisx0208
  | _ => .jisx0212

theorem cset_inj {a b : Nat} (ha : a ≤ 4) (hb : b ≤ 4) : cset a = cset b ↔ a = b := by
  have h1 : a = 0 ∨ a = 1 ∨ a = 2 ∨ a = 3 ∨ a = 4 := by omega
  have h2 : b = 0 ∨ b = 1 ∨ b = 2 ∨ b = 3 ∨ b = 4 := by omega
  rcases h1 with rfl | rfl | rfl | rfl | rfl <;> rcases h2 with rfl | rfl | rfl | rfl | rfl <;> simp [cset]

/-- The program writes the character in the first set of the list that has it. -/
def Does (st wc : Nat) (w : SW) (l : List Cset) : Prop :=
  (∃ b k, k ≤ 4 ∧ w.res = some ((if cset st = cset k then [] else esc (cset k)) ++ b, k) ∧
    ∀ x c, First wc l x c ↔ x = cset k ∧ c = b) ∨
  (w.res = none ∧ Missing wc l)

theorem Does.next {st wc : Nat} {w : SW} {l : List Cset} {x : Cset} (hx : ∀ b, ¬ Code x b wc) (h : Does st wc w l) :
    Does st wc w (x :: l) := by
  rcases h with ⟨b, k, hk, h1, h2⟩ | ⟨h1, h2⟩
  · refine .inl ⟨b, k, hk, h1, fun y c => ?_⟩
    rw [← h2]
    constructor
    · intro h
      cases h with
      | here h => exact absurd h (hx _)
      | next _ h => exact h
    · exact .next hx
  · refine .inr ⟨h1, fun y hy => ?_⟩
    rcases List.mem_cons.1 hy with rfl | hy
    · exact hx
    · exact h2 y hy

theorem Does.here {st wc k : Nat} {w : SW} {l : List Cset} {b : List Byte} (hk : k ≤ 4) (hx : ∀ c, Code (cset k) c wc ↔ c = b)
    (hw : w.res = some ((if cset st = cset k then [] else esc (cset k)) ++ b, k)) : Does st wc w (cset k :: l) := by
  refine .inl ⟨b, k, hk, hw, fun y c => ?_⟩
  constructor
  · intro h
    cases h with
    | here h => exact ⟨rfl, (hx _).1 h⟩
    | next h _ => exact absurd ((hx b).2 rfl) (h b)
  · rintro ⟨rfl, rfl⟩
    exact .here ((hx _).2 rfl)

theorem code_ascii {wc : Nat} {b : List Byte} : Code .ascii b wc ↔ Iso.Set.ascii.Chars b [wc] :=
  ⟨fun h => by cases h; assumption, .ascii⟩

theorem code_kana {wc : Nat} {b : List Byte} : Code .kana b wc ↔ Iso.Set.kana.Chars b [wc] :=
  ⟨fun h => by cases h; assumption, .kana⟩

theorem Does.two {st wc k : Nat} {w : W} {found : Nat → Nat → SW} {rest : SW} {l : List Cset} (hk : k ≤ 4)
    (h2 : W.Two w) (hr : ∀ b, Code (cset k) b wc ↔ w.res = some b)
    (hf : ∀ a b : Byte, (found a.toNat b.toNat).res = some ((if cset st = cset k then [] else esc (cset k)) ++ [a, b], k))
    (hrest : Does st wc rest l) : Does st wc (.try2 w found rest) (cset k :: l) := by
  rcases h2 with h | ⟨a, b, h⟩
  · have e : SW.try2 w found rest = rest := by unfold SW.try2 SW.on; rw [h]; rfl
    rw [e]
    refine hrest.next fun b hb => ?_
    rw [hr, (Iso.wres_run _ _ _ h).2 rfl] at hb
    cases hb
  · have e := (Iso.wres_run _ _ _ h).1 _ rfl
    obtain ⟨l1, l2⟩ := code_low ((hr [a, b]).2 e)
    have e2 : SW.try2 w found rest = found a.toNat b.toNat := by
      unfold SW.try2 SW.on
      rw [h]
      show (if a.toNat < 0x80 ∧ b.toNat < 0x80 then found a.toNat b.toNat else rest) = _
      rw [if_pos ⟨l1, l2⟩]
    rw [e2]
    exact .here hk (fun c => (hr c).trans ⟨fun h => Option.some.inj (h.symm.trans e), fun h => by rw [h, e]⟩) (hf a b)

theorem does (st wc : Nat) (hs : st ≤ 4) : Does st wc (iso2022_jpms_wctomb st wc) order := by
  show Does st wc _ [cset 0, cset 2, cset 3, cset 4]
  unfold iso2022_jpms_wctomb
  have h3 : Does st wc (.try2 (jpms_0208_w wc) (jpTwo st 3 [0x1b, 0x24, 0x42] 5) <|
      .try2 (jpms_0212_w wc) (jpTwo st 4 [0x1b, 0x24, 0x28, 0x44] 6) .iluni) [cset 3, cset 4] := by
    refine Does.two (by omega) (jpms_0208_w2 wc) (fun _ => code0208) (fun a b => ?_) <|
      Does.two (by omega) (jpms_0212_w2 wc) (fun _ => code0212) (fun a b => ?_) <| .inr ⟨rfl, fun _ h => (nomatch h)⟩
    · rw [IsoW.two_put]
      simp only [cset_inj hs (show 3 ≤ 4 by omega)]
      rfl
    · rw [IsoW.two_put]
      simp only [cset_inj hs (show 4 ≤ 4 by omega)]
      rfl
  rcases Iso.try1_set (fun b => b < 0x80) (ascii_wOne wc) Iso.ascii_hp (jpOne st 0 0x42)
    (.try1 (jisx0201_w wc) (fun b => 0x80 ≤ b) (fun b => jpOne st 2 0x49 (b - 0x80)) <|
      .try2 (jpms_0208_w wc) (jpTwo st 3 [0x1b, 0x24, 0x42] 5) <|
      .try2 (jpms_0212_w wc) (jpTwo st 4 [0x1b, 0x24, 0x28, 0x44] 6) .iluni) with ⟨a, ha, hc, h⟩ | ⟨hc, h⟩
  · rw [h]
    have e : u8 (a.toNat % 128) = a := by rw [Nat.mod_eq_of_lt (by omega), u8_of_toNat]
    rw [e] at hc
    refine Does.here (by omega) (fun c => code_ascii.trans (hc c)) ?_
    rw [IsoW.one_put]
    simp only [cset_inj hs (show 0 ≤ 4 by omega)]
    rfl
  rw [h]
  refine Does.next (fun b hb => hc b (code_ascii.1 hb)) ?_
  rcases Iso.try1_set (fun b => 0x80 ≤ b) (jisx0201_w_one wc) Iso.kana_hp (fun b => jpOne st 2 0x49 (b - 0x80))
    (.try2 (jpms_0208_w wc) (jpTwo st 3 [0x1b, 0x24, 0x42] 5) <|
      .try2 (jpms_0212_w wc) (jpTwo st 4 [0x1b, 0x24, 0x28, 0x44] 6) .iluni) with ⟨a, ha, hc, h⟩ | ⟨hc, h⟩
  · rw [h]
    have hl := a.toNat_lt
    have e : a.toNat - 0x80 = (u8 (a.toNat % 128)).toNat := by rw [u8_toNat]; omega
    refine Does.here (by omega) (fun c => code_kana.trans (hc c)) ?_
    simp only [e]
    rw [IsoW.one_put]
    simp only [cset_inj hs (show 2 ≤ 4 by omega)]
    rfl
  rw [h]
  exact Does.next (fun b hb => hc b (code_kana.1 hb)) h3

theorem fffd : Missing 0xfffd order := by
  simp only [Missing, order, List.forall_mem_cons]
  refine ⟨fun b hb => ?_, fun b hb => ?_, fun b hb => ?_, fun b hb => ?_, fun _ h => (nomatch h)⟩
  · obtain ⟨x, h, _, hv⟩ := code_ascii.1 hb
    simp only [List.cons.injEq, and_true] at hv
    omega
  · obtain ⟨a, h, _⟩ := (Iso.kana_hp b).1 (code_kana.1 hb)
    rw [show (jisx0201_w 0xfffd).res = none by decide +kernel] at h
    cases h
  · rw [code0208, show (jpms_0208_w 0xfffd).res = none by decide +kernel] at hb
    cases hb
  · rw [code0212, show (jpms_0212_w 0xfffd).res = none by decide +kernel] at hb
    cases hb

/-! ### Texts -/

abbrev E : Encoder := iso2022_jpms_encoder

theorem full (st wc : Nat) (hs : st ≤ 4) :
    (∃ b k, k ≤ 4 ∧ E.full st wc = some ((if cset st = cset k then [] else esc (cset k)) ++ b, k) ∧
      ∀ x c, First wc order x c ↔ x = cset k ∧ c = b) ∨ (E.full st wc = none ∧ Missing wc order) := by
  rw [iso2022_jpms_enc.full_eq (show iso2022_jpms_enc.I st from hs)]
  exact does st wc hs

theorem enc_missing {discard : Bool} {st wc : Nat} (hs : st ≤ 4) (hm : Missing wc order) :
    encChar E discard st wc = if isTag wc then some ([], st, 0) else if discard then some ([], st, 1) else none := by
  have hn : ∀ wc, Missing wc order → E.full st wc = none := by
    intro wc hm
    rcases full st wc hs with ⟨b, k, _, _, h⟩ | ⟨h, _⟩
    · exact absurd hm (first_missing ((h _ _).2 ⟨rfl, rfl⟩))
    · exact h
  unfold encChar
  rw [hn wc hm, hn _ fffd]

theorem write_iff {discard : Bool} : ∀ (cs : List Nat) {st : Nat} (_ : st ≤ 4) {o : List Byte} {i : Nat} {g' : Cset},
    Write discard (cset st) cs o i g' ↔
      ∃ st', Reiconv.writeAll (encChar E discard) st cs = some (o, st', i) ∧ st' ≤ 4 ∧ g' = cset st' := by
  intro cs
  induction cs with
  | nil =>
    intro st hs o i g'
    constructor
    · intro h; cases h; exact ⟨st, rfl, hs, rfl⟩
    · rintro ⟨st', h, _, rfl⟩; cases h; exact .nil
  | cons c cs ih =>
    intro st hs o i g'
    rcases full st c hs with ⟨b, k, hk, h1, h2⟩ | ⟨_, hm⟩
    · have he : encChar E discard st c = some ((if cset st = cset k then [] else esc (cset k)) ++ b, k, 0) := by
        unfold encChar; rw [h1]
      have hf : First c order (cset k) b := (h2 _ _).2 ⟨rfl, rfl⟩
      simp only [Reiconv.writeAll, he]
      constructor
      · intro h
        cases h with
        | char hf' h =>
          obtain ⟨rfl, rfl⟩ := (h2 _ _).1 hf'
          obtain ⟨st', g1, g2, g3⟩ := (ih hk).1 h
          exact ⟨st', by rw [g1]; simp, g2, g3⟩
        | tag hm => exact absurd hm (first_missing hf)
        | drop hm => exact absurd hm (first_missing hf)
      · rintro ⟨st', g1, g2, g3⟩
        cases e2 : Reiconv.writeAll (encChar E discard) k cs with
        | none => rw [e2] at g1; cases g1
        | some y =>
          obtain ⟨r, s2, j⟩ := y
          rw [e2] at g1
          simp only [Option.some.injEq, Prod.mk.injEq] at g1
          obtain ⟨rfl, rfl, rfl⟩ := g1
          rw [Nat.zero_add]
          exact .char hf ((ih hk).2 ⟨_, e2, g2, g3⟩)
    · have he := enc_missing (discard := discard) hs hm
      have hcons : ∀ n, encChar E discard st c = some ([], st, n) → ((∃ st', Reiconv.writeAll (encChar E discard) st (c :: cs) =
          some (o, st', i) ∧ st' ≤ 4 ∧ g' = cset st') ↔ ∃ j, Write discard (cset st) cs o j g' ∧ i = n + j) := by
        intro n he
        simp only [Reiconv.writeAll, he]
        constructor
        · rintro ⟨st', g1, g2, g3⟩
          cases e2 : Reiconv.writeAll (encChar E discard) st cs with
          | none => rw [e2] at g1; cases g1
          | some y =>
            obtain ⟨r, s2, j⟩ := y
            rw [e2] at g1
            simp only [List.nil_append, Option.some.injEq, Prod.mk.injEq] at g1
            obtain ⟨rfl, rfl, rfl⟩ := g1
            exact ⟨j, (ih hs).2 ⟨_, e2, g2, g3⟩, rfl⟩
        · rintro ⟨j, h, rfl⟩
          obtain ⟨st', g1, g2, g3⟩ := (ih hs).1 h
          exact ⟨st', by rw [g1]; simp, g2, g3⟩
      by_cases ht : isTag c = true
      · rw [if_pos ht] at he
        rw [hcons _ he]
        constructor
        · intro h
          cases h with
          | char hf => exact absurd hm (first_missing hf)
          | tag _ _ h => exact ⟨_, h, by omega⟩
          | drop _ h => rw [ht] at h; cases h
        · rintro ⟨j, h, rfl⟩
          rw [Nat.zero_add]
          exact .tag hm ht h
      · rw [if_neg ht] at he
        by_cases hd : discard = true
        · rw [if_pos hd] at he
          rw [hcons _ he]
          constructor
          · intro h
            cases h with
            | char hf => exact absurd hm (first_missing hf)
            | tag _ h => exact absurd h ht
            | drop _ _ _ h => exact ⟨_, h, by omega⟩
          · rintro ⟨j, h, rfl⟩
            rw [Nat.add_comm]
            exact .drop hm (by simpa using ht) hd h
        · rw [if_neg hd] at he
          simp only [Reiconv.writeAll, he]
          constructor
          · intro h
            cases h with
            | char hf => exact absurd hm (first_missing hf)
            | tag _ h => exact absurd h ht
            | drop _ _ h => exact absurd h hd
          · rintro ⟨_, h, _⟩; cases h

theorem state_le {discard : Bool} : ∀ (cs : List Nat) {st st' irr : Nat} {bs : List Byte}, st ≤ 4 →
    Reiconv.writeAll (encChar E discard) st cs = some (bs, st', irr) → st' ≤ 4 := by
  intro cs
  induction cs with
  | nil => intro st st' irr bs hs e; cases e; exact hs
  | cons c cs ih =>
    intro st st' irr bs hs e
    have h1 : ∀ {b1 s1 i1}, encChar E discard st c = some (b1, s1, i1) → s1 ≤ 4 := by
      intro b1 s1 i1 e1
      rcases full st c hs with ⟨b, k, hk, h, _⟩ | ⟨_, hm⟩
      · unfold encChar at e1; rw [h] at e1; cases e1; exact hk
      · rw [enc_missing hs hm] at e1
        split at e1
        · cases e1; exact hs
        · split at e1 <;> cases e1
          exact hs
    simp only [Reiconv.writeAll] at e
    cases e1 : encChar E discard st c with
    | none => rw [e1] at e; cases e
    | some x =>
      obtain ⟨b1, st1, i1⟩ := x
      rw [e1] at e
      simp only at e
      cases e2 : Reiconv.writeAll (encChar E discard) st1 cs with
      | none => rw [e2] at e; cases e
      | some y =>
        obtain ⟨r, st2, j⟩ := y
        rw [e2] at e
        cases e
        exact ih (h1 e1) e2

theorem tail_eq {st : Nat} (hs : st ≤ 4) : E.tail st = if cset st = .ascii then [] else esc .ascii := by
  have : st = 0 ∨ st = 1 ∨ st = 2 ∨ st = 3 ∨ st = 4 := by omega
  unfold E iso2022_jpms_encoder
  rcases this with rfl | rfl | rfl | rfl | rfl <;> (rw [IsoW.tail_reset (by decide)]; decide)

theorem text_iff {discard : Bool} {cs : List Nat} {out : List Byte} {irr : Nat} : Text discard cs out irr ↔
    ∃ bs st, Reiconv.writeAll (encChar E discard) 0 cs = some (bs, st, irr) ∧ out = bs ++ E.tail st := by
  constructor
  · rintro ⟨o, g, h, rfl⟩
    obtain ⟨st, h1, h2, rfl⟩ := (write_iff cs (st := 0) (by omega)).1 h
    exact ⟨o, st, h1, by rw [tail_eq h2]⟩
  · rintro ⟨bs, st, h, rfl⟩
    have hI : st ≤ 4 := state_le cs (by omega) h
    exact ⟨bs, cset st, (write_iff cs (st := 0) (by omega)).2 ⟨st, h, hI, rfl⟩, by rw [tail_eq hI]⟩

end Reiconv.JpmsW

namespace Reiconv

open JpmsW (Code First Missing order)

/-! ## The property -/

/-- C65: the conversion of a text to CP50221 is what the specification says, for every source encoding, with and
without the discard flag. -/
theorem C65_writes (A : Entry) (discard : Bool) (inp : List Byte) (cs : List Nat) (h : A.Text inp cs) (out : List Byte) (irr : Nat) :
    Whole A.atom (A.conv iso2022_jpms_entry discard) St.init inp out irr ↔ JpmsW.Text discard cs out irr :=
  (whole_iff_write h out irr).trans JpmsW.text_iff.symm

/-- C65 at the API: if the specification gives bytes for the text then `reiconv_result_size` returns their number, and
`reiconv_convert_static_size` writes exactly these bytes into a buffer that has 64 bytes more. If it gives none,
`reiconv_result_size` fails with `EILSEQ`. -/
theorem C65_api (A : Entry) (discard : Bool) (inp : List Byte) (cs : List Nat) (h : A.Text inp cs) :
    (∀ out irr, JpmsW.Text discard cs out irr →
      (∃ s, resultSize (A.conv iso2022_jpms_entry discard) St.init inp = .ok (.ok out.length, s)) ∧
      ∀ room : List Byte, out.length + 64 ≤ room.length → ∃ s b,
        convertStatic (A.conv iso2022_jpms_entry discard) St.init inp ⟨false, [], room⟩ = .ok (.ok (), s, b) ∧ b.out = out) ∧
    ((¬ ∃ out irr, JpmsW.Text discard cs out irr) →
      ∃ s, resultSize (A.conv iso2022_jpms_entry discard) St.init inp = .ok (.error .EILSEQ, s)) := by
  obtain ⟨sz, s1, h1, _, _, h2⟩ := size_whole A iso2022_jpms_entry discard inp
  constructor
  · intro out irr hj
    have hw := (C65_writes A discard inp cs h out irr).2 hj
    constructor
    · rcases h2 with ⟨n, o, i, rfl, hw', rfl, _⟩ | ⟨_, hno⟩
      · obtain ⟨rfl, _⟩ := whole_det hw hw'
        exact ⟨s1, h1⟩
      · exact absurd hw (hno _ _)
    · intro room hroom
      obtain ⟨ret, s2, b, hx, hl, h5⟩ := static_whole A iso2022_jpms_entry discard St.init A.decOK.inv_init
        iso2022_jpms_entry.encOK.inv_init inp room hw (.inl (by omega))
      rcases h5 with ⟨rfl, h5, _⟩ | ⟨_, h5, ⟨rest, h6⟩, _⟩
      · exact ⟨s2, b, hx, h5⟩
      · rw [h6, List.length_append] at hroom
        omega
  · intro hno
    rcases h2 with ⟨n, o, i, rfl, hw', _⟩ | ⟨rfl, _⟩
    · exact absurd ⟨_, _, (C65_writes A discard inp cs h _ _).1 hw'⟩ hno
    · exact ⟨s1, h1⟩

/-- The specification gives at most one result. -/
theorem C65_unique {discard : Bool} {cs : List Nat} {o o' : List Byte} {i i' : Nat}
    (h : JpmsW.Text discard cs o i) (h' : JpmsW.Text discard cs o' i') : o = o' ∧ i = i' := by
  obtain ⟨b, s, e, rfl⟩ := JpmsW.text_iff.1 h
  obtain ⟨b', s', e', rfl⟩ := JpmsW.text_iff.1 h'
  rw [e] at e'
  cases e'
  exact ⟨rfl, rfl⟩

/-- The texts that can be written: with `discard` all of them, and without it those of which every character is a tag
character or in one of the sets. -/
theorem C65_exists (discard : Bool) (cs : List Nat) : (∃ out irr, JpmsW.Text discard cs out irr) ↔
    discard = true ∨ ∀ wc ∈ cs, isTag wc = true ∨ ¬ Missing wc order := by
  have key : ∀ cs {st}, st ≤ 4 → ((∃ o i g, JpmsW.Write discard (JpmsW.cset st) cs o i g) ↔
      discard = true ∨ ∀ wc ∈ cs, isTag wc = true ∨ ¬ Missing wc order) := by
    intro cs
    induction cs with
    | nil => intro st _; exact ⟨fun _ => .inr fun _ h => (nomatch h), fun _ => ⟨_, _, _, .nil⟩⟩
    | cons c cs ih =>
      intro st hs
      rcases JpmsW.full st c hs with ⟨b, k, hk, _, h2⟩ | ⟨_, hm⟩
      · have hf : First c order (JpmsW.cset k) b := (h2 _ _).2 ⟨rfl, rfl⟩
        have hn := JpmsW.first_missing hf
        constructor
        · rintro ⟨o, i, g, h⟩
          cases h with
          | char hf' h =>
            obtain ⟨rfl, rfl⟩ := (h2 _ _).1 hf'
            exact ((ih hk).1 ⟨_, _, _, h⟩).imp id fun h => List.forall_mem_cons.2 ⟨.inr hn, h⟩
          | tag hm => exact absurd hm hn
          | drop hm => exact absurd hm hn
        · intro h
          obtain ⟨o, i, g, h⟩ := (ih hk).2 (h.imp id fun h x hx => h x (List.mem_cons_of_mem _ hx))
          exact ⟨_, _, _, .char hf h⟩
      · constructor
        · rintro ⟨o, i, g, h⟩
          cases h with
          | char hf => exact absurd hm (JpmsW.first_missing hf)
          | tag _ ht h => exact ((ih hs).1 ⟨_, _, _, h⟩).imp id fun h => List.forall_mem_cons.2 ⟨.inl ht, h⟩
          | drop _ _ hd => exact .inl hd
        · intro h
          obtain ⟨o, i, g, hw⟩ := (ih hs).2 (h.imp id fun h x hx => h x (List.mem_cons_of_mem _ hx))
          by_cases ht : isTag c = true
          · exact ⟨_, _, _, .tag hm ht hw⟩
          · rcases h with hd | h
            · exact ⟨_, _, _, .drop hm (by simpa using ht) hd hw⟩
            · rcases h c (List.mem_cons_self ..) with h | h
              · exact absurd h ht
              · exact absurd hm h
  rw [← key cs (st := 0) (by omega)]
  exact ⟨fun ⟨_, irr, o, g, h, _⟩ => ⟨o, irr, g, h⟩, fun ⟨o, irr, g, h⟩ => ⟨_, irr, o, g, h, rfl⟩⟩

/-- The characters of CP932's rows 89 to 92 that are in JIS X 0212 or its extension are written there, and not with the
codes of Windows: U+7E8A, which is at row 89 column 1. It is read back from both. -/
theorem C65_jisx0212 : JpmsW.Text false [0x7e8a] [0x1b, 0x24, 0x28, 0x44, 0x54, 0x63, 0x1b, 0x28, 0x42] 0 ∧
    iso2022_jpms_entry.Text [0x1b, 0x24, 0x42, 0x79, 0x21] [0x7e8a] := by
  refine ⟨JpmsW.text_iff.2 ⟨_, _, by rfl, by decide +kernel⟩, ?_⟩
  refine (C47_cp50221_reads _ _).2 (.step (b := [0x1b, 0x24, 0x42]) (w := []) (.esc _ _ .jisx0208 (by simp [Cp50221.escapes])) ?_)
  refine .step (b := [0x79, 0x21]) (w := [0x7e8a]) (.char _ _ _ ⟨0x79, 0x21, _, ⟨by decide, by decide⟩, ⟨by decide, by decide⟩, rfl, rfl, ?_⟩ (by decide)) (.nil _)
  unfold Cp50221.In0208
  rw [if_neg (by decide), if_neg (by decide)]
  exact .inl (Cp50221.at932_iff.1 (by decide +kernel))

/-- Two characters with the same code: U+301D and U+301E. -/
theorem C65_quotes : JpmsW.Text false [0x301d] [0x1b, 0x24, 0x42, 0x2d, 0x60, 0x1b, 0x28, 0x42] 0 ∧
    JpmsW.Text false [0x301e] [0x1b, 0x24, 0x42, 0x2d, 0x60, 0x1b, 0x28, 0x42] 0 :=
  ⟨JpmsW.text_iff.2 ⟨_, _, by rfl, by decide +kernel⟩, JpmsW.text_iff.2 ⟨_, _, by rfl, by decide +kernel⟩⟩

/-- ASCII, Katakana, JIS X 0208, row 13, private use, JIS X 0212 and its extension, a character that is missing. -/
example : JpmsW.Text true [0x41, 0xff71, 0x3042, 0x2460, 0xe000, 0xe3ac, 0x4e02, 0x2170, 0xac00, 0x41]
    [0x41, 0x1b, 0x28, 0x49, 0x31, 0x1b, 0x24, 0x42, 0x24, 0x22, 0x2d, 0x21, 0x75, 0x21, 0x1b, 0x24, 0x28, 0x44, 0x75, 0x21,
      0x30, 0x21, 0x73, 0x21, 0x1b, 0x28, 0x42, 0x41] 1 :=
  JpmsW.text_iff.2 ⟨_, _, by rfl, by decide +kernel⟩

end Reiconv
