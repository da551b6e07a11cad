import Verif.Cp50221
import Verif.Codec.IsoFollow
import Verif.Codec.SimJpms

/-!
# The decoder of CP50221 follows the specification
-/

namespace Reiconv.Cp50221

open Iso

theorem cp932_listed {b : List Byte} {c : Nat} (hb : b ≠ []) :
    Listed cp932_row b [c] ↔ cp932_mbtowc.val b = .char c b.length := by
  refine Iff.trans (listed_iff cp932_table _ _ hb) ?_
  constructor
  · rintro ⟨wc, h, h2⟩; cases h2; exact h
  · intro h; exact ⟨c, h, rfl⟩

theorem jisx0208_listed {x y : Byte} {wc : Nat} :
    Listed jisx0208_mbrow [x, y] [wc] ↔ jisx0208_dec.mbtowc.run [x, y] = .ok (some (.char wc 2)) := by
  refine Iff.trans (jisx0208_two.chars [x, y] [wc]) ?_
  constructor
  · rintro ⟨p, q, c, h1, h2, h3⟩; cases h1; cases h2; exact h3
  · intro h; exact ⟨_, _, _, rfl, rfl, h⟩

theorem jisx0212_listed {x y : Byte} {wc : Nat} :
    Listed jisx0212_mbrow [x, y] [wc] ↔ jisx0212_dec.mbtowc.run [x, y] = .ok (some (.char wc 2)) := by
  refine Iff.trans (jisx0212_two.chars [x, y] [wc]) ?_
  constructor
  · rintro ⟨p, q, c, h1, h2, h3⟩; cases h1; cases h2; exact h3
  · intro h; exact ⟨_, _, _, rfl, rfl, h⟩

theorem listed_none {m : M MbRet} {w : Nat → W} {T : List (List Byte × Nat)} (ht : TableOK m w T [])
    (name : String) (entry : Entry) {c : Nat} : (∀ b, ¬ Listed ⟨name, entry, T, []⟩ b [c]) ↔ (w c).res = none := by
  have hl : ∀ b, Listed ⟨name, entry, T, []⟩ b [c] ↔ (w c).res = some b := by
    intro b
    rw [ht.enc_iff]
    constructor
    · rintro ⟨wc, h, h2⟩; cases h2; exact .inl ⟨h, by simp⟩
    · rintro (⟨h, _⟩ | ⟨_, h⟩)
      · exact ⟨c, h, rfl⟩
      · cases h
  constructor
  · intro h
    cases hr : (w c).res with
    | none => rfl
    | some b => exact absurd ((hl b).2 hr) (h b)
  · intro h b hb
    rw [hl, h] at hb
    cases hb

theorem jisx0208_none {c : Nat} : (∀ b, ¬ Listed jisx0208_mbrow b [c]) ↔ (jisx0208_wctomb c).res = none :=
  listed_none jisx0208_table _ _

/-- What CP932 has at the row and column. -/
def at932 (x y : Byte) : Option Nat :=
  match cp932_mbtowc.val (cp932Bytes x y) with
  | .char c n => if n = 2 then some c else none
  | _ => none

def ofRun (r : Outcome (Option MbRet)) : Option Nat :=
  match r with
  | .ok (some (.char c _)) => some c
  | _ => none

/-- Row 13. -/
def row13 (y : Byte) : Option Nat :=
  match at932 0x2d y with
  | some c => if (jisx0208_wctomb c).res = none then some (if c = 0x301d then 0x301e else c) else none
  | none => none

theorem row13_chk : (List.range 94).all (fun i => ofRun (jpms_0208.run [0x2d, u8 (i + 0x21)]) == row13 (u8 (i + 0x21))) = true := by
  decide +kernel

/-- The rows from 85 on. -/
theorem row85_chk : (List.range 940).all (fun i => ofRun (jpms_0208.run [u8 (i / 94 + 0x75), u8 (i % 94 + 0x21)]) ==
    some (match at932 (u8 (i / 94 + 0x75)) (u8 (i % 94 + 0x21)) with
      | some c => c
      | none => 0xe000 + i)) = true := by
  decide +kernel

theorem rows0212_chk : (List.range 188).all (fun i => ofRun (jpms_0212.run [u8 (i / 94 + 0x73), u8 (i % 94 + 0x21)]) ==
    rows0212.lookup i) = true := by decide +kernel

theorem ofRun_two {m : M MbRet} (h : M.Two m) (x y : Byte) (wc : Nat) :
    m.run [x, y] = .ok (some (.char wc 2)) ↔ ofRun (m.run [x, y]) = some wc := by
  rcases h x y with h | ⟨c, h⟩
  · rw [h]
    constructor
    · intro h; cases h
    · intro h; cases h
  · rw [h]
    constructor
    · intro h; cases h; rfl
    · intro h; cases h; rfl

theorem at932_iff {x y : Byte} {c : Nat} : at932 x y = some c ↔ Listed cp932_row (cp932Bytes x y) [c] := by
  rw [cp932_listed (by unfold cp932Bytes; simp), show (cp932Bytes x y).length = 2 from rfl]
  unfold at932
  split
  · rename_i c' n h
    rw [h]
    constructor
    · intro h
      split at h
      · cases h; simp [*]
      · cases h
    · intro h; cases h; rfl
  · rename_i h
    constructor
    · intro h; cases h
    · intro h'; exact absurd h' (h c 2)

theorem at932_none {x y : Byte} : at932 x y = none ↔ ∀ c, ¬ Listed cp932_row (cp932Bytes x y) [c] := by
  constructor
  · intro h c hc
    rw [at932_iff.2 hc] at h
    cases h
  · intro h
    cases ha : at932 x y with
    | none => rfl
    | some c => exact absurd (at932_iff.1 ha) (h c)

theorem row13_eq {y : Byte} (h : Graphic y) : ofRun (jpms_0208.run [0x2d, y]) = row13 y := by
  have := List.all_eq_true.1 row13_chk (y.toNat - 0x21) (List.mem_range.2 (by have := h.2; omega))
  rw [show y.toNat - 0x21 + 0x21 = y.toNat by have := h.1; omega, u8_of_toNat] at this
  exact eq_of_beq this

theorem row85_eq {x y : Byte} (h1 : 0x75 ≤ x.toNat) (h2 : x.toNat < 0x7f) (h : Graphic y) : ofRun (jpms_0208.run [x, y]) =
    some (match at932 x y with
      | some c => c
      | none => 0xe000 + ((x.toNat - 0x75) * 94 + (y.toNat - 0x21))) := by
  have hy1 := h.1
  have hy2 := h.2
  have := List.all_eq_true.1 row85_chk ((x.toNat - 0x75) * 94 + (y.toNat - 0x21)) (List.mem_range.2 (by omega))
  rw [show ((x.toNat - 0x75) * 94 + (y.toNat - 0x21)) / 94 + 0x75 = x.toNat by omega,
    show ((x.toNat - 0x75) * 94 + (y.toNat - 0x21)) % 94 + 0x21 = y.toNat by omega, u8_of_toNat, u8_of_toNat] at this
  exact eq_of_beq this

theorem rows0212_eq {x y : Byte} (h1 : 0x73 ≤ x.toNat) (h2 : x.toNat < 0x75) (h : Graphic y) : ofRun (jpms_0212.run [x, y]) =
    rows0212.lookup ((x.toNat - 0x73) * 94 + (y.toNat - 0x21)) := by
  have hy1 := h.1
  have hy2 := h.2
  have := List.all_eq_true.1 rows0212_chk ((x.toNat - 0x73) * 94 + (y.toNat - 0x21)) (List.mem_range.2 (by omega))
  rw [show ((x.toNat - 0x73) * 94 + (y.toNat - 0x21)) / 94 + 0x73 = x.toNat by omega,
    show ((x.toNat - 0x73) * 94 + (y.toNat - 0x21)) % 94 + 0x21 = y.toNat by omega, u8_of_toNat, u8_of_toNat] at this
  exact eq_of_beq this

theorem lookup_mem {l : List (Nat × Nat)} (hd : (l.map (·.1)).Nodup) {i c : Nat} : l.lookup i = some c ↔ (i, c) ∈ l := by
  induction l with
  | nil => exact ⟨(nomatch ·), (nomatch ·)⟩
  | cons p l ih =>
    obtain ⟨a, b⟩ := p
    rw [List.map_cons, List.nodup_cons] at hd
    rw [List.lookup_cons, List.mem_cons]
    by_cases h : i = a
    · subst h
      rw [beq_self_eq_true]
      constructor
      · intro h; cases h; exact .inl rfl
      · rintro (h | h)
        · cases h; rfl
        · exact absurd (List.mem_map.2 ⟨_, h, rfl⟩) hd.1
    · rw [beq_false_of_ne h]
      simp only [ih hd.2, Prod.mk.injEq, h, false_and, false_or]

theorem in0208_iff {x y : Byte} {wc : Nat} (hx : Graphic x) (hy : Graphic y) :
    In0208 implemented x y wc ↔ jpms_0208.run [x, y] = .ok (some (.char wc 2)) := by
  unfold In0208
  by_cases h1 : x.toNat = 0x2d
  · rw [if_pos h1, ofRun_two jpms_0208_two]
    have hx : x = 0x2d := byte_eq h1
    subst hx
    rw [row13_eq hy]
    unfold row13
    cases ha : at932 0x2d y with
    | none =>
      refine ⟨?_, fun h => nomatch h⟩
      rintro ⟨c, hc, _⟩
      exact absurd hc (at932_none.1 ha c)
    | some c =>
      simp only
      have key : ∀ d, Listed cp932_row (cp932Bytes 0x2d y) [d] → d = c := by
        intro d hd
        rw [at932_iff.2 hd] at ha
        cases ha
        rfl
      split
      · rename_i hn
        constructor
        · rintro ⟨d, hd, _, rfl⟩
          rw [key d hd]
          rfl
        · intro h
          cases h
          exact ⟨c, at932_iff.1 ha, jisx0208_none.2 hn, rfl⟩
      · rename_i hn
        constructor
        · rintro ⟨d, hd, hj, _⟩
          rw [key d hd, jisx0208_none] at hj
          exact absurd hj hn
        · intro h; cases h
  · rw [if_neg h1]
    by_cases h2 : x.toNat < 0x75
    · rw [if_pos h2, jisx0208_listed]
      unfold jpms_0208
      rw [M.run_byte0, M.run_byte1, if_pos h2, if_neg h1]
      obtain ⟨r, h3, h4, _⟩ := m_on_two jisx0208_m2 x y
      rw [h3]
      have h4 : jisx0208_dec.mbtowc.run [x, y] = _ := h4
      rw [h4]
      exact Iff.rfl
    · rw [if_neg h2, ofRun_two jpms_0208_two, row85_eq (by omega) hx.2 hy]
      cases ha : at932 x y with
      | none =>
        simp only [Option.some.injEq]
        constructor
        · rintro (h | ⟨_, rfl⟩)
          · exact absurd h (at932_none.1 ha wc)
          · rfl
        · rintro rfl
          exact .inr ⟨at932_none.1 ha, rfl⟩
      | some c =>
        simp only [Option.some.injEq]
        constructor
        · rintro (h | ⟨h, _⟩)
          · rw [at932_iff.2 h] at ha
            cases ha
            rfl
          · exact absurd (at932_iff.1 ha) (h c)
        · rintro rfl
          exact .inl (at932_iff.1 ha)

theorem in0212_iff {x y : Byte} {wc : Nat} (hx : Graphic x) (hy : Graphic y) :
    In0212 x y wc ↔ jpms_0212.run [x, y] = .ok (some (.char wc 2)) := by
  unfold In0212
  by_cases h1 : x.toNat < 0x73
  · rw [if_pos h1, jisx0212_listed]
    unfold jpms_0212
    rw [M.run_byte0, M.run_byte1, if_pos h1]
    obtain ⟨r, h3, h4, _⟩ := m_on_two jisx0212_m2 x y
    rw [h3]
    have h4 : jisx0212_dec.mbtowc.run [x, y] = _ := h4
    rw [h4]
    exact Iff.rfl
  · rw [if_neg h1]
    by_cases h2 : x.toNat < 0x75
    · rw [if_pos h2, ofRun_two jpms_0212_two, rows0212_eq (by omega) h2 hy]
      exact (lookup_mem (by decide)).symm
    · rw [if_neg h2]
      have hx1 := hx.2
      have hy1 := hy.1
      have hy2 := hy.2
      unfold jpms_0212
      rw [M.run_byte0, M.run_byte1, if_neg h1, if_neg h2, if_pos (by omega)]
      simp only [M.run, Outcome.ok.injEq, Option.some.injEq, MbRet.char.injEq, and_true]
      omega

theorem jpms_0208_low {x y : Byte} {wc : Nat} (h : jpms_0208.run [x, y] = .ok (some (.char wc 2))) : Graphic x ∧ Graphic y := by
  unfold jpms_0208 at h
  rw [M.run_byte0, M.run_byte1] at h
  by_cases h1 : x.toNat < 0x75
  · rw [if_pos h1] at h
    by_cases h2 : x.toNat = 0x2d
    · rw [if_pos h2] at h
      by_cases h3 : 0x21 ≤ y.toNat ∧ y.toNat ≤ 0x79
      · exact ⟨⟨by omega, by omega⟩, ⟨by omega, by omega⟩⟩
      · rw [if_neg h3] at h; cases h
    · rw [if_neg h2] at h
      obtain ⟨r, h3, h4, _⟩ := m_on_two jisx0208_m2 x y
      rw [h3] at h
      cases h
      exact jisx0208_two.low x y wc h4
  · rw [if_neg h1] at h
    by_cases h2 : x.toNat ≤ 0x7e ∧ (0x21 ≤ y.toNat ∧ y.toNat ≤ 0x7e)
    · exact ⟨⟨by omega, by omega⟩, ⟨by omega, by omega⟩⟩
    · rw [if_neg h2] at h; cases h

theorem jpms_0212_low {x y : Byte} {wc : Nat} (h : jpms_0212.run [x, y] = .ok (some (.char wc 2))) : Graphic x ∧ Graphic y := by
  unfold jpms_0212 at h
  rw [M.run_byte0, M.run_byte1] at h
  by_cases h1 : x.toNat < 0x73
  · rw [if_pos h1] at h
    obtain ⟨r, h3, h4, _⟩ := m_on_two jisx0212_m2 x y
    rw [h3] at h
    cases h
    exact jisx0212_two.low x y wc h4
  · rw [if_neg h1] at h
    by_cases h2 : x.toNat < 0x75
    · rw [if_pos h2] at h
      by_cases h3 : 0x21 ≤ y.toNat ∧ y.toNat ≤ 0x7e
      · exact ⟨⟨by omega, by omega⟩, ⟨by omega, by omega⟩⟩
      · rw [if_neg h3] at h; cases h
    · rw [if_neg h2] at h
      by_cases h3 : x.toNat ≤ 0x7e ∧ (0x21 ≤ y.toNat ∧ y.toNat ≤ 0x7e)
      · exact ⟨⟨by omega, by omega⟩, ⟨by omega, by omega⟩⟩
      · rw [if_neg h3] at h; cases h

/-! ## The decoder -/

def rep : Nat → Cset
  | 0 => .ascii
  | 1 => .roman
  | 2 => .kana
  | 3 => .jisx0208
  | _ => .jisx0212

section
variable {st st' : Nat} {s : List Byte} {a b c d : Byte}

theorem esc3' {x : Cset} {k2 k3 : Nat} (h0 : s[0]? = some a) (h1 : s[1]? = some b) (h2 : s[2]? = some c)
    (e0 : a.toNat = 0x1b) (e1 : b.toNat = k2) (e2 : c.toNat = k3)
    (hm : ([u8 0x1b, u8 k2, u8 k3], x) ∈ escapes) (hr : rep st' = x) :
    ItemReads (Step implemented) rep (fun _ => []) st s (.shift 3 st') := by
  refine ⟨?_, rfl⟩
  rw [take3 h0 h1 h2, byte_eq e0, byte_eq e1, byte_eq e2, hr]
  exact .esc _ _ _ hm

theorem esc4' {x : Cset} {k2 k3 k4 : Nat} (h0 : s[0]? = some a) (h1 : s[1]? = some b) (h2 : s[2]? = some c) (h3 : s[3]? = some d)
    (e0 : a.toNat = 0x1b) (e1 : b.toNat = k2) (e2 : c.toNat = k3) (e3 : d.toNat = k4)
    (hm : ([u8 0x1b, u8 k2, u8 k3, u8 k4], x) ∈ escapes) (hr : rep st' = x) :
    ItemReads (Step implemented) rep (fun _ => []) st s (.shift 4 st') := by
  refine ⟨?_, rfl⟩
  rw [take4 h0 h1 h2 h3, byte_eq e0, byte_eq e1, byte_eq e2, byte_eq e3, hr]
  exact .esc _ _ _ hm

theorem one_char (h0 : s[0]? = some c) (hc : NotShift c.toNat) {wc : Nat} (hw : (rep st).Chars implemented [c] [wc]) :
    ItemReads (Step implemented) rep (fun _ => []) st s (.char wc 1 st) := by
  show Step implemented (rep st) (s.take 1) [wc] (rep st)
  rw [take1 h0]
  refine .char _ _ _ hw ?_
  intro y hy
  rw [List.mem_singleton] at hy
  subst hy
  obtain ⟨h1, h2, h3⟩ := hc
  refine ⟨?_, ?_, ?_⟩ <;> rintro rfl
  · exact h1 rfl
  · exact h2 rfl
  · exact h3 rfl

theorem two_char (h0 : s[0]? = some a) (h1 : s[1]? = some b) {wc : Nat} (ha : Graphic a) (hb : Graphic b)
    (hw : (rep st).Chars implemented [a, b] [wc]) :
    ItemReads (Step implemented) rep (fun _ => []) st s (.char wc 2 st) := by
  show Step implemented (rep st) (s.take 2) [wc] (rep st)
  rw [take2 h0 h1]
  refine .char _ _ _ hw ?_
  intro y hy
  have hy : Graphic y := by
    simp only [List.mem_cons, List.not_mem_nil, or_false] at hy
    rcases hy with rfl | rfl
    · exact ha
    · exact hb
  have := hy.1
  refine ⟨?_, ?_, ?_⟩ <;> rintro rfl <;> exact absurd this (by decide)

end

theorem jpms_roman {b : Byte} (h : b.toNat < 0x80) (h1 : NotShift b.toNat) : (iso2022_jpms_item 1).run [b] =
    .ok (some (.char (if b.toNat = 0x5c then 0xa5 else if b.toNat = 0x7e then 0x203e else b.toNat) 1 1)) := by
  obtain ⟨h1, h2, h3⟩ := h1
  unfold iso2022_jpms_item
  rw [M.run_byte0, if_neg h1, if_neg h2, if_neg h3, if_neg (by decide), if_pos rfl, if_pos h, sOne_char (roman_run h)]
  rfl

theorem follows : Follows iso2022_jpms_dec (Step implemented) rep (fun _ => []) where
  start := rfl
  kept := fun _ _ => rfl
  held := fun _ _ h => absurd rfl h
  sound := by
    intro st s hI _
    have hI : st ≤ 4 := hI
    show All _ (iso2022_jpms_item st) s
    unfold iso2022_jpms_item
    refine all_byte fun c hc => all_ite (fun h => ?_) fun h => all_ite (fun h' => all_ret ?_) fun h' =>
      all_ite (fun h'' => all_ret ?_) fun h'' => ?_
    · refine all_need (all_byte fun c1 h1 => all_byte fun c2 h2 => ?_)
      refine all_ite (fun e1 => ?_) fun _ => all_ite (fun e1 => ?_) fun _ => all_ret trivial
      · refine all_ite (fun e2 => all_ret ?_) fun _ => all_ite (fun e2 => all_ret ?_) fun _ =>
          all_ite (fun e2 => all_ret ?_) fun _ => all_ret trivial
        · exact esc3' hc h1 h2 h e1 e2 (by desig_mem) rfl
        · exact esc3' hc h1 h2 h e1 e2 (by desig_mem) rfl
        · exact esc3' hc h1 h2 h e1 e2 (by desig_mem) rfl
      · refine all_ite (fun e2 => all_ret ?_) fun _ => all_ite (fun e2 => ?_) fun _ => all_ret trivial
        · rcases e2 with e2 | e2
          · exact esc3' hc h1 h2 h e1 e2 (by desig_mem) rfl
          · exact esc3' hc h1 h2 h e1 e2 (by desig_mem) rfl
        · refine all_need (all_byte fun c3 h3 => all_ite (fun e3 => all_ret ?_) fun _ => all_ret trivial)
          exact esc4' hc h1 h2 h3 h e1 e2 e3 (by desig_mem) rfl
    · refine ⟨?_, rfl⟩
      rw [take1 hc, byte_eq h']
      by_cases h1 : st = 1
      · subst h1; exact .so
      · rw [if_neg h1]
        refine .noSo _ rfl ?_
        match st, hI, h1 with
        | 0, _, _ => intro h; cases h
        | 2, _, _ => intro h; cases h
        | 3, _, _ => intro h; cases h
        | 4, _, _ => intro h; cases h
    · refine ⟨?_, rfl⟩
      rw [take1 hc, byte_eq h'']
      by_cases h1 : st = 2
      · subst h1; exact .si
      · rw [if_neg h1]
        refine .noSi _ rfl ?_
        match st, hI, h1 with
        | 0, _, _ => intro h; cases h
        | 1, _, _ => intro h; cases h
        | 3, _, _ => intro h; cases h
        | 4, _, _ => intro h; cases h
    · refine all_ite (fun h1 => ?_) fun _ => all_ite (fun h1 => ?_) fun _ => all_ite (fun h1 => ?_) fun _ =>
        all_ite (fun h1 => ?_) fun _ => all_ite (fun h1 => ?_) fun _ => all_abort
      all_goals subst h1
      · refine all_ite (fun hl => all_sOne ascii_one trivial fun wc hw => all_ret ?_) fun _ => all_ret trivial
        exact one_char hc ⟨h, h', h''⟩ (ascii_chars hl hw)
      · refine all_ite (fun hl => all_sOne jisx0201_m_one trivial fun wc hw => all_ret ?_) fun _ => all_ret trivial
        exact one_char hc ⟨h, h', h''⟩ (roman_chars hl hw)
      · refine all_ite (fun hl => all_kana hl trivial fun wc hw => all_ret ?_) fun _ => all_ret trivial
        exact one_char hc ⟨h, h', h''⟩ (kana_chars hl hw)
      · refine all_sPair jpms_0208_two trivial fun a b wc ha hb hm => ?_
        obtain ⟨g1, g2⟩ := jpms_0208_low hm
        exact two_char ha hb g1 g2 ⟨a, b, wc, g1, g2, rfl, rfl, (in0208_iff g1 g2).2 hm⟩
      · refine all_sPair jpms_0212_two trivial fun a b wc ha hb hm => ?_
        obtain ⟨g1, g2⟩ := jpms_0212_low hm
        exact two_char ha hb g1 g2 ⟨a, b, wc, g1, g2, rfl, rfl, (in0212_iff g1 g2).2 hm⟩
  complete := by
    intro st b w g' hI _ hstep
    have hI : st ≤ 4 := hI
    show b ≠ [] ∧ ∃ st', rep st' = g' ∧ ((w = [] ∧ [] = [] ∧ (iso2022_jpms_item st).run b = _) ∨
      ∃ wc, w = [wc] ∧ (iso2022_jpms_item st).run b = _)
    have h5 : st = 0 ∨ st = 1 ∨ st = 2 ∨ st = 3 ∨ st = 4 := by omega
    generalize hg : rep st = g at hstep
    cases hstep with
    | esc g e x hm =>
      simp only [escapes, List.mem_cons, Prod.mk.injEq, List.not_mem_nil, or_false] at hm
      rcases hm with ⟨rfl, rfl⟩ | ⟨rfl, rfl⟩ | ⟨rfl, rfl⟩ | ⟨rfl, rfl⟩ | ⟨rfl, rfl⟩ | ⟨rfl, rfl⟩
      · exact ⟨by simp, 0, rfl, .inl ⟨rfl, rfl, rfl⟩⟩
      · exact ⟨by simp, 1, rfl, .inl ⟨rfl, rfl, rfl⟩⟩
      · exact ⟨by simp, 2, rfl, .inl ⟨rfl, rfl, rfl⟩⟩
      · exact ⟨by simp, 3, rfl, .inl ⟨rfl, rfl, rfl⟩⟩
      · exact ⟨by simp, 3, rfl, .inl ⟨rfl, rfl, rfl⟩⟩
      · exact ⟨by simp, 4, rfl, .inl ⟨rfl, rfl, rfl⟩⟩
    | so =>
      rcases h5 with rfl | rfl | rfl | rfl | rfl <;> first | cases hg | skip
      exact ⟨by simp, 2, rfl, .inl ⟨rfl, rfl, rfl⟩⟩
    | si =>
      rcases h5 with rfl | rfl | rfl | rfl | rfl <;> first | cases hg | skip
      exact ⟨by simp, 1, rfl, .inl ⟨rfl, rfl, rfl⟩⟩
    | noSo g _ hn =>
      refine ⟨by simp, st, hg, .inl ⟨rfl, rfl, ?_⟩⟩
      rcases h5 with rfl | rfl | rfl | rfl | rfl
      · rfl
      · exact absurd hg.symm hn
      · rfl
      · rfl
      · rfl
    | noSi g _ hn =>
      refine ⟨by simp, st, hg, .inl ⟨rfl, rfl, ?_⟩⟩
      rcases h5 with rfl | rfl | rfl | rfl | rfl
      · rfl
      · rfl
      · exact absurd hg.symm hn
      · rfl
      · rfl
    | char g b w hch hc =>
      subst hg
      have esc : ∀ y, b = [y] → NotShift y.toNat := by
        rintro y rfl
        obtain ⟨h1, h2, h3⟩ := hc y (List.mem_singleton.2 rfl)
        exact ⟨fun h => h1 (byte_eq h), fun h => h2 (byte_eq h), fun h => h3 (byte_eq h)⟩
      rcases h5 with rfl | rfl | rfl | rfl | rfl
      · obtain ⟨y, hy, rfl, rfl⟩ := hch
        exact ⟨by simp, 0, rfl, .inr ⟨_, rfl, jpms_asc rfl hy (esc y rfl)⟩⟩
      · obtain ⟨y, hy, rfl, rfl⟩ := hch
        exact ⟨by simp, 1, rfl, .inr ⟨_, rfl, jpms_roman hy (esc y rfl)⟩⟩
      · obtain ⟨y, hy1, hy2, rfl, rfl⟩ := hch
        have e : (u8 (y.toNat + 0x80)).toNat = y.toNat + 0x80 := by rw [u8_toNat]; omega
        exact ⟨by simp, 2, rfl, .inr ⟨_, rfl, jpms_kana (a := u8 (y.toNat + 0x80)) rfl (by omega) (by omega) (kana_run hy1 hy2)⟩⟩
      · obtain ⟨x, y, wc, h1, h2, rfl, rfl, h3⟩ := hch
        have := h1.1; have := h1.2; have := h2.2
        exact ⟨by simp, 3, rfl, .inr ⟨_, rfl, jpms_two (.inl ⟨rfl, rfl⟩) (by omega) (by omega) (by omega) ((in0208_iff h1 h2).1 h3)⟩⟩
      · obtain ⟨x, y, wc, h1, h2, rfl, rfl, h3⟩ := hch
        have := h1.1; have := h1.2; have := h2.2
        exact ⟨by simp, 4, rfl, .inr ⟨_, rfl, jpms_two (.inr ⟨rfl, rfl⟩) (by omega) (by omega) (by omega) ((in0212_iff h1 h2).1 h3)⟩⟩

end Reiconv.Cp50221
