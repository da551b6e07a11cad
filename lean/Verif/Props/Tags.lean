import Verif.Codec.IsoFollow4
import Verif.Props.Pivot

/-!
# C60: what is written in ISO-2022-JP-2, and language tags

The encoding has nine character sets, and many characters are in more than one of them. The library chooses the set
by the language of the text, which Unicode language tags in the text change. The specification says what is written in
terms of the character sets and registers of `Verif.Iso2022`.
-/

namespace Reiconv.Iso

/-! ## Specification -/

/-- The languages that a tag can name, and none. -/
inductive Lang where
  | none | ja | ko | zh
  deriving DecidableEq

/-- Between the characters of a text: the language, or the letters of an unfinished tag. -/
inductive Tagging where
  | lang (l : Lang)
  | tag (letters : List Nat)
  deriving DecidableEq

/-- The letters of the tags. -/
def tagNames : List (List Nat × Lang) := [([0x6a, 0x61], .ja), ([0x6b, 0x6f], .ko), ([0x7a, 0x68], .zh)]

/-- The language of the characters that follow. An unfinished tag does not count. -/
def Tagging.current : Tagging → Lang
  | lang l => l
  | tag _ => .none

/-- A capital letter counts as the small one. -/
def lower (c : Nat) : Nat := if 0x41 ≤ c ∧ c ≤ 0x5a then c + 0x20 else c

/-- The tag character `U+E0000 + c`: U+E0001 begins a tag, U+E007F ends the language; a letter continues an
unfinished tag if a name begins so, and finishes it if it is the name; any other one ends it with no language. Without
an unfinished tag it has no effect. -/
def Tagging.next (t : Tagging) (c : Nat) : Tagging :=
  if c = 0x01 then .tag []
  else if c = 0x7f then .lang .none
  else match t with
    | .lang l => .lang l
    | .tag ls =>
      match tagNames.lookup (ls ++ [lower c]) with
      | some l => .lang l
      | none => if tagNames.any fun p => (ls ++ [lower c]).isPrefixOf p.1 then .tag (ls ++ [lower c]) else .lang .none

/-- The sets in the order in which they are tried. -/
def Lang.order : Lang → List Set
  | .ko => [.ascii, .ksc5601, .latin1 0, .greek 0, .roman, .jisx0208, .jisx0212, .gb2312, .kana]
  | .zh => [.ascii, .gb2312, .latin1 0, .greek 0, .roman, .jisx0208, .jisx0212, .ksc5601, .kana]
  | _ => [.ascii, .roman, .jisx0208, .jisx0212, .latin1 0, .greek 0, .gb2312, .ksc5601, .kana]

/-- The register and the designation that is written for a set. -/
def Set.escape : Set → Option (Reg × List Byte)
  | .ascii => some (.G0, [0x1b, 0x28, 0x42])
  | .roman => some (.G0, [0x1b, 0x28, 0x4a])
  | .kana => some (.G0, [0x1b, 0x28, 0x49])
  | .jisx0208 => some (.G0, [0x1b, 0x24, 0x42])
  | .jisx0212 => some (.G0, [0x1b, 0x24, 0x28, 0x44])
  | .gb2312 => some (.G0, [0x1b, 0x24, 0x41])
  | .ksc5601 => some (.G0, [0x1b, 0x24, 0x28, 0x43])
  | .latin1 _ => some (.G2, [0x1b, 0x2e, 0x41])
  | .greek _ => some (.G2, [0x1b, 0x2e, 0x46])
  | _ => none

/-- `x` is the first of the sets that has the character. -/
inductive First (wc : Nat) : List Set → Set → Prop
  | here {x l b} : x.Chars b [wc] → First wc (x :: l) x
  | next {y l x} : (∀ b, ¬ y.Chars b [wc]) → First wc l x → First wc (y :: l) x

/-- A character is written in the set `x`: the designation if the set is not in its register already, then the bytes,
after `ESC N` for the sets in G2. -/
inductive Put (g : Regs) (wc : Nat) (x : Set) : List Byte → Regs → Prop
  | g0 {e b p} : x.escape = some (.G0, e) → x.Chars b [wc] → (g.g0 = x ∧ p = [] ∨ g.g0 ≠ x ∧ p = e) →
      Put g wc x (p ++ b) ((jp2 0 true).after (g.set .G0 x) b)
  | g2 {e b p} : x.escape = some (.G2, e) → x.Chars b [wc] → (g.g2 = some x ∧ p = [] ∨ g.g2 ≠ some x ∧ p = e) →
      Put g wc x (p ++ 0x1b :: 0x4e :: b) (g.set .G2 x)

/-- What is written for one character. Tag characters have no bytes; the other characters are written in the first set
of the language that has them. With `discard` a character that no set has is left out and counted. -/
inductive Write (discard : Bool) : Regs → Tagging → Nat → List Byte → Nat → Regs → Tagging → Prop
  | tag {g t c} : c ≤ 0x7f → Write discard g t (0xe0000 + c) [] 0 g (t.next c)
  | char {g t wc x out g'} : isTag wc = false → First wc t.current.order x → Put g wc x out g' →
      Write discard g t wc out 0 g' (.lang t.current)
  | drop {g t wc} : isTag wc = false → discard = true → (∀ x ∈ t.current.order, ∀ b, ¬ x.Chars b [wc]) →
      Write discard g t wc [] 1 g t

/-- What is written for the characters of a text. -/
inductive WriteAll (discard : Bool) : Regs → Tagging → List Nat → List Byte → Nat → Regs → Tagging → Prop
  | nil {g t} : WriteAll discard g t [] [] 0 g t
  | cons {g t wc o i g1 t1 cs out n g2 t2} : Write discard g t wc o i g1 t1 → WriteAll discard g1 t1 cs out n g2 t2 →
      WriteAll discard g t (wc :: cs) (o ++ out) (i + n) g2 t2

/-- A whole text, which ends in ASCII. -/
def Jp2Text (discard : Bool) (cs : List Nat) (out : List Byte) (irr : Nat) : Prop :=
  ∃ o g t, WriteAll discard .init (.lang .none) cs o irr g t ∧
    (g.g0 = .ascii ∧ out = o ∨ g.g0 ≠ .ascii ∧ out = o ++ [0x1b, 0x28, 0x42])

/-! ## Proofs -/

theorem wres_run : ∀ (w : W) (n : Nat) (r : WcRes), w.run 0 n = .ok r →
    (∀ bs, r = .put bs 0 → w.res = some bs) ∧ (r = .iluni 0 → w.res = none) := by
  intro w
  induction w with
  | room k w ih =>
    intro n r h
    simp only [W.run] at h
    split at h
    · exact ih n r h
    · cases h
      exact ⟨fun bs h => (nomatch h), fun h => (nomatch h)⟩
  | put bs =>
    intro n r h
    cases h
    exact ⟨fun b h => by simp only [WcRes.put, WcRes.mk.injEq] at h; rw [← h.2.1]; rfl, fun h => (nomatch h)⟩
  | iluni =>
    intro n r h
    cases h
    exact ⟨fun b h => (nomatch h), fun _ => rfl⟩
  | ub => intro n r h; cases h
  | abort => intro n r h; cases h

/-- `try2` for a character set of two bytes. -/
theorem try2_set {x : Set} {m : M MbRet} {w : Nat → W} (hx : Two x m) {wc : Nat} (h2 : W.Two (w wc))
    (hr : ∀ b, x.Chars b [wc] ↔ (w wc).res = some b) (found : Nat → Nat → SW) (rest : SW) :
    (∃ a b : Byte, (∀ c, x.Chars c [wc] ↔ c = [a, b]) ∧ SW.try2 (w wc) found rest = found a.toNat b.toNat) ∨
      ((∀ c, ¬ x.Chars c [wc]) ∧ SW.try2 (w wc) found rest = rest) := by
  rcases h2 with h | ⟨a, b, h⟩
  · refine .inr ⟨fun c hc => ?_, ?_⟩
    · rw [hr, (wres_run _ _ _ h).2 rfl] at hc; cases hc
    · unfold SW.try2 SW.on; rw [h]; rfl
  · have e := (wres_run _ _ _ h).1 _ rfl
    refine .inl ⟨a, b, fun c => ?_, ?_⟩
    · rw [hr, e]
      exact ⟨fun h => (Option.some.inj h).symm, fun h => by rw [h]⟩
    · obtain ⟨p, q, c, e1, e2, e3⟩ := (hx.chars _ _).1 ((hr _).2 e)
      cases e1; cases e2
      obtain ⟨l1, l2⟩ := hx.low _ _ _ e3
      have := l1.2
      have := l2.2
      rcases SW.try2_cases (.inr ⟨a, b, h⟩) found rest with ⟨a', b', g1, g2, g3, g4⟩ | g4
      · rw [h] at g1
        cases g1
        exact g4
      · unfold SW.try2 SW.on
        rw [h]
        show (if a.toNat < 0x80 ∧ b.toNat < 0x80 then found a.toNat b.toNat else rest) = _
        rw [if_pos ⟨by omega, by omega⟩]

theorem set_res {m : M MbRet} {w : Nat → W} {T : List (List Byte × Nat)} (ht : TableOK m w T [])
    (name : String) (entry : Entry) (c : Nat) (b : List Byte) : Listed ⟨name, entry, T, []⟩ b [c] ↔ (w c).res = some b := by
  rw [ht.enc_iff]
  constructor
  · rintro ⟨wc, h, h2⟩; cases h2; exact .inl ⟨h, by simp⟩
  · rintro (⟨h, _⟩ | ⟨_, h⟩)
    · exact ⟨c, h, rfl⟩
    · cases h

theorem try1_set {x : Set} {w : W} {wc : Nat} (P : Nat → Prop) [DecidablePred P] (h1 : W.One w)
    (hp : ∀ c : List Byte, x.Chars c [wc] ↔ ∃ a : Byte, w.res = some [a] ∧ P a.toNat ∧ c = [u8 (a.toNat % 128)])
    (found : Nat → SW) (rest : SW) :
    (∃ a : Byte, P a.toNat ∧ (∀ c, x.Chars c [wc] ↔ c = [u8 (a.toNat % 128)]) ∧ SW.try1 w P found rest = found a.toNat) ∨
      ((∀ c, ¬ x.Chars c [wc]) ∧ SW.try1 w P found rest = rest) := by
  rcases h1 with h | ⟨a, h⟩
  · refine .inr ⟨fun c hc => ?_, ?_⟩
    · obtain ⟨a, e, _⟩ := (hp c).1 hc
      rw [(wres_run _ _ _ h).2 rfl] at e; cases e
    · unfold SW.try1 SW.on; rw [h]; rfl
  · have e := (wres_run _ _ _ h).1 _ rfl
    have hs : SW.try1 w P found rest = if P a.toNat then found a.toNat else rest := by
      unfold SW.try1 SW.on
      rw [h]
      rfl
    by_cases hP : P a.toNat
    · refine .inl ⟨a, hP, fun c => ?_, by rw [hs, if_pos hP]⟩
      rw [hp]
      constructor
      · rintro ⟨a', e', _, rfl⟩
        rw [e] at e'
        cases e'
        rfl
      · rintro rfl
        exact ⟨a, e, hP, rfl⟩
    · refine .inr ⟨fun c hc => ?_, by rw [hs, if_neg hP]⟩
      obtain ⟨a', e', h', _⟩ := (hp c).1 hc
      rw [e] at e'
      cases e'
      exact hP h'

theorem iso8859_7_w_res {wc : Nat} {a : Byte} : (iso8859_7_w wc).res = some [a] ↔ (a.toNat, wc) ∈ iso8859_7_from := by
  have hb := a.toNat_lt
  rw [← SB.dec_sound iso8859_7_safe iso8859_7_chkDec a.toNat wc hb]
  have hi := SB.inv_sound iso8859_7_safe iso8859_7_chkInv a.toNat wc hb
  have e : (iso8859_7_sb.encode wc = some a.toNat) ↔ iso8859_7_sb.decode a.toNat = some wc := by
    rw [hi]
    constructor
    · rintro (⟨h, _⟩ | ⟨_, h⟩)
      · exact h
      · cases h
    · intro h; exact .inl ⟨h, by simp [iso8859_7_irr]⟩
  rw [← e, SB.encode_fast iso8859_7_safe]
  unfold iso8859_7_w
  obtain ⟨e1, e2⟩ := sbEncode_fast (rs := iso8859_7_e) (by decide) wc
  rw [e1]
  show _ ↔ ofCode (encF iso8859_7_e wc) = some a.toNat
  cases hx : encF iso8859_7_e wc with
  | zero => exact ⟨fun h => (nomatch h), fun h => (nomatch h)⟩
  | succ b =>
    show some [u8 b] = some [a] ↔ some b = some a.toNat
    rw [hx] at e2
    simp only [Option.some.injEq, List.cons.injEq, and_true]
    constructor
    · intro h; rw [← h, u8_toNat]; omega
    · intro h; rw [h, u8_of_toNat]

theorem greek_hp {wc : Nat} (c : List Byte) : (Set.greek 0).Chars c [wc] ↔
    ∃ a : Byte, (iso8859_7_w wc).res = some [a] ∧ a.toNat ≥ 0x80 ∧ c = [u8 (a.toNat % 128)] := by
  constructor
  · rintro ⟨x, v, _, hx, rfl, hm, hv⟩
    cases hv
    refine ⟨u8 (x.toNat + 0x80), iso8859_7_w_res.2 (by rw [hi_low hx]; exact hm), by rw [hi_low hx]; omega, ?_⟩
    rw [hi_low hx]
    congr 1
    apply byte_eq
    omega
  · rintro ⟨a, h, ha, rfl⟩
    have hl := a.toNat_lt
    have e : (u8 (a.toNat % 128)).toNat = a.toNat - 0x80 := by rw [u8_toNat]; omega
    refine ⟨u8 (a.toNat % 128), wc, Nat.zero_le _, by omega, rfl, ?_, rfl⟩
    rw [e, show a.toNat - 0x80 + 0x80 = a.toNat by omega]
    exact iso8859_7_w_res.1 h

theorem latin1_hp {wc : Nat} (c : List Byte) : (Set.latin1 0).Chars c [wc] ↔
    ∃ a : Byte, (iso8859_1_w wc).res = some [a] ∧ a.toNat ≥ 0x80 ∧ c = [u8 (a.toNat % 128)] := by
  unfold iso8859_1_w
  constructor
  · rintro ⟨x, _, hx, rfl, hv⟩
    cases hv
    rw [if_pos (by omega)]
    refine ⟨u8 (x.toNat + 0x80), rfl, by rw [hi_low hx]; omega, ?_⟩
    rw [hi_low hx]
    congr 1
    apply byte_eq
    omega
  · rintro ⟨a, h, ha, rfl⟩
    have hl := a.toNat_lt
    have e : (u8 (a.toNat % 128)).toNat = a.toNat - 0x80 := by rw [u8_toNat]; omega
    by_cases hw : wc < 0x100
    · rw [if_pos hw] at h
      have h : some [u8 wc] = some [a] := h
      simp only [Option.some.injEq, List.cons.injEq, and_true] at h
      have : a.toNat = wc := by rw [← h, u8_toNat]; omega
      exact ⟨u8 (a.toNat % 128), Nat.zero_le _, by omega, rfl, by rw [e, this]; congr 1; omega⟩
    · rw [if_neg hw] at h; cases h

theorem ascii_hp {wc : Nat} (c : List Byte) : Set.ascii.Chars c [wc] ↔
    ∃ a : Byte, (ascii_w wc).res = some [a] ∧ a.toNat < 0x80 ∧ c = [u8 (a.toNat % 128)] := by
  unfold ascii_w
  constructor
  · rintro ⟨x, hx, rfl, hv⟩
    cases hv
    rw [if_pos (by omega)]
    refine ⟨x, by show some [u8 x.toNat] = _; rw [u8_of_toNat], hx, ?_⟩
    congr 1
    apply byte_eq
    omega
  · rintro ⟨a, h, ha, rfl⟩
    have e : (u8 (a.toNat % 128)).toNat = a.toNat := by rw [u8_toNat]; omega
    by_cases hw : wc < 0x80
    · rw [if_pos hw] at h
      have h : some [u8 wc] = some [a] := h
      simp only [Option.some.injEq, List.cons.injEq, and_true] at h
      have : a.toNat = wc := by rw [← h, u8_toNat]; omega
      exact ⟨u8 (a.toNat % 128), by omega, rfl, by rw [e, this]⟩
    · rw [if_neg hw] at h; cases h

theorem jisx0201_w_res {wc : Nat} {a : Byte} : (jisx0201_w wc).res = some [a] ↔
    (wc < 0x80 ∧ wc ≠ 0x5c ∧ wc ≠ 0x7e ∧ a.toNat = wc) ∨ (wc = 0xa5 ∧ a.toNat = 0x5c) ∨ (wc = 0x203e ∧ a.toNat = 0x7e) ∨
      (0xff61 ≤ wc ∧ wc < 0xffa0 ∧ a.toNat = wc - 0xfec0) := by
  have hl := a.toNat_lt
  have key : ∀ n, n < 256 → ((W.put [n]).res = some [a] ↔ a.toNat = n) := by
    intro n hn
    show some [u8 n] = some [a] ↔ _
    simp only [Option.some.injEq, List.cons.injEq, and_true]
    constructor
    · intro h; rw [← h, u8_toNat]; omega
    · intro h; rw [← h, u8_of_toNat]
  unfold jisx0201_w
  by_cases h1 : wc < 0x0080 ∧ ¬ (wc = 0x005c ∨ wc = 0x007e)
  · rw [if_pos h1, key _ (by omega)]; omega
  rw [if_neg h1]
  by_cases h2 : wc = 0xa5
  · rw [if_pos h2, key _ (by omega)]; omega
  rw [if_neg h2]
  by_cases h3 : wc = 0x203e
  · rw [if_pos h3, key _ (by omega)]; omega
  rw [if_neg h3]
  by_cases h4 : wc ≥ 0xff61 ∧ wc < 0xffa0
  · rw [if_pos h4, key _ (by omega)]; omega
  rw [if_neg h4]
  constructor
  · intro h; cases h
  · omega

theorem roman_hp {wc : Nat} (c : List Byte) : Set.roman.Chars c [wc] ↔
    ∃ a : Byte, (jisx0201_w wc).res = some [a] ∧ a.toNat < 0x80 ∧ c = [u8 (a.toNat % 128)] := by
  constructor
  · rintro ⟨x, hx, rfl, hv⟩
    refine ⟨x, jisx0201_w_res.2 ?_, hx, ?_⟩
    · simp only [List.cons.injEq, and_true] at hv
      split at hv
      · omega
      · split at hv <;> omega
    · congr 1
      apply byte_eq
      omega
  · rintro ⟨a, h, ha, rfl⟩
    have e : (u8 (a.toNat % 128)).toNat = a.toNat := by rw [u8_toNat]; omega
    refine ⟨u8 (a.toNat % 128), by omega, rfl, ?_⟩
    rw [e]
    have := jisx0201_w_res.1 h
    congr 1
    by_cases h1 : a.toNat = 0x5c
    · rw [if_pos h1]; omega
    rw [if_neg h1]
    by_cases h2 : a.toNat = 0x7e
    · rw [if_pos h2]; omega
    rw [if_neg h2]; omega

theorem kana_hp {wc : Nat} (c : List Byte) : Set.kana.Chars c [wc] ↔
    ∃ a : Byte, (jisx0201_w wc).res = some [a] ∧ a.toNat ≥ 0x80 ∧ c = [u8 (a.toNat % 128)] := by
  constructor
  · rintro ⟨x, h1, h2, rfl, hv⟩
    simp only [List.cons.injEq, and_true] at hv
    have hx : x.toNat < 0x80 := by omega
    refine ⟨u8 (x.toNat + 0x80), jisx0201_w_res.2 ?_, by rw [hi_low hx]; omega, ?_⟩
    · rw [hi_low hx]; omega
    · rw [hi_low hx]
      congr 1
      apply byte_eq
      omega
  · rintro ⟨a, h, ha, rfl⟩
    have hl := a.toNat_lt
    have e : (u8 (a.toNat % 128)).toNat = a.toNat - 0x80 := by rw [u8_toNat]; omega
    have := jisx0201_w_res.1 h
    refine ⟨u8 (a.toNat % 128), by omega, by omega, rfl, ?_⟩
    rw [e]
    congr 1
    omega

/-! ### One character -/

/-- The program writes what the specification says for the first set of the list that has the character. -/
def Does (g : Regs) (s3 wc : Nat) (w : SW) (l : List Set) : Prop :=
  (∃ out s1 s2, w.res = some (out, cnSt s1 s2 s3) ∧ s1 ≤ 6 ∧ s2 ≤ 2 ∧
    ∀ out' g', (∃ x, First wc l x ∧ Put g wc x out' g') ↔ out' = out ∧ g' = jp2Regs s1 s2) ∨
  (w.res = none ∧ ∀ x ∈ l, ∀ b, ¬ x.Chars b [wc])

theorem Does.nil {g s3 wc} : Does g s3 wc .iluni [] := .inr ⟨rfl, by simp⟩

theorem Does.next {g s3 wc w l} {x : Set} (hx : ∀ b, ¬ x.Chars b [wc]) (h : Does g s3 wc w l) : Does g s3 wc w (x :: l) := by
  rcases h with ⟨out, s1, s2, h1, h2, h3, h4⟩ | ⟨h1, h2⟩
  · refine .inl ⟨out, s1, s2, h1, h2, h3, fun out' g' => ?_⟩
    rw [← h4]
    constructor
    · rintro ⟨y, hf, hp⟩
      cases hf with
      | here h => exact absurd h (hx _)
      | next _ h => exact ⟨y, h, hp⟩
    · rintro ⟨y, hf, hp⟩
      exact ⟨y, .next hx hf, hp⟩
  · refine .inr ⟨h1, fun y hy => ?_⟩
    rcases List.mem_cons.1 hy with rfl | hy
    · exact hx
    · exact h2 y hy

theorem first_head {wc : Nat} {x y : Set} {l : List Set} {b : List Byte} (hx : x.Chars b [wc]) :
    First wc (x :: l) y ↔ y = x := by
  constructor
  · intro h
    cases h with
    | here _ => rfl
    | next h _ => exact absurd hx (h _)
  · rintro rfl; exact .here hx

theorem jp2Set_inj {a b : Nat} (ha : a ≤ 6) (hb : b ≤ 6) : jp2Set a = jp2Set b ↔ a = b := by
  constructor
  · intro h
    have ha : a = 0 ∨ a = 1 ∨ a = 2 ∨ a = 3 ∨ a = 4 ∨ a = 5 ∨ a = 6 := by omega
    have hb : b = 0 ∨ b = 1 ∨ b = 2 ∨ b = 3 ∨ b = 4 ∨ b = 5 ∨ b = 6 := by omega
    rcases ha with rfl | rfl | rfl | rfl | rfl | rfl | rfl <;> rcases hb with rfl | rfl | rfl | rfl | rfl | rfl | rfl <;>
      first | rfl | cases h
  · rintro rfl; rfl

theorem jp2G2_inj {a b : Nat} (ha : a ≤ 2) (hb : b ≤ 2) : jp2G2 a = jp2G2 b ↔ a = b := by
  constructor
  · intro h
    have ha : a = 0 ∨ a = 1 ∨ a = 2 := by omega
    have hb : b = 0 ∨ b = 1 ∨ b = 2 := by omega
    rcases ha with rfl | rfl | rfl <;> rcases hb with rfl | rfl | rfl <;> first | rfl | cases h
  · rintro rfl; rfl

/-- A set in G0. -/
theorem Does.g0 {s1 s2 s3 k wc u2 : Nat} {esc : List Nat} {b : List Byte} {w : SW} {l : List Set} (h1 : s1 ≤ 6)
    (hk : k ≤ 6) (hu : u2 ≤ 2) (he : (jp2Set k).escape = some (.G0, esc.map u8)) (hb : ∀ c, (jp2Set k).Chars c [wc] ↔ c = b)
    (ha : u2 = if b = [0x0a] ∨ b = [0x0d] then 0 else s2)
    (h : w.res = some (((if s1 ≠ k then esc else []).map u8) ++ b, cnSt k u2 s3)) :
    Does (jp2Regs s1 s2) s3 wc w (jp2Set k :: l) := by
  have hg : (jp2 0 true).after ((jp2Regs s1 s2).set .G0 (jp2Set k)) b = jp2Regs k u2 := by
    unfold Profile.after
    subst ha
    by_cases hn : b = [0x0a] ∨ b = [0x0d]
    · rw [if_pos ⟨rfl, hn⟩, if_pos hn]; rfl
    · rw [if_neg (fun h => hn h.2), if_neg hn]; rfl
  have hs : (jp2Regs s1 s2).g0 = jp2Set k ↔ s1 = k := jp2Set_inj h1 hk
  refine .inl ⟨_, _, _, h, hk, hu, fun out' g' => ?_⟩
  constructor
  · rintro ⟨x, hf, hp⟩
    obtain rfl := (first_head ((hb b).2 rfl)).1 hf
    cases hp with
    | @g0 e c p h3 h4 h5 =>
      obtain rfl := (hb _).1 h4
      rw [he] at h3
      cases h3
      simp only [ne_eq, hs] at h5
      refine ⟨?_, hg⟩
      rcases h5 with ⟨rfl, rfl⟩ | ⟨h5, rfl⟩
      · rw [if_neg (by simp)]; rfl
      · rw [if_pos h5]
    | g2 h3 _ _ => rw [he] at h3; cases h3
  · rintro ⟨rfl, rfl⟩
    refine ⟨_, .here ((hb b).2 rfl), ?_⟩
    rw [← hg]
    refine .g0 he ((hb b).2 rfl) ?_
    simp only [ne_eq, hs]
    by_cases hc : s1 = k
    · rw [if_neg (by simpa using hc)]; exact .inl ⟨hc, rfl⟩
    · rw [if_pos hc]; exact .inr ⟨hc, rfl⟩

theorem Does.g2 {s1 s2 s3 k wc : Nat} {x : Set} {esc : List Nat} {b : List Byte} {w : SW} {l : List Set} (h1 : s1 ≤ 6) (h2 : s2 ≤ 2)
    (hk : k ≤ 2) (hx : jp2G2 k = some x) (he : x.escape = some (.G2, esc.map u8)) (hb : ∀ c, x.Chars c [wc] ↔ c = b)
    (h : w.res = some (((if s2 ≠ k then esc else []).map u8) ++ 0x1b :: 0x4e :: b, cnSt s1 k s3)) :
    Does (jp2Regs s1 s2) s3 wc w (x :: l) := by
  have hg : (jp2Regs s1 s2).set .G2 x = jp2Regs s1 k := by
    unfold jp2Regs; rw [hx]; rfl
  have hs : (jp2Regs s1 s2).g2 = some x ↔ s2 = k := by rw [← hx]; exact jp2G2_inj h2 hk
  refine .inl ⟨_, _, _, h, h1, hk, fun out' g' => ?_⟩
  constructor
  · rintro ⟨y, hf, hp⟩
    obtain rfl := (first_head ((hb b).2 rfl)).1 hf
    cases hp with
    | @g2 e c p h3 h4 h5 =>
      obtain rfl := (hb _).1 h4
      rw [he] at h3
      cases h3
      simp only [ne_eq, hs] at h5
      refine ⟨?_, hg⟩
      rcases h5 with ⟨rfl, rfl⟩ | ⟨h5, rfl⟩
      · rw [if_neg (by simp)]; rfl
      · rw [if_pos h5]
    | g0 h3 _ _ => rw [he] at h3; cases h3
  · rintro ⟨rfl, rfl⟩
    refine ⟨_, .here ((hb b).2 rfl), ?_⟩
    rw [← hg]
    refine .g2 he ((hb b).2 rfl) ?_
    simp only [ne_eq, hs]
    by_cases hc : s2 = k
    · rw [if_neg (by simpa using hc)]; exact .inl ⟨hc, rfl⟩
    · rw [if_pos hc]; exact .inr ⟨hc, rfl⟩

theorem does_one {s1 s2 s3 k f wc : Nat} {x : Set} {w : W} {l : List Set} {rest : SW} (h1 : s1 ≤ 6) (h2 : s2 ≤ 2)
    (hk : k ≤ 6) (hx : jp2Set k = x) (he : x.escape = some (.G0, [0x1b, 0x28, f].map u8)) (ho : W.One w)
    (hp : ∀ c : List Byte, x.Chars c [wc] ↔ ∃ a : Byte, w.res = some [a] ∧ a.toNat < 0x80 ∧ c = [u8 (a.toNat % 128)])
    (hn : ∀ a : Byte, x.Chars [a] [wc] → ((wc = 0x0a ∨ wc = 0x0d) ↔ (a.toNat = 0x0a ∨ a.toNat = 0x0d)))
    (hr : Does (jp2Regs s1 s2) s3 wc rest l) :
    Does (jp2Regs s1 s2) s3 wc (.try1 w (fun b => b < 0x80)
      (fun b => jp2One s1 s3 k f b (if wc = 0x0a ∨ wc = 0x0d then 0 else s2)) rest) (x :: l) := by
  rcases try1_set (fun b => b < 0x80) ho hp (fun b => jp2One s1 s3 k f b (if wc = 0x0a ∨ wc = 0x0d then 0 else s2)) rest with
    ⟨a, ha, hb, h⟩ | ⟨hb, h⟩
  · rw [h]
    subst hx
    have e : u8 (a.toNat % 128) = a := by rw [Nat.mod_eq_of_lt (by omega), u8_of_toNat]
    rw [e] at hb
    have hn := hn a ((hb _).2 rfl)
    have hn' : (wc = 0x0a ∨ wc = 0x0d) ↔ ([a] = [(0x0a : Byte)] ∨ [a] = [(0x0d : Byte)]) := by
      rw [hn]
      simp only [List.cons.injEq, and_true]
      constructor
      · rintro (h | h)
        · exact .inl (byte_eq h)
        · exact .inr (byte_eq h)
      · rintro (rfl | rfl)
        · exact .inl rfl
        · exact .inr rfl
    refine Does.g0 (u2 := if wc = 0x0a ∨ wc = 0x0d then 0 else s2) (b := [a]) h1 hk (by split <;> omega) he hb ?_ ?_
    · by_cases hw : wc = 0x0a ∨ wc = 0x0d
      · rw [if_pos hw, if_pos (hn'.1 hw)]
      · rw [if_neg hw, if_neg (fun h => hw (hn'.2 h))]
    · show some (List.map u8 _, _) = _
      rw [List.map_append, List.map_cons, List.map_nil, u8_of_toNat]
  · rw [h]
    exact hr.next hb

theorem does_two {s1 s2 s3 k count wc : Nat} {x : Set} {m : M MbRet} {w : Nat → W} {l : List Set} {rest : SW} {esc : List Nat}
    (h1 : s1 ≤ 6) (h2 : s2 ≤ 2) (hk : k ≤ 6) (hx : jp2Set k = x) (he : x.escape = some (.G0, esc.map u8)) (ht : Two x m)
    (ho : W.Two (w wc)) (hp : ∀ b, x.Chars b [wc] ↔ (w wc).res = some b) (hr : Does (jp2Regs s1 s2) s3 wc rest l) :
    Does (jp2Regs s1 s2) s3 wc (.try2 (w wc) (jp2Two s1 s2 s3 k esc count) rest) (x :: l) := by
  rcases try2_set ht ho hp (jp2Two s1 s2 s3 k esc count) rest with ⟨a, b, hb, h⟩ | ⟨hb, h⟩
  · rw [h]
    subst hx
    refine Does.g0 (u2 := s2) (b := [a, b]) h1 hk h2 he hb (by rw [if_neg (by simp)]) ?_
    show some (List.map u8 _, _) = _
    rw [List.map_append, map_u8_two]
  · rw [h]
    exact hr.next hb

theorem does_g2 {s1 s2 s3 k f wc : Nat} {x : Set} {w : W} {l : List Set} {rest : SW} (h1 : s1 ≤ 6) (h2 : s2 ≤ 2)
    (hk : k ≤ 2) (hx : jp2G2 k = some x) (he : x.escape = some (.G2, [0x1b, 0x2e, f].map u8)) (ho : W.One w)
    (hp : ∀ c : List Byte, x.Chars c [wc] ↔ ∃ a : Byte, w.res = some [a] ∧ a.toNat ≥ 0x80 ∧ c = [u8 (a.toNat % 128)])
    (hr : Does (jp2Regs s1 s2) s3 wc rest l) :
    Does (jp2Regs s1 s2) s3 wc (.try1 w (fun b => b ≥ 0x80) (Reiconv.jp2G2 s1 s2 s3 k f) rest) (x :: l) := by
  rcases try1_set (fun b => b ≥ 0x80) ho hp (Reiconv.jp2G2 s1 s2 s3 k f) rest with ⟨a, ha, hb, h⟩ | ⟨hb, h⟩
  · rw [h]
    have hl := a.toNat_lt
    refine Does.g2 h1 h2 hk hx he hb ?_
    show some (List.map u8 _, _) = _
    rw [List.map_append, show a.toNat % 128 = a.toNat - 0x80 by omega]
    rfl
  · rw [h]
    exact hr.next hb

theorem does_kana {s1 s2 s3 wc : Nat} {l : List Set} {rest : SW} (h1 : s1 ≤ 6) (h2 : s2 ≤ 2)
    (hr : Does (jp2Regs s1 s2) s3 wc rest l) :
    Does (jp2Regs s1 s2) s3 wc (.try1 (jisx0201_w wc) (fun b => b ≥ 0x80)
      (fun b => jp2One s1 s3 2 0x49 (b - 0x80) s2) rest) (.kana :: l) := by
  rcases try1_set (fun b => b ≥ 0x80) (jisx0201_w_one wc) kana_hp (fun b => jp2One s1 s3 2 0x49 (b - 0x80) s2) rest with
    ⟨a, ha, hb, h⟩ | ⟨hb, h⟩
  · rw [h]
    have hl := a.toNat_lt
    obtain ⟨x, x1, x2, e, _⟩ := (hb _).2 rfl
    have e : u8 (a.toNat % 128) = x := (List.cons.inj e).1
    refine Does.g0 (k := 2) (u2 := s2) (b := [u8 (a.toNat % 128)]) (esc := [0x1b, 0x28, 0x49]) h1 (by omega) h2 rfl hb ?_ ?_
    · rw [if_neg]
      rw [e]
      simp only [List.cons.injEq, and_true]
      rintro (rfl | rfl)
      · exact absurd x1 (by decide)
      · exact absurd x1 (by decide)
    · show some (List.map u8 _, _) = _
      rw [List.map_append, show a.toNat % 128 = a.toNat - 0x80 by omega]
      rfl
  · rw [h]
    exact hr.next hb

/-- The sets of the values in `conversion_lists`. -/
def codeSets (code : Nat) : List Set :=
  if code = 1 then [.latin1 0, .greek 0] else if code = 2 then [.roman, .jisx0208, .jisx0212]
  else if code = 3 then [.gb2312] else if code = 4 then [.ksc5601] else [.kana]

theorem does_try {s1 s2 s3 wc code : Nat} {l : List Set} {rest : SW} (h1 : s1 ≤ 6) (h2 : s2 ≤ 2) (hc : 1 ≤ code ∧ code ≤ 5)
    (hr : Does (jp2Regs s1 s2) s3 wc rest l) :
    Does (jp2Regs s1 s2) s3 wc (jp2_try s1 s2 s3 wc code rest) (codeSets code ++ l) := by
  have : code = 1 ∨ code = 2 ∨ code = 3 ∨ code = 4 ∨ code = 5 := by omega
  rcases this with rfl | rfl | rfl | rfl | rfl
  · exact does_g2 h1 h2 (by omega) rfl rfl (iso8859_1_w_one wc) latin1_hp
      (does_g2 h1 h2 (by omega) rfl rfl (iso8859_7_w_one wc) greek_hp hr)
  · refine does_one h1 h2 (by omega) rfl rfl (jisx0201_w_one wc) roman_hp ?_
      (does_two (w := jisx0208_wctomb) h1 h2 (by omega) rfl rfl jisx0208_two (jisx0208_w2 wc) (set_res jisx0208_table _ _ wc)
      (does_two (w := jisx0212_wctomb) h1 h2 (by omega) rfl rfl jisx0212_two (jisx0212_w2 wc) (set_res jisx0212_table _ _ wc) hr))
    rintro a ⟨x, hx, e, hv⟩
    cases e
    simp only [List.cons.injEq, and_true] at hv
    split at hv
    · omega
    · split at hv <;> omega
  · exact does_two (w := gb2312_wctomb) h1 h2 (by omega) rfl rfl gb2312_two (gb2312_w2 wc) (set_res gb2312_table _ _ wc) hr
  · exact does_two (w := ksc5601_wctomb) h1 h2 (by omega) rfl rfl ksc5601_two (ksc5601_w2 wc) (set_res ksc5601_table _ _ wc) hr
  · exact does_kana h1 h2 hr

/-- The language of the state `s3`. -/
def langOf (s3 : Nat) : Lang := if s3 = 1 then .ja else if s3 = 2 then .ko else if s3 = 3 then .zh else .none

theorem order_eq {s3 : Nat} (h : s3 ≤ 3) : (langOf s3).order = .ascii :: (jp2_order s3).flatMap codeSets := by
  have : s3 = 0 ∨ s3 = 1 ∨ s3 = 2 ∨ s3 = 3 := by omega
  rcases this with rfl | rfl | rfl | rfl <;> rfl

theorem does_char {s1 s2 s3 : Nat} (wc : Nat) (h1 : s1 ≤ 6) (h2 : s2 ≤ 2) (h3 : s3 ≤ 3) :
    Does (jp2Regs s1 s2) s3 wc (jp2_char s1 s2 s3 wc) (langOf s3).order := by
  rw [order_eq h3, jp2_char_eq h3]
  refine does_one h1 h2 (by omega) rfl rfl (ascii_wOne wc) ascii_hp ?_ ?_
  · rintro a ⟨x, hx, e, hv⟩
    cases e
    simp only [List.cons.injEq, and_true] at hv
    rw [hv]
  have hl : ∀ c ∈ jp2_order s3, 1 ≤ c ∧ c ≤ 5 := by
    unfold jp2_order
    split
    · simp
    · split <;> simp
  generalize jp2_order s3 = l at hl
  induction l with
  | nil => exact .nil
  | cons c l ih =>
    rw [List.flatMap_cons]
    exact does_try h1 h2 (hl c (List.mem_cons_self ..)) (ih fun x hx => hl x (List.mem_cons_of_mem _ hx))

/-! ### Texts -/

/-- The unfinished tag or the language of the state `s3`. -/
def tagOf (s3 : Nat) : Tagging :=
  if s3 = 4 then .tag [] else if s3 = 5 then .tag [0x6a] else if s3 = 6 then .tag [0x6b] else if s3 = 7 then .tag [0x7a]
  else .lang (langOf s3)

theorem tagOf_current {s3 : Nat} (h : s3 ≤ 7) : (tagOf s3).current = langOf (if s3 ≥ 4 then 0 else s3) ∧
    tagOf (if s3 ≥ 4 then 0 else s3) = .lang (tagOf s3).current := by
  have : s3 = 0 ∨ s3 = 1 ∨ s3 = 2 ∨ s3 = 3 ∨ s3 = 4 ∨ s3 = 5 ∨ s3 = 6 ∨ s3 = 7 := by omega
  rcases this with rfl | rfl | rfl | rfl | rfl | rfl | rfl | rfl <;> exact ⟨rfl, rfl⟩

theorem tag_chk : ((List.range 8).all fun s3 => (List.range 128).all fun c =>
    tagOf (jp2_tag s3 c) == (tagOf s3).next c) = true := by decide +kernel

theorem tag_next {s3 c : Nat} (h : s3 ≤ 7) (hc : c ≤ 0x7f) : tagOf (jp2_tag s3 (0xe0000 + c)) = (tagOf s3).next c := by
  have e : jp2_tag s3 (0xe0000 + c) = jp2_tag s3 c := by
    unfold jp2_tag
    rw [show (0xe0000 + c) % 128 = c % 128 by omega]
  rw [e]
  have h1 := List.all_eq_true.1 tag_chk s3 (List.mem_range.2 (by omega))
  exact eq_of_beq (List.all_eq_true.1 h1 c (List.mem_range.2 (by omega)))

theorem greek_fffd : ∀ p ∈ iso8859_7_from, p.2 ≠ 0xfffd := by decide +kernel

/-- U+FFFD is in none of the sets. -/
theorem no_fffd {s3 : Nat} (h : s3 ≤ 3) : ∀ x ∈ (langOf s3).order, ∀ b, ¬ x.Chars b [0xfffd] := by
  have e1 : (jisx0208_wctomb 0xfffd).res = none := by decide +kernel
  have e2 : (jisx0212_wctomb 0xfffd).res = none := by decide +kernel
  have e3 : (gb2312_wctomb 0xfffd).res = none := by decide +kernel
  have e4 : (ksc5601_wctomb 0xfffd).res = none := by decide +kernel
  have hl : ∀ b, ¬ (Set.latin1 0).Chars b [0xfffd] := by
    rintro b ⟨x, _, h, _, hv⟩; simp only [List.cons.injEq, and_true] at hv; omega
  have hg : ∀ b, ¬ (Set.greek 0).Chars b [0xfffd] := by
    rintro b ⟨x, wc, _, h, _, hm, hv⟩
    cases hv
    exact absurd rfl (greek_fffd _ hm)
  have ha : ∀ b, ¬ Set.ascii.Chars b [0xfffd] := by
    rintro b ⟨x, h, _, hv⟩; simp only [List.cons.injEq, and_true] at hv; omega
  have hr : ∀ b, ¬ Set.roman.Chars b [0xfffd] := by
    rintro b ⟨x, h, _, hv⟩
    simp only [List.cons.injEq, and_true] at hv
    split at hv
    · omega
    · split at hv <;> omega
  have hk : ∀ b, ¬ Set.kana.Chars b [0xfffd] := by
    rintro b ⟨x, h1, h2, _, hv⟩; simp only [List.cons.injEq, and_true] at hv; omega
  have h8 : ∀ b, ¬ Set.jisx0208.Chars b [0xfffd] := fun b hb => by
    have hb := (set_res jisx0208_table _ _ _ b).1 hb
    rw [e1] at hb; cases hb
  have h12 : ∀ b, ¬ Set.jisx0212.Chars b [0xfffd] := fun b hb => by
    have hb := (set_res jisx0212_table _ _ _ b).1 hb
    rw [e2] at hb; cases hb
  have h3 : ∀ b, ¬ Set.gb2312.Chars b [0xfffd] := fun b hb => by
    have hb := (set_res gb2312_table _ _ _ b).1 hb
    rw [e3] at hb; cases hb
  have h4 : ∀ b, ¬ Set.ksc5601.Chars b [0xfffd] := fun b hb => by
    have hb := (set_res ksc5601_table _ _ _ b).1 hb
    rw [e4] at hb; cases hb
  have : s3 = 0 ∨ s3 = 1 ∨ s3 = 2 ∨ s3 = 3 := by omega
  rcases this with rfl | rfl | rfl | rfl <;>
    simp only [langOf, Lang.order, Nat.reduceEqDiff, if_true, if_false, List.forall_mem_cons, List.not_mem_nil,
      false_implies, implies_true, and_true, ha, hr, hk, h8, h12, h3, h4, hl, hg, not_false_eq_true]

/-- The registers and the tagging of the state of the encoder. -/
def regsOf (os : Nat) : Regs := jp2Regs (os % 256) (os / 256 % 256)

theorem cnSt_parts {s1 s2 s3 : Nat} (h1 : s1 ≤ 6) (h2 : s2 ≤ 2) : cnSt s1 s2 s3 % 256 = s1 ∧ cnSt s1 s2 s3 / 256 % 256 = s2 ∧
    cnSt s1 s2 s3 / 65536 = s3 := by unfold cnSt; omega

theorem full_char {os wc : Nat} (h : jp2EI os) (ht : isTag wc = false) : iso2022_jp2_encoder.full os wc =
    (jp2_char (os % 256) (os / 256 % 256) (if os / 65536 ≥ 4 then 0 else os / 65536) wc).res := by
  rw [iso2022_jp2_enc.full_eq h]
  show (iso2022_jp2_wctomb os wc).res = _
  unfold iso2022_jp2_wctomb
  dsimp only
  rw [if_neg]
  intro hx
  rw [(isTag_iff wc).1 hx] at ht
  cases ht

theorem first_mem {wc : Nat} {l : List Set} {x : Set} (h : First wc l x) : ∃ y ∈ l, ∃ b, y.Chars b [wc] := by
  induction h with
  | here h => exact ⟨_, List.mem_cons_self .., _, h⟩
  | next _ _ ih => obtain ⟨y, hy, h⟩ := ih; exact ⟨y, List.mem_cons_of_mem _ hy, h⟩

theorem write_iff {discard : Bool} {os wc : Nat} (hI : jp2EI os) {o : List Byte} {i : Nat} {g' : Regs} {t' : Tagging} :
    Write discard (regsOf os) (tagOf (os / 65536)) wc o i g' t' ↔
      ∃ os', encChar iso2022_jp2_encoder discard os wc = some (o, os', i) ∧ jp2EI os' ∧
        g' = regsOf os' ∧ t' = tagOf (os' / 65536) := by
  obtain ⟨i1, i2, i3⟩ := hI
  by_cases ht : isTag wc = true
  · obtain ⟨c, hc, rfl⟩ : ∃ c, c ≤ 0x7f ∧ wc = 0xe0000 + c := by
      unfold isTag at ht
      have := of_decide_eq_true ht
      exact ⟨wc - 0xe0000, by omega, by omega⟩
    have hf : iso2022_jp2_encoder.full os (0xe0000 + c) =
        some ([], cnSt (os % 256) (os / 256 % 256) (jp2_tag (os / 65536) (0xe0000 + c))) := by
      rw [iso2022_jp2_enc.full_eq ⟨i1, i2, i3⟩]
      show (iso2022_jp2_wctomb os _).res = _
      unfold iso2022_jp2_wctomb
      dsimp only
      rw [if_pos (by omega)]
      rfl
    obtain ⟨p1, p2, p3⟩ := cnSt_parts (s3 := jp2_tag (os / 65536) (0xe0000 + c)) i1 i2
    have hj : jp2_tag (os / 65536) (0xe0000 + c) ≤ 7 := by
      unfold jp2_tag
      dsimp only
      repeat' split
      all_goals omega
    have he : encChar iso2022_jp2_encoder discard os (0xe0000 + c) =
        some ([], cnSt (os % 256) (os / 256 % 256) (jp2_tag (os / 65536) (0xe0000 + c)), 0) := by
      unfold encChar; rw [hf]
    have hw : ∀ {o i g' t'}, Write discard (regsOf os) (tagOf (os / 65536)) (0xe0000 + c) o i g' t' ↔
        o = [] ∧ i = 0 ∧ g' = regsOf os ∧ t' = (tagOf (os / 65536)).next c := by
      intro o i g' t'
      constructor
      · intro h
        generalize hv : 0xe0000 + c = v at h
        cases h with
        | @tag c' hc' =>
          have : c = c' := by omega
          subst this
          exact ⟨rfl, rfl, rfl, rfl⟩
        | char h _ _ => rw [← hv, ht] at h; cases h
        | drop h _ _ => rw [← hv, ht] at h; cases h
      · rintro ⟨rfl, rfl, rfl, rfl⟩
        exact .tag hc
    rw [hw, he]
    constructor
    · rintro ⟨rfl, rfl, rfl, rfl⟩
      refine ⟨_, rfl, jp2EI_st i1 i2 hj, ?_, ?_⟩
      · unfold regsOf; rw [p1, p2]
      · rw [p3, tag_next i3 hc]
    · rintro ⟨os', h, _, rfl, rfl⟩
      simp only [Option.some.injEq, Prod.mk.injEq] at h
      obtain ⟨rfl, rfl, rfl⟩ := h
      refine ⟨rfl, rfl, ?_, ?_⟩
      · unfold regsOf; rw [p1, p2]
      · rw [p3, tag_next i3 hc]
  have ht : isTag wc = false := by simpa using ht
  obtain ⟨c1, c2⟩ := tagOf_current i3
  have hlt : (if os / 65536 ≥ 4 then 0 else os / 65536) ≤ 3 := by split <;> omega
  have hd := does_char wc i1 i2 hlt
  have hf := full_char ⟨i1, i2, i3⟩ ht
  rw [← c1] at hd
  rcases hd with ⟨out, u1, u2, h1, h2, h3, h4⟩ | ⟨h1, h2⟩
  · rw [h1] at hf
    have he : encChar iso2022_jp2_encoder discard os wc =
        some (out, cnSt u1 u2 (if os / 65536 ≥ 4 then 0 else os / 65536), 0) := by unfold encChar; rw [hf]
    obtain ⟨p1, p2, p3⟩ := cnSt_parts (s3 := if os / 65536 ≥ 4 then 0 else os / 65536) h2 h3
    have hex := (h4 out (jp2Regs u1 u2)).2 ⟨rfl, rfl⟩
    rw [he]
    constructor
    · intro h
      cases h with
      | tag hc => rw [(isTag_iff _).1 (by omega)] at ht; cases ht
      | char _ hx hp =>
        obtain ⟨rfl, rfl⟩ := (h4 _ _).1 ⟨_, hx, hp⟩
        refine ⟨_, rfl, jp2EI_st h2 h3 (by omega), ?_, ?_⟩
        · unfold regsOf; rw [p1, p2]
        · rw [p3, c2]
      | drop _ _ hn =>
        obtain ⟨x, hx, _⟩ := hex
        obtain ⟨y, hy, b, hb⟩ := first_mem hx
        exact absurd hb (hn y hy b)
    · rintro ⟨os', h, _, rfl, rfl⟩
      simp only [Option.some.injEq, Prod.mk.injEq] at h
      obtain ⟨rfl, rfl, rfl⟩ := h
      obtain ⟨x, hx, hp⟩ := hex
      rw [p3, c2]
      refine .char ht hx ?_
      unfold regsOf; rw [p1, p2]
      exact hp
  · rw [h1] at hf
    have hff : iso2022_jp2_encoder.full os 0xfffd = none := by
      rw [full_char ⟨i1, i2, i3⟩ (by decide)]
      rcases does_char 0xfffd i1 i2 hlt with ⟨out, u1, u2, _, _, _, g4⟩ | ⟨g1, _⟩
      · obtain ⟨x, hx, _⟩ := (g4 out (jp2Regs u1 u2)).2 ⟨rfl, rfl⟩
        obtain ⟨y, hy, b, hb⟩ := first_mem hx
        exact absurd hb (no_fffd hlt y hy b)
      · exact g1
    have he : encChar iso2022_jp2_encoder discard os wc = if discard then some ([], os, 1) else none := by
      unfold encChar; rw [hf, hff]; simp [ht]
    rw [he]
    constructor
    · intro h
      cases h with
      | tag hc => rw [(isTag_iff _).1 (by omega)] at ht; cases ht
      | char _ hx _ =>
        obtain ⟨y, hy, b, hb⟩ := first_mem hx
        exact absurd hb (h2 y hy b)
      | drop _ hD _ => exact ⟨os, by rw [hD]; rfl, ⟨i1, i2, i3⟩, rfl, rfl⟩
    · rintro ⟨os', h, _, rfl, rfl⟩
      cases discard with
      | false => cases h
      | true =>
        simp only [if_true, Option.some.injEq, Prod.mk.injEq] at h
        obtain ⟨rfl, rfl, rfl⟩ := h
        exact .drop ht rfl h2

theorem encChar_inv {discard : Bool} {os c os1 i : Nat} {bs : List Byte} (hI : jp2EI os)
    (e1 : encChar iso2022_jp2_encoder discard os c = some (bs, os1, i)) : jp2EI os1 := by
  unfold encChar at e1
  cases hf : iso2022_jp2_encoder.full os c with
  | some y =>
    rw [hf] at e1
    obtain ⟨b, s⟩ := y
    cases e1
    rw [iso2022_jp2_enc.full_eq hI] at hf
    exact (iso2022_jp2_enc.len os c _ _ hI hf).1
  | none =>
    rw [hf] at e1
    dsimp only at e1
    split at e1
    · cases e1; exact hI
    · split at e1
      · cases e1; exact hI
      · split at e1
        · rename_i hff
          cases e1
          rw [iso2022_jp2_enc.full_eq hI] at hff
          exact (iso2022_jp2_enc.len os _ _ _ hI hff).1
        · cases e1

theorem writeAll_inv {discard : Bool} : ∀ (cs : List Nat) {os os1 i : Nat} {bs : List Byte}, jp2EI os →
    Reiconv.writeAll (encChar iso2022_jp2_encoder discard) os cs = some (bs, os1, i) → jp2EI os1 := by
  intro cs
  induction cs with
  | nil => intro os os1 i bs hI h; cases h; exact hI
  | cons c cs ih =>
    intro os os1 i bs hI h
    simp only [Reiconv.writeAll] at h
    cases e1 : encChar iso2022_jp2_encoder discard os c with
    | none => rw [e1] at h; cases h
    | some x =>
      obtain ⟨bs, os2, i1⟩ := x
      rw [e1] at h
      simp only at h
      cases e2 : Reiconv.writeAll (encChar iso2022_jp2_encoder discard) os2 cs with
      | none => rw [e2] at h; cases h
      | some y =>
        obtain ⟨r, os3, j⟩ := y
        rw [e2] at h
        cases h
        exact ih (encChar_inv hI e1) e2

theorem writeAll_iff {discard : Bool} : ∀ (cs : List Nat) {os : Nat} (_ : jp2EI os) {o : List Byte} {i : Nat} {g' : Regs}
    {t' : Tagging}, WriteAll discard (regsOf os) (tagOf (os / 65536)) cs o i g' t' ↔
      ∃ os', Reiconv.writeAll (encChar iso2022_jp2_encoder discard) os cs = some (o, os', i) ∧ jp2EI os' ∧
        g' = regsOf os' ∧ t' = tagOf (os' / 65536) := by
  intro cs
  induction cs with
  | nil =>
    intro os hI o i g' t'
    constructor
    · intro h; cases h; exact ⟨os, rfl, hI, rfl, rfl⟩
    · rintro ⟨os', h, _, rfl, rfl⟩
      cases h
      exact .nil
  | cons c cs ih =>
    intro os hI o i g' t'
    constructor
    · intro h
      cases h with
      | cons h1 h2 =>
        obtain ⟨os1, e1, hI1, rfl, rfl⟩ := (write_iff hI).1 h1
        obtain ⟨os2, e2, hI2, rfl, rfl⟩ := (ih hI1).1 h2
        refine ⟨os2, ?_, hI2, rfl, rfl⟩
        simp only [Reiconv.writeAll, e1, e2]
    · rintro ⟨os', h, hI', rfl, rfl⟩
      simp only [Reiconv.writeAll] at h
      cases e1 : encChar iso2022_jp2_encoder discard os c with
      | none => rw [e1] at h; cases h
      | some x =>
        obtain ⟨bs, os1, i1⟩ := x
        rw [e1] at h
        simp only at h
        have hI1 : jp2EI os1 := encChar_inv hI e1
        cases e2 : Reiconv.writeAll (encChar iso2022_jp2_encoder discard) os1 cs with
        | none => rw [e2] at h; cases h
        | some y =>
          obtain ⟨r, os2, j⟩ := y
          rw [e2] at h
          simp only [Option.some.injEq, Prod.mk.injEq] at h
          obtain ⟨rfl, rfl, rfl⟩ := h
          exact .cons ((write_iff hI).2 ⟨os1, e1, hI1, rfl, rfl⟩) ((ih hI1).2 ⟨os2, e2, hI', rfl, rfl⟩)

theorem tail_eq {os : Nat} : iso2022_jp2_encoder.tail os = if (os % 256) ≠ 0 then [0x1b, 0x28, 0x42] else [] := by
  have : iso2022_jp2_encoder.tail os = (iso2022_jp2_reset os).map u8 := by
    show (match (if 64 < (iso2022_jp2_reset os).length then Outcome.ok (WcRes.small os) else .ok (.put ((iso2022_jp2_reset os).map u8) os)) with
      | .ok r => r.ws
      | _ => []) = _
    rw [if_neg (by unfold iso2022_jp2_reset; split <;> simp)]
    rfl
  rw [this]
  unfold iso2022_jp2_reset
  split <;> rfl

theorem jp2Text_iff {discard : Bool} {cs : List Nat} {out : List Byte} {irr : Nat} : Jp2Text discard cs out irr ↔
    ∃ bs os, Reiconv.writeAll (encChar iso2022_jp2_encoder discard) 0 cs = some (bs, os, irr) ∧
      out = bs ++ iso2022_jp2_encoder.tail os := by
  have h0 : jp2EI 0 := by unfold jp2EI; omega
  have key := fun {o i g' t'} => writeAll_iff (discard := discard) cs h0 (o := o) (i := i) (g' := g') (t' := t')
  have hg : ∀ {os}, jp2EI os → ((regsOf os).g0 = .ascii ↔ os % 256 = 0) := fun h => jp2Set_inj h.1 (b := 0) (by omega)
  constructor
  · rintro ⟨o, g, t, h1, h2⟩
    obtain ⟨os, e, hI, rfl, rfl⟩ := key.1 h1
    refine ⟨o, os, e, ?_⟩
    rw [tail_eq]
    simp only [ne_eq, hg hI] at h2
    rcases h2 with ⟨h, rfl⟩ | ⟨h, rfl⟩
    · rw [if_neg (by simpa using h), List.append_nil]
    · rw [if_pos h]
  · rintro ⟨bs, os, e, rfl⟩
    have hI : jp2EI os := writeAll_inv cs h0 e
    refine ⟨bs, _, _, key.2 ⟨os, e, hI, rfl, rfl⟩, ?_⟩
    rw [tail_eq]
    simp only [ne_eq, hg hI]
    by_cases h : os % 256 = 0
    · rw [if_neg (by simpa using h), List.append_nil]; exact .inl ⟨h, rfl⟩
    · rw [if_pos h]; exact .inr ⟨h, rfl⟩

end Reiconv.Iso

namespace Reiconv

open Iso

/-! ## The property -/

/-- C60: the conversion of a text to ISO-2022-JP-2 is what the specification says, for every source encoding, with and
without the discard flag. -/
theorem C60_writes (A : Entry) (discard : Bool) (inp : List Byte) (cs : List Nat) (h : A.Text inp cs) (out : List Byte)
    (irr : Nat) : Whole A.atom (A.conv iso2022_jp2_entry discard) St.init inp out irr ↔ Jp2Text discard cs out irr :=
  (whole_iff_write h out irr).trans jp2Text_iff.symm

/-- C60 at the API: if the specification gives bytes for the text then `reiconv_result_size` returns their number, and
`reiconv_convert_static_size` writes exactly these bytes into a buffer that has 64 bytes more. If it gives none, both
fail with `EILSEQ`. -/
theorem C60_api (A : Entry) (discard : Bool) (inp : List Byte) (cs : List Nat) (h : A.Text inp cs) :
    (∀ out irr, Jp2Text discard cs out irr →
      (∃ s, resultSize (A.conv iso2022_jp2_entry discard) St.init inp = .ok (.ok out.length, s)) ∧
      ∀ room : List Byte, out.length + 64 ≤ room.length → ∃ s b,
        convertStatic (A.conv iso2022_jp2_entry discard) St.init inp ⟨false, [], room⟩ = .ok (.ok (), s, b) ∧ b.out = out) ∧
    ((¬ ∃ out irr, Jp2Text discard cs out irr) →
      ∃ s, resultSize (A.conv iso2022_jp2_entry discard) St.init inp = .ok (.error .EILSEQ, s)) := by
  obtain ⟨sz, s1, h1, _, _, h2⟩ := size_whole A iso2022_jp2_entry discard inp
  constructor
  · intro out irr hj
    have hw := (C60_writes A discard inp cs h out irr).2 hj
    constructor
    · rcases h2 with ⟨n, o, i, rfl, hw', rfl, _⟩ | ⟨_, hno⟩
      · obtain ⟨rfl, _⟩ := whole_det hw hw'
        exact ⟨s1, h1⟩
      · exact absurd hw (hno _ _)
    · intro room hroom
      obtain ⟨ret, s2, b, hx, hl, h5⟩ := static_whole A iso2022_jp2_entry discard St.init A.decOK.inv_init
        iso2022_jp2_entry.encOK.inv_init inp room hw (.inl (by omega))
      rcases h5 with ⟨rfl, h5, _⟩ | ⟨_, h5, ⟨rest, h6⟩, _⟩
      · exact ⟨s2, b, hx, h5⟩
      · rw [h6, List.length_append] at hroom
        omega
  · intro hno
    rcases h2 with ⟨n, o, i, rfl, hw', _⟩ | ⟨rfl, _⟩
    · exact absurd ⟨_, _, (C60_writes A discard inp cs h _ _).1 hw'⟩ hno
    · exact ⟨s1, h1⟩

/-- The specification gives at most one result. -/
theorem C60_unique {discard : Bool} {cs : List Nat} {o o' : List Byte} {i i' : Nat} (h : Jp2Text discard cs o i)
    (h' : Jp2Text discard cs o' i') : o = o' ∧ i = i' := by
  obtain ⟨b, s, e, rfl⟩ := jp2Text_iff.1 h
  obtain ⟨b', s', e', rfl⟩ := jp2Text_iff.1 h'
  rw [e] at e'
  cases e'
  exact ⟨rfl, rfl⟩

/-- U+4E00 is in JIS X 0208, GB 2312 and KS C 5601. Without a tag it is written in the first one, after the tags `ko`
and `zh` in the other ones. A tag `fko` has no effect, nor has an unfinished one. The cancel tag ends the language. -/
example : Jp2Text false [0x4e00] [0x1b, 0x24, 0x42, 0x30, 0x6c, 0x1b, 0x28, 0x42] 0 ∧
    Jp2Text false [0xe0001, 0xe006b, 0xe004f, 0x4e00] [0x1b, 0x24, 0x28, 0x43, 0x6c, 0x69, 0x1b, 0x28, 0x42] 0 ∧
    Jp2Text false [0xe0001, 0xe007a, 0xe0068, 0x4e00, 0xe007f, 0x4e00]
      [0x1b, 0x24, 0x41, 0x52, 0x3b, 0x1b, 0x24, 0x42, 0x30, 0x6c, 0x1b, 0x28, 0x42] 0 ∧
    Jp2Text false [0xe0001, 0xe0066, 0xe006b, 0xe006f, 0x4e00] [0x1b, 0x24, 0x42, 0x30, 0x6c, 0x1b, 0x28, 0x42] 0 ∧
    Jp2Text false [0xe0001, 0xe006b, 0x41, 0xe006f, 0x4e00] [0x41, 0x1b, 0x24, 0x42, 0x30, 0x6c, 0x1b, 0x28, 0x42] 0 := by
  refine ⟨jp2Text_iff.2 ⟨_, _, by rfl, by decide +kernel⟩, jp2Text_iff.2 ⟨_, _, by rfl, by decide +kernel⟩,
    jp2Text_iff.2 ⟨_, _, by rfl, by decide +kernel⟩, jp2Text_iff.2 ⟨_, _, by rfl, by decide +kernel⟩,
    jp2Text_iff.2 ⟨_, _, by rfl, by decide +kernel⟩⟩

end Reiconv
