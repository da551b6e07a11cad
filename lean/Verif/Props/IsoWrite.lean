import Verif.Props.Tags
import Verif.Props.Rev

/-!
# C62: what is written in HZ, ISO-2022-JP, ISO-2022-JP-1, ISO-2022-KR, ISO-2022-CN and ISO-2022-CN-EXT

ISO 2022 leaves a writer many choices: which of the sets that have a character is used, when a set is designated, when
SO and SI are written. The specification says which ones are taken, in terms of the character sets and registers of
`Verif.Iso2022`.
-/

namespace Reiconv.IsoW

open Iso

/-! ## Specification -/

deriving instance DecidableEq for Iso.Set

/-- What a writer of an encoding chooses: the order in which the character sets are tried, the register and the
designation of each of them, and whether the designations to G1, G2, G3 are forgotten at the end of a line. -/
structure Writer where
  order : List Set
  place : Set → Option (Reg × List Byte)
  forget : Bool

/-- The set has the character, with these bytes. ISO-IR-165 has some characters twice; the bytes that the published
list of irreversible pairs names are not written. -/
def Has (x : Set) (b : List Byte) (wc : Nat) : Prop :=
  x.Chars b [wc] ∧ (x = .isoir165 → (b, wc) ∉ isoir165_mbrow.irr)

/-- `x` is the first of the sets that has the character, and `b` its bytes. -/
inductive First (wc : Nat) : List Set → Set → List Byte → Prop
  | here {x l b} : Has x b wc → First wc (x :: l) x b
  | next {y l x b} : (∀ c, ¬ Has y c wc) → First wc l x b → First wc (y :: l) x b

/-- None of the sets has the character. -/
def Missing (wc : Nat) (l : List Set) : Prop := ∀ x ∈ l, ∀ b, ¬ Has x b wc

/-- The registers after a character in G0. -/
def Writer.after (W : Writer) (g : Regs) (b : List Byte) : Regs :=
  if W.forget = true ∧ (b = [0x0a] ∨ b = [0x0d]) then { g with g1 := none, g2 := none, g3 := none } else g

/-- The bytes `b` of a character of the set `x` are written: the designation if the set is not in its register, SI
or SO if the other one of G0 and G1 is in use, `ESC N` and `ESC O` before each character of a set in G2 and G3. -/
def Writer.put (W : Writer) (g : Regs) (x : Set) (b : List Byte) : Option (List Byte × Regs) :=
  match W.place x with
  | some (.G0, e) => some ((if g.so then [0x0f] else []) ++ (if g.g0 = x then [] else e) ++ b,
      W.after { g with g0 := x, so := false } b)
  | some (.G1, e) => some ((if g.g1 = some x then [] else e) ++ (if g.so then [] else [0x0e]) ++ b,
      { g with g1 := some x, so := true })
  | some (.G2, e) => some ((if g.g2 = some x then [] else e) ++ 0x1b :: 0x4e :: b, { g with g2 := some x })
  | some (.G3, e) => some ((if g.g3 = some x then [] else e) ++ 0x1b :: 0x4f :: b, { g with g3 := some x })
  | none => none

/-- What is written for one character: it is written in the first set that has it. A character that no set has is
left out if it is a tag character, and left out and counted if `discard` is set. -/
inductive Write (W : Writer) (discard : Bool) : Regs → Nat → List Byte → Nat → Regs → Prop
  | char {g wc x b out g'} : First wc W.order x b → W.put g x b = some (out, g') → Write W discard g wc out 0 g'
  | tag {g wc} : Missing wc W.order → isTag wc = true → Write W discard g wc [] 0 g
  | drop {g wc} : Missing wc W.order → isTag wc = false → discard = true → Write W discard g wc [] 1 g

/-- What is written for the characters of a text. -/
inductive WriteAll (W : Writer) (discard : Bool) : Regs → List Nat → List Byte → Nat → Regs → Prop
  | nil {g} : WriteAll W discard g [] [] 0 g
  | cons {g wc o i g1 cs out n g2} : Write W discard g wc o i g1 → WriteAll W discard g1 cs out n g2 →
      WriteAll W discard g (wc :: cs) (o ++ out) (i + n) g2

/-- A whole text. It ends with SI if G1 is in use, and in ASCII. -/
def Writer.Text (W : Writer) (discard : Bool) (cs : List Nat) (out : List Byte) (irr : Nat) : Prop :=
  ∃ o g e, WriteAll W discard .init cs o irr g ∧ W.place .ascii = some (.G0, e) ∧
    out = o ++ (if g.so then [0x0f] else []) ++ (if g.g0 = .ascii then [] else e)

/-- HZ: `~{` and `~}` are the designations. -/
def hzW : Writer where
  order := [.ascii, .gb2312]
  place := fun
    | .ascii => some (.G0, [0x7e, 0x7d])
    | .gb2312 => some (.G0, [0x7e, 0x7b])
    | _ => none
  forget := false

def jpW : Writer where
  order := [.ascii, .roman, .jisx0208]
  place := Set.escape
  forget := false

def jp1W : Writer where
  order := [.ascii, .roman, .jisx0208, .jisx0212]
  place := Set.escape
  forget := false

def krW : Writer where
  order := [.ascii, .ksc5601]
  place := fun
    | .ascii => some (.G0, [0x1b, 0x28, 0x42])
    | .ksc5601 => some (.G1, [0x1b, 0x24, 0x29, 0x43])
    | _ => none
  forget := true

/-- The registers and designations of the sets of ISO-2022-CN and ISO-2022-CN-EXT. -/
def cnPlace : Set → Option (Reg × List Byte)
  | .ascii => some (.G0, [0x1b, 0x28, 0x42])
  | .gb2312 => some (.G1, [0x1b, 0x24, 0x29, 0x41])
  | .cns 1 => some (.G1, [0x1b, 0x24, 0x29, 0x47])
  | .isoir165 => some (.G1, [0x1b, 0x24, 0x29, 0x45])
  | .cns 2 => some (.G2, [0x1b, 0x24, 0x2a, 0x48])
  | .cns 3 => some (.G3, [0x1b, 0x24, 0x2b, 0x49])
  | .cns 4 => some (.G3, [0x1b, 0x24, 0x2b, 0x4a])
  | .cns 5 => some (.G3, [0x1b, 0x24, 0x2b, 0x4b])
  | .cns 6 => some (.G3, [0x1b, 0x24, 0x2b, 0x4c])
  | .cns 7 => some (.G3, [0x1b, 0x24, 0x2b, 0x4d])
  | _ => none

def cnW : Writer where
  order := [.ascii, .gb2312, .cns 1, .cns 2]
  place := cnPlace
  forget := true

def cnExtW : Writer where
  order := [.ascii, .gb2312, .cns 1, .cns 2, .cns 3, .cns 4, .cns 5, .cns 6, .cns 7, .isoir165]
  place := cnPlace
  forget := true

/-! ## Proofs -/

theorem first_missing {wc : Nat} {l : List Set} {x : Set} {b : List Byte} (h : First wc l x b) : ¬ Missing wc l := by
  induction h with
  | here h => exact fun hm => hm _ (List.mem_cons_self ..) _ h
  | next _ _ ih => exact fun hm => ih fun y hy => hm y (List.mem_cons_of_mem _ hy)

/-- The program writes what the specification says for the first set of the list that has the character. -/
def Does (V : Writer) (rep : Nat → Regs) (I : Nat → Prop) (st wc : Nat) (w : SW) (l : List Set) : Prop :=
  (∃ out st', w.res = some (out, st') ∧ I st' ∧
    ∀ out' g', (∃ x b, First wc l x b ∧ V.put (rep st) x b = some (out', g')) ↔ out' = out ∧ g' = rep st') ∨
  (w.res = none ∧ Missing wc l)

section
variable {V : Writer} {rep : Nat → Regs} {I : Nat → Prop} {st wc : Nat}

theorem Does.nil : Does V rep I st wc .iluni [] := .inr ⟨rfl, fun _ h => (nomatch h)⟩

theorem Does.next {w : SW} {l : List Set} {x : Set} (hx : ∀ b, ¬ Has x b wc) (h : Does V rep I st wc w l) :
    Does V rep I st wc w (x :: l) := by
  rcases h with ⟨out, st', h1, h2, h4⟩ | ⟨h1, h2⟩
  · refine .inl ⟨out, st', h1, h2, fun out' g' => ?_⟩
    rw [← h4]
    constructor
    · rintro ⟨y, b, hf, hp⟩
      cases hf with
      | here h => exact absurd h (hx _)
      | next _ h => exact ⟨y, b, h, hp⟩
    · rintro ⟨y, b, hf, hp⟩
      exact ⟨y, b, .next hx hf, hp⟩
  · refine .inr ⟨h1, fun y hy => ?_⟩
    rcases List.mem_cons.1 hy with rfl | hy
    · exact hx
    · exact h2 y hy

theorem Does.here {w : SW} {l : List Set} {x : Set} {b out : List Byte} {st' : Nat} (hx : ∀ c, Has x c wc ↔ c = b)
    (hw : w.res = some (out, st')) (hI : I st') (hp : V.put (rep st) x b = some (out, rep st')) :
    Does V rep I st wc w (x :: l) := by
  refine .inl ⟨out, st', hw, hI, fun out' g' => ?_⟩
  constructor
  · rintro ⟨y, c, hf, hq⟩
    cases hf with
    | here h =>
      obtain rfl := (hx _).1 h
      rw [hp] at hq
      cases hq
      exact ⟨rfl, rfl⟩
    | next h _ => exact absurd ((hx b).2 rfl) (h b)
  · rintro ⟨rfl, rfl⟩
    exact ⟨x, b, .here ((hx b).2 rfl), hp⟩

theorem has_iff {x : Set} (h : x ≠ .isoir165) {b : List Byte} : Has x b wc ↔ x.Chars b [wc] :=
  ⟨fun h => h.1, fun h' => ⟨h', fun e => absurd e h⟩⟩

/-- `try1` for a set of one byte. -/
theorem Does.one {x : Set} {w : W} {found : Nat → SW} {rest : SW} {l : List Set} (hx : x ≠ .isoir165) (h1 : W.One w)
    (hp : ∀ c : List Byte, x.Chars c [wc] ↔ ∃ a : Byte, w.res = some [a] ∧ a.toNat < 0x80 ∧ c = [u8 (a.toNat % 128)])
    (hf : ∀ a : Byte, a.toNat < 0x80 → x.Chars [a] [wc] → ∃ out st', (found a.toNat).res = some (out, st') ∧ I st' ∧
      V.put (rep st) x [a] = some (out, rep st'))
    (hr : Does V rep I st wc rest l) :
    Does V rep I st wc (.try1 w (fun b => b < 0x80) found rest) (x :: l) := by
  rcases try1_set (fun b => b < 0x80) h1 hp found rest with ⟨a, ha, hb, h⟩ | ⟨hb, h⟩
  · rw [h]
    have e : u8 (a.toNat % 128) = a := by rw [Nat.mod_eq_of_lt (by omega), u8_of_toNat]
    rw [e] at hb
    obtain ⟨out, st', g1, g2, g3⟩ := hf a ha ((hb _).2 rfl)
    exact .here (fun c => (has_iff hx).trans (hb c)) g1 g2 g3
  · rw [h]
    exact hr.next fun b hb' => hb b hb'.1

/-- `try2` for a set of two bytes. -/
theorem Does.two {x : Set} {m : M MbRet} {w : Nat → W} {found : Nat → Nat → SW} {rest : SW} {l : List Set}
    (hx : Two x m) (h2 : W.Two (w wc)) (hr : ∀ b, Has x b wc ↔ (w wc).res = some b)
    (hf : ∀ a b : Byte, ∃ out st', (found a.toNat b.toNat).res = some (out, st') ∧ I st' ∧
      V.put (rep st) x [a, b] = some (out, rep st'))
    (hrest : Does V rep I st wc rest l) :
    Does V rep I st wc (.try2 (w wc) found rest) (x :: l) := by
  rcases h2 with h | ⟨a, b, h⟩
  · have e : SW.try2 (w wc) found rest = rest := by unfold SW.try2 SW.on; rw [h]; rfl
    rw [e]
    refine hrest.next fun b hb => ?_
    rw [hr, (wres_run _ _ _ h).2 rfl] at hb
    cases hb
  · have e := (wres_run _ _ _ h).1 _ rfl
    have hc := (hr [a, b]).2 e
    have e2 : SW.try2 (w wc) found rest = found a.toNat b.toNat := by
      obtain ⟨p, q, c, e1, e2, e3⟩ := (hx.chars _ _).1 hc.1
      cases e1; cases e2
      obtain ⟨l1, l2⟩ := hx.low _ _ _ e3
      have := l1.2
      have := l2.2
      unfold SW.try2 SW.on
      rw [h]
      show (if a.toNat < 0x80 ∧ b.toNat < 0x80 then found a.toNat b.toNat else rest) = _
      rw [if_pos ⟨by omega, by omega⟩]
    rw [e2]
    obtain ⟨out, st', g1, g2, g3⟩ := hf a b
    exact .here (fun c => (hr c).trans ⟨fun h => Option.some.inj (h.symm.trans e), fun h => by rw [h, e]⟩) g1 g2 g3

end

/-! ### Texts -/

/-- The encoder writes what the writer says. -/
structure Wrote (V : Writer) (E : Encoder) (rep : Nat → Regs) (I : Nat → Prop) : Prop where
  init : I 0
  rep_init : rep 0 = .init
  full : ∀ st wc, I st → (∃ out st', E.full st wc = some (out, st') ∧ I st' ∧
    ∀ out' g', (∃ x b, First wc V.order x b ∧ V.put (rep st) x b = some (out', g')) ↔ out' = out ∧ g' = rep st') ∨
    (E.full st wc = none ∧ Missing wc V.order)
  fffd : Missing 0xfffd V.order
  tail : ∃ e, V.place .ascii = some (.G0, e) ∧ ∀ st, I st →
    E.tail st = (if (rep st).so then [0x0f] else []) ++ (if (rep st).g0 = .ascii then [] else e)

section
variable {V : Writer} {E : Encoder} {rep : Nat → Regs} {I : Nat → Prop} (h : Wrote V E rep I)
include h

theorem Wrote.write_iff {discard : Bool} {st wc : Nat} (hI : I st) {o : List Byte} {i : Nat} {g' : Regs} :
    Write V discard (rep st) wc o i g' ↔ ∃ st', encChar E discard st wc = some (o, st', i) ∧ I st' ∧ g' = rep st' := by
  rcases h.full st wc hI with ⟨out, st', h1, h2, h3⟩ | ⟨h1, h2⟩
  · have he : encChar E discard st wc = some (out, st', 0) := by unfold encChar; rw [h1]
    have hex : ¬ Missing wc V.order := by
      obtain ⟨x, b, hf, _⟩ := (h3 out _).2 ⟨rfl, rfl⟩
      exact first_missing hf
    rw [he]
    constructor
    · intro hw
      cases hw with
      | char hf hp =>
        obtain ⟨rfl, rfl⟩ := (h3 _ _).1 ⟨_, _, hf, hp⟩
        exact ⟨_, rfl, h2, rfl⟩
      | tag hm => exact absurd hm hex
      | drop hm => exact absurd hm hex
    · rintro ⟨s, hs, _, rfl⟩
      cases hs
      obtain ⟨x, b, hf, hp⟩ := (h3 _ _).2 ⟨rfl, rfl⟩
      exact .char hf hp
  · have hff : E.full st 0xfffd = none := by
      rcases h.full st 0xfffd hI with ⟨out, st', _, _, g3⟩ | ⟨g1, _⟩
      · obtain ⟨x, b, hf, _⟩ := (g3 out _).2 ⟨rfl, rfl⟩
        exact absurd h.fffd (first_missing hf)
      · exact g1
    have he : encChar E discard st wc = if isTag wc then some ([], st, 0) else if discard then some ([], st, 1) else none := by
      unfold encChar; rw [h1, hff]
    rw [he]
    constructor
    · intro hw
      cases hw with
      | char hf _ => exact absurd h2 (first_missing hf)
      | tag _ ht => exact ⟨st, by rw [if_pos ht], hI, rfl⟩
      | drop _ ht hd => exact ⟨st, by rw [if_neg (by simp [ht]), if_pos hd], hI, rfl⟩
    · rintro ⟨s, hs, _, rfl⟩
      by_cases ht : isTag wc = true
      · rw [if_pos ht] at hs
        cases hs
        exact .tag h2 ht
      · rw [if_neg ht] at hs
        by_cases hd : discard = true
        · rw [if_pos hd] at hs
          cases hs
          exact .drop h2 (by simpa using ht) hd
        · rw [if_neg hd] at hs
          cases hs

theorem Wrote.inv1 {discard : Bool} {st wc st1 i : Nat} {bs : List Byte} (hI : I st)
    (e1 : encChar E discard st wc = some (bs, st1, i)) : I st1 := by
  unfold encChar at e1
  rcases h.full st wc hI with ⟨out, s', f1, f2, _⟩ | ⟨f1, _⟩
  · rw [f1] at e1; cases e1; exact f2
  · rw [f1] at e1
    simp only at e1
    rcases h.full st 0xfffd hI with ⟨out, s', f1, f2, _⟩ | ⟨f1, _⟩
    all_goals
      rw [f1] at e1
      simp only at e1
      split at e1
      · cases e1; exact hI
      · split at e1
        · cases e1; exact hI
        · cases e1 <;> assumption

theorem Wrote.writeAll_iff {discard : Bool} : ∀ (cs : List Nat) {st : Nat} (_ : I st) {o : List Byte} {i : Nat} {g' : Regs},
    WriteAll V discard (rep st) cs o i g' ↔
      ∃ st', Reiconv.writeAll (encChar E discard) st cs = some (o, st', i) ∧ I st' ∧ g' = rep st' := by
  intro cs
  induction cs with
  | nil =>
    intro st hI o i g'
    constructor
    · intro h; cases h; exact ⟨st, rfl, hI, rfl⟩
    · rintro ⟨st', h, _, rfl⟩
      cases h
      exact .nil
  | cons c cs ih =>
    intro st hI o i g'
    constructor
    · intro hw
      cases hw with
      | cons h1 h2 =>
        obtain ⟨st1, e1, hI1, rfl⟩ := (h.write_iff hI).1 h1
        obtain ⟨st2, e2, hI2, rfl⟩ := (ih hI1).1 h2
        refine ⟨st2, ?_, hI2, rfl⟩
        simp only [Reiconv.writeAll, e1, e2]
    · rintro ⟨st', hs, hI', rfl⟩
      simp only [Reiconv.writeAll] at hs
      cases e1 : encChar E discard st c with
      | none => rw [e1] at hs; cases hs
      | some x =>
        obtain ⟨bs, st1, i1⟩ := x
        rw [e1] at hs
        simp only at hs
        cases e2 : Reiconv.writeAll (encChar E discard) st1 cs with
        | none => rw [e2] at hs; cases hs
        | some y =>
          obtain ⟨r, st2, j⟩ := y
          rw [e2] at hs
          simp only [Option.some.injEq, Prod.mk.injEq] at hs
          obtain ⟨rfl, rfl, rfl⟩ := hs
          have hI1 := h.inv1 hI e1
          exact .cons ((h.write_iff hI).2 ⟨st1, e1, hI1, rfl⟩) ((ih hI1).2 ⟨st2, e2, hI', rfl⟩)

theorem Wrote.inv {discard : Bool} {cs : List Nat} {bs : List Byte} {st irr : Nat}
    (e : Reiconv.writeAll (encChar E discard) 0 cs = some (bs, st, irr)) : I st := by
  suffices hs : ∀ (cs : List Nat) {st st' irr : Nat} {bs : List Byte}, I st →
      Reiconv.writeAll (encChar E discard) st cs = some (bs, st', irr) → I st' from hs cs h.init e
  clear e
  intro cs
  induction cs with
  | nil => intro st st' irr bs hI e; cases e; exact hI
  | cons c cs ih =>
    intro st st' irr bs hI e
    simp only [Reiconv.writeAll] at e
    cases e1 : encChar E discard st c with
    | none => rw [e1] at e; cases e
    | some x =>
      obtain ⟨b1, st1, i1⟩ := x
      rw [e1] at e
      simp only at e
      cases e2 : Reiconv.writeAll (encChar E discard) st1 cs with
      | none => rw [e2] at e; cases e
      | some y =>
        obtain ⟨r, st2, j⟩ := y
        rw [e2] at e
        cases e
        exact ih (h.inv1 hI e1) e2

theorem Wrote.text_iff {discard : Bool} {cs : List Nat} {out : List Byte} {irr : Nat} : V.Text discard cs out irr ↔
    ∃ bs st, Reiconv.writeAll (encChar E discard) 0 cs = some (bs, st, irr) ∧ out = bs ++ E.tail st := by
  obtain ⟨e, he, ht⟩ := h.tail
  constructor
  · rintro ⟨o, g, e', h1, h2, rfl⟩
    rw [he] at h2
    cases h2
    rw [← h.rep_init] at h1
    obtain ⟨st, hs, hI, rfl⟩ := (h.writeAll_iff cs h.init).1 h1
    exact ⟨o, st, hs, by rw [ht st hI, List.append_assoc]⟩
  · rintro ⟨bs, st, hs, rfl⟩
    have hI := h.inv hs
    refine ⟨bs, rep st, e, ?_, he, by rw [ht st hI, List.append_assoc]⟩
    rw [← h.rep_init]
    exact (h.writeAll_iff cs h.init).2 ⟨st, hs, hI, rfl⟩

end

/-! ### The encoders -/

theorem ascii_newline {wc : Nat} {a : Byte} (h : Set.ascii.Chars [a] [wc]) :
    (wc = 0x0a ∨ wc = 0x0d) ↔ ([a] = [(0x0a : Byte)] ∨ [a] = [(0x0d : Byte)]) := by
  obtain ⟨x, _, e, hv⟩ := h
  cases e
  cases hv
  simp only [List.cons.injEq, and_true]
  constructor
  · rintro (h | h)
    · exact .inl (byte_eq h)
    · exact .inr (byte_eq h)
  · rintro (rfl | rfl)
    · exact .inl rfl
    · exact .inr rfl

theorem has_res {x : Set} {m : M MbRet} {w : Nat → W} {T : List (List Byte × Nat)} (ht : TableOK m w T []) (hx : x ≠ .isoir165)
    {name : String} {entry : Entry} (e : x.Chars = Listed ⟨name, entry, T, []⟩) {wc : Nat} (b : List Byte) :
    Has x b wc ↔ (w wc).res = some b := by
  rw [has_iff hx, e]
  exact set_res ht name entry wc b

theorem one_put {k f : Nat} {a : Byte} {st : Nat} : (jpOne st k f a.toNat).res =
    some ((if st = k then [] else [0x1b, 0x28, u8 f]) ++ [a], k) := by
  show some (List.map u8 _, k) = _
  by_cases h : st = k <;> simp [h, u8_of_toNat] <;> exact ⟨rfl, rfl⟩

theorem two_put {k count : Nat} {esc : List Nat} {a b : Byte} {st : Nat} : (jpTwo st k esc count a.toNat b.toNat).res =
    some ((if st = k then [] else esc.map u8) ++ [a, b], k) := by
  show some (List.map u8 _, k) = _
  by_cases h : st = k <;> simp [h, u8_of_toNat]

theorem jp_put {V : Writer} (hp : V.place = Set.escape) (hf : V.forget = false) {st k : Nat} {e b : List Byte} (h : st ≤ 3) (hk : k ≤ 3)
    (he : (jpSet k).escape = some (.G0, e)) : V.put (jp_rep st) (jpSet k) b = some ((if st = k then [] else e) ++ b, jp_rep k) := by
  have hs : (jp_rep st).g0 = jpSet k ↔ st = k := by
    show jpSet st = jpSet k ↔ _
    have h1 : st = 0 ∨ st = 1 ∨ st = 2 ∨ st = 3 := by omega
    have h2 : k = 0 ∨ k = 1 ∨ k = 2 ∨ k = 3 := by omega
    rcases h1 with rfl | rfl | rfl | rfl <;> rcases h2 with rfl | rfl | rfl | rfl <;> simp [jpSet]
  unfold Writer.put Writer.after
  rw [hp, he, hf]
  simp only [hs]
  rfl

theorem fffd_ascii : ∀ b, ¬ Has .ascii b 0xfffd := by
  rintro b ⟨⟨x, h, _, hv⟩, _⟩; simp only [List.cons.injEq, and_true] at hv; omega

theorem fffd_roman : ∀ b, ¬ Has .roman b 0xfffd := by
  rintro b ⟨⟨x, h, _, hv⟩, _⟩
  simp only [List.cons.injEq, and_true] at hv
  split at hv
  · omega
  · split at hv <;> omega

theorem fffd_jisx0208 : ∀ b, ¬ Has .jisx0208 b 0xfffd := fun b hb => by
  have hb := (has_res (x := .jisx0208) jisx0208_table (by simp) rfl b).1 hb
  rw [show (jisx0208_wctomb 0xfffd).res = none by decide +kernel] at hb; cases hb

theorem fffd_jisx0212 : ∀ b, ¬ Has .jisx0212 b 0xfffd := fun b hb => by
  have hb := (has_res (x := .jisx0212) jisx0212_table (by simp) rfl b).1 hb
  rw [show (jisx0212_wctomb 0xfffd).res = none by decide +kernel] at hb; cases hb

theorem fffd_gb2312 : ∀ b, ¬ Has .gb2312 b 0xfffd := fun b hb => by
  have hb := (has_res (x := .gb2312) gb2312_table (by simp) rfl b).1 hb
  rw [show (gb2312_wctomb 0xfffd).res = none by decide +kernel] at hb; cases hb

theorem fffd_ksc5601 : ∀ b, ¬ Has .ksc5601 b 0xfffd := fun b hb => by
  have hb := (has_res (x := .ksc5601) ksc5601_table (by simp) rfl b).1 hb
  rw [show (ksc5601_wctomb 0xfffd).res = none by decide +kernel] at hb; cases hb

theorem tail_reset {wctomb : Nat → Nat → SW} {reset : Nat → List Nat} {st : Nat} (h : (reset st).length ≤ 64) :
    (sencoder wctomb reset).tail st = (reset st).map u8 := by
  show (match (if 64 < (reset st).length then Outcome.ok (WcRes.small st) else .ok (.put ((reset st).map u8) st)) with
    | .ok r => r.ws
    | _ => []) = _
  rw [if_neg (by omega)]
  rfl

theorem jp_wrote : Wrote jpW iso2022_jp_encoder jp_rep jpI where
  init := by unfold jpI; omega
  rep_init := rfl
  full := by
    intro st wc hI
    have hs : st ≤ 3 := Nat.le_trans hI (by omega)
    rw [iso2022_jp_enc.full_eq hI]
    refine Does.one (by simp) (ascii_wOne wc) ascii_hp (fun a _ _ => ⟨_, _, one_put, by unfold jpI; omega, jp_put rfl rfl (k := 0) hs (by omega) rfl⟩) <|
      Does.one (by simp) (jisx0201_w_one wc) roman_hp (fun a _ _ => ⟨_, _, one_put, by unfold jpI; omega, jp_put rfl rfl (k := 1) hs (by omega) rfl⟩) <|
      Does.two (w := jisx0208_wctomb) jisx0208_two (jisx0208_w2 wc) (has_res jisx0208_table (by simp) rfl)
        (fun a b => ⟨_, _, two_put, by unfold jpI; omega, jp_put rfl rfl (k := 2) hs (by omega) rfl⟩) Does.nil
  fffd := by
    simp only [Missing, jpW, List.forall_mem_cons]
    exact ⟨fffd_ascii, fffd_roman, fffd_jisx0208, fun _ h => (nomatch h)⟩
  tail := by
    refine ⟨_, rfl, fun st hI => ?_⟩
    unfold jpI at hI
    have : st = 0 ∨ st = 1 ∨ st = 2 := by omega
    unfold iso2022_jp_encoder
    rcases this with rfl | rfl | rfl <;> (rw [tail_reset (by decide)]; decide)

theorem jp1_wrote : Wrote jp1W iso2022_jp1_encoder jp_rep jp1I where
  init := by unfold jp1I; omega
  rep_init := rfl
  full := by
    intro st wc hs
    have hs' : st ≤ 3 := hs
    rw [iso2022_jp1_enc.full_eq hs]
    refine Does.one (by simp) (ascii_wOne wc) ascii_hp (fun a _ _ => ⟨_, _, one_put, by unfold jp1I; omega, jp_put rfl rfl (k := 0) hs (by omega) rfl⟩) <|
      Does.one (by simp) (jisx0201_w_one wc) roman_hp (fun a _ _ => ⟨_, _, one_put, by unfold jp1I; omega, jp_put rfl rfl (k := 1) hs (by omega) rfl⟩) <|
      Does.two (w := jisx0208_wctomb) jisx0208_two (jisx0208_w2 wc) (has_res jisx0208_table (by simp) rfl)
        (fun a b => ⟨_, _, two_put, by unfold jp1I; omega, jp_put rfl rfl (k := 2) hs (by omega) rfl⟩) <|
      Does.two (w := jisx0212_wctomb) jisx0212_two (jisx0212_w2 wc) (has_res jisx0212_table (by simp) rfl)
        (fun a b => ⟨_, _, two_put, by unfold jp1I; omega, jp_put rfl rfl (k := 3) hs (by omega) rfl⟩) Does.nil
  fffd := by
    simp only [Missing, jp1W, List.forall_mem_cons]
    exact ⟨fffd_ascii, fffd_roman, fffd_jisx0208, fffd_jisx0212, fun _ h => (nomatch h)⟩
  tail := by
    refine ⟨_, rfl, fun st hI => ?_⟩
    unfold jp1I at hI
    have : st = 0 ∨ st = 1 ∨ st = 2 ∨ st = 3 := by omega
    unfold iso2022_jp1_encoder
    rcases this with rfl | rfl | rfl | rfl <;> (rw [tail_reset (by decide)]; decide)

/-- The registers of HZ. -/
def hz_regs (st : Nat) : Regs := ⟨if st = 0 then .ascii else .gb2312, none, none, none, false⟩

theorem hz_wrote : Wrote hzW hz_encoder hz_regs hzI where
  init := by unfold hzI; omega
  rep_init := rfl
  full := by
    intro st wc hI
    have hs : st = 0 ∨ st = 1 := by unfold hzI at hI; omega
    rw [hz_enc.full_eq hI]
    refine Does.one (by simp) (ascii_wOne wc) ascii_hp (fun a _ _ => ⟨_, _, rfl, by unfold hzI; omega, ?_⟩) <|
      Does.two (w := gb2312_wctomb) gb2312_two (gb2312_w2 wc) (has_res gb2312_table (by simp) rfl)
        (fun a b => ⟨_, _, rfl, by unfold hzI; split <;> omega, ?_⟩) Does.nil
    · rcases hs with rfl | rfl <;> simp [Writer.put, hzW, Writer.after, hz_regs, u8_of_toNat] <;> decide
    · rcases hs with rfl | rfl <;> simp [Writer.put, hzW, Writer.after, hz_regs, u8_of_toNat] <;> decide
  fffd := by
    simp only [Missing, hzW, List.forall_mem_cons]
    exact ⟨fffd_ascii, fffd_gb2312, fun _ h => (nomatch h)⟩
  tail := by
    refine ⟨_, rfl, fun st hI => ?_⟩
    have hs : st = 0 ∨ st = 1 := by unfold hzI at hI; omega
    unfold hz_encoder
    rcases hs with rfl | rfl <;> (rw [tail_reset (by decide)]; decide)

theorem ascii_put {V : Writer} {g1 g2 g3 : Option Set} {so : Bool} {wc : Nat} {a : Byte} {e : List Byte} (hp : V.place .ascii = some (.G0, e))
    (hf : V.forget = true) (ha : Set.ascii.Chars [a] [wc]) : V.put ⟨.ascii, g1, g2, g3, so⟩ .ascii [a] =
      some ((if so then [0x0f] else []) ++ [a],
        if wc = 0x0a ∨ wc = 0x0d then ⟨.ascii, none, none, none, false⟩ else ⟨.ascii, g1, g2, g3, false⟩) := by
  have hn := ascii_newline ha
  unfold Writer.put Writer.after
  rw [hp, hf]
  by_cases hw : wc = 0x0a ∨ wc = 0x0d
  · simp only [if_pos hw, if_pos (hn.1 hw), if_true, true_and, List.append_nil]
  · simp only [if_neg hw, if_neg (fun h => hw (hn.2 h)), if_true, true_and, List.append_nil]

theorem kr_wrote : Wrote krW iso2022_kr_encoder kr_rep krI where
  init := by unfold krI; omega
  rep_init := rfl
  full := by
    intro st wc hI
    have hI' := hI
    obtain ⟨i1, i2, i3⟩ := hI'
    have hs1 : st % 256 = 0 ∨ st % 256 = 1 := by omega
    have hs2 : st / 256 = 0 ∨ st / 256 = 1 := by omega
    rw [iso2022_kr_enc.full_eq hI]
    refine Does.one (by simp) (ascii_wOne wc) ascii_hp (fun a _ ha => ⟨_, _, rfl, by unfold krI; split <;> omega, ?_⟩) <|
      Does.two (w := ksc5601_wctomb) ksc5601_two (ksc5601_w2 wc) (has_res ksc5601_table (by simp) rfl)
        (fun a b => ⟨_, _, rfl, by unfold krI; omega, ?_⟩) Does.nil
    · rw [kr_rep_eq (by omega)]
      refine (ascii_put rfl rfl ha).trans ?_
      by_cases hw : wc = 0x0a ∨ wc = 0x0d
      · rcases hs1 with h | h <;> simp [krRegs, u8_of_toNat, hw, h] <;> decide
      · rcases hs1 with h | h <;> simp [krRegs, u8_of_toNat, hw, h] <;> decide
    · rw [kr_rep_eq (by omega)]
      rcases hs1 with h | h <;> rcases hs2 with h' | h' <;>
        simp [Writer.put, krW, kr_rep, krRegs, u8_of_toNat, h, h'] <;> decide
  fffd := by
    simp only [Missing, krW, List.forall_mem_cons]
    exact ⟨fffd_ascii, fffd_ksc5601, fun _ h => (nomatch h)⟩
  tail := by
    refine ⟨_, rfl, fun st hI => ?_⟩
    obtain ⟨i1, i2, i3⟩ := hI
    have hs1 : st % 256 = 0 ∨ st % 256 = 1 := by omega
    unfold iso2022_kr_encoder
    rcases hs1 with h | h <;> (rw [tail_reset (by unfold iso2022_kr_reset; rw [h]; decide)]; simp [iso2022_kr_reset, h, kr_rep, krRegs]) <;> decide

/-! ### CNS 11643 -/

/-- The rows of the irreversible pairs of EUC-TW: the four-byte form of plane 1, and one character of plane 3. -/
def twRow (x : Nat) : Bool := x / 1099511627776 == 0x18ea1 || x == 0x18ea3a1b8005344

theorem tw_irr_rows : ((packed (euc_tw_dups.map (·.2))).all twRow) = true := by decide +kernel

theorem tw_irr {p : List Byte × Nat} (h : p ∈ euc_tw_irr) :
    (∃ y z, p.1 = [0x8e, 0xa1, y, z]) ∨ p = ([0x8e, 0xa3, 0xa1, 0xb8], 0x5344) := by
  unfold euc_tw_irr at h
  rw [show irrOf euc_tw_ex = [] from rfl, List.append_nil] at h
  obtain ⟨x, hx, rfl⟩ := List.mem_map.1 h
  have hr := List.all_eq_true.1 tw_irr_rows x hx
  unfold twRow at hr
  simp only [Bool.or_eq_true, beq_iff_eq] at hr
  rcases hr with hr | rfl
  · refine .inl ⟨u8 (x / 16777216 / 256), u8 (x / 16777216), ?_⟩
    show unkey 8 (x / 16777216) = _
    have e1 : ¬ x / 16777216 < 256 := by omega
    have e2 : ¬ x / 16777216 / 256 < 256 := by omega
    have e3 : x / 16777216 / 256 / 256 = 0x18ea1 := by omega
    rw [unkey, if_neg e1, unkey, if_neg e2, e3, show unkey 6 0x18ea1 = [0x8e, 0xa1] by decide]
    rfl
  · exact .inr (by decide)

theorem tw_res {wc : Nat} (h : ¬ wc < 0x80) : ((cns11643_wctomb wc).run 0 3 = .ok (.iluni 0) → (euc_tw_wctomb wc).res = none) ∧
    ∀ p x y : Byte, (cns11643_wctomb wc).run 0 3 = .ok (.put [p, x, y] 0) → (euc_tw_wctomb wc).res =
      some (if p.toNat = 1 then [u8 (x.toNat + 0x80), u8 (y.toNat + 0x80)]
        else [0x8e, u8 (p.toNat + 0xa0), u8 (x.toNat + 0x80), u8 (y.toNat + 0x80)]) := by
  have ha : ascii_w wc = .iluni := by unfold ascii_w; rw [if_neg h]
  have e : euc_tw_wctomb wc = (cns11643_wctomb wc).on 3 fun ret buf =>
    if ret ≠ RET_ILUNI then
      if ret ≠ 3 then .abort
      else if bufAt buf 0 = 1 then
        .room 2 <| .put [bufAt buf 1 + 0x80, bufAt buf 2 + 0x80]
      else
        .room 4 <| .put [0x8e, bufAt buf 0 + 0xa0, bufAt buf 1 + 0x80, bufAt buf 2 + 0x80]
    else .iluni := by
    unfold euc_tw_wctomb; rw [ha]; rfl
  constructor
  · intro hi
    rw [e]
    unfold W.on
    rw [hi]
    rfl
  · intro p x y hi
    rw [e]
    unfold W.on
    rw [hi]
    show W.res (if p.toNat = 1 then _ else _) = _
    by_cases hp : p.toNat = 1
    · rw [if_pos hp, if_pos hp]; rfl
    · rw [if_neg hp, if_neg hp]; rfl

/-- A character in a plane of CNS 11643 is found there, except one of plane 3. -/
theorem cns_found {q wc : Nat} (h1 : 1 ≤ q) (h7 : q ≤ 7) {c : List Byte} (h : (Set.cns q).Chars c [wc]) :
    (∃ p x y : Byte, c = [x, y] ∧ p.toNat = q ∧ (cns11643_wctomb wc).run 0 3 = .ok (.put [p, x, y] 0)) ∨ (q = 3 ∧ wc = 0x5344) := by
  obtain ⟨x, y, hx, hy, rfl, w, hm, hw⟩ := h
  cases hw
  have hxh := hi_toNat hx
  have hyh := hi_toNat hy
  have hx1 := hx.1
  have hx2 := hx.2
  have hy1 := hy.1
  have hy2 := hy.2
  have hres : (euc_tw_wctomb wc).res = some (if q = 1 then [hi x, hi y] else [0x8e, u8 (0xa0 + q), hi x, hi y]) ∨ (q = 3 ∧ wc = 0x5344) := by
    by_cases hq : q = 1
    · subst hq
      refine .inl ((euc_tw_table.enc_iff _ _).2 (.inl ⟨?_, ?_⟩))
      · have := (euc_tw_table.dec_iff [hi x, hi y] wc 2 (by simp)).1 ?_
        · exact this.2
        · have h4 := (listed_iff euc_tw_table "EUC-TW" euc_tw_entry (by simp)).1 ⟨wc, hm, rfl⟩
          obtain ⟨w', hv, hw'⟩ := h4
          cases hw'
          have he := euc_tw_plane (p := 1) (by omega) (by omega) hx hy
          rcases plane_two 1 x y with hp | ⟨c, hp⟩
          · rw [hp] at he; rw [M.val_of_run he] at hv; cases hv
          · rw [hp] at he; rw [M.val_of_run he] at hv
            cases hv
            refine M.val_of_run ?_
            unfold euc_tw_mbtowc
            rw [M.run_byte0, if_neg (by omega), if_pos (by omega), M.run_need (by simp), M.run_byte1, if_pos (by omega), plane_1]
            rw [hi_sub hx, hi_sub hy]
            unfold M.on
            simp only [List.map_cons, List.map_nil, u8_of_toNat, hp]
            rfl
      · intro hirr
        rcases tw_irr hirr with ⟨_, _, h⟩ | h <;> simp at h
    · rw [if_neg hq]
      by_cases hirr : ([0x8e, u8 (0xa0 + q), hi x, hi y], wc) ∈ euc_tw_irr
      · rcases tw_irr hirr with ⟨_, _, h⟩ | h
        · simp only [List.cons.injEq, true_and] at h
          have := congrArg UInt8.toNat h.1
          rw [u8_toNat] at this
          have e : (0xa1 : Byte).toNat = 0xa1 := rfl
          rw [e] at this
          omega
        · simp only [Prod.mk.injEq, List.cons.injEq, true_and] at h
          have := congrArg UInt8.toNat h.1.1
          rw [u8_toNat] at this
          have e : (0xa3 : Byte).toNat = 0xa3 := rfl
          rw [e] at this
          exact .inr ⟨by omega, h.2⟩
      · exact .inl ((euc_tw_table.enc_iff _ _).2 (.inl ⟨hm, hirr⟩))
  rcases hres with hres | hres
  · by_cases hw : wc < 0x80
    · have e : (euc_tw_wctomb wc).res = some [u8 wc] := by
        unfold euc_tw_wctomb ascii_w; rw [if_pos hw]; rfl
      rw [e] at hres
      split at hres <;> simp at hres
    obtain ⟨t1, t2⟩ := tw_res hw
    rcases cns11643_w3 wc with hi' | ⟨p, a, b, hi'⟩
    · rw [t1 hi'] at hres; cases hres
    · rw [t2 p a b hi'] at hres
      have hp := p.toNat_lt
      have ha := a.toNat_lt
      have hb := b.toNat_lt
      have inj : ∀ {a x : Byte}, Graphic x → u8 (a.toNat + 0x80) = hi x → a = x := by
        intro a x hx h
        have h := congrArg UInt8.toNat h
        rw [hi_toNat hx, u8_toNat] at h
        have := a.toNat_lt
        have := hx.2
        exact UInt8.toNat_inj.1 (by omega)
      by_cases hp1 : p.toNat = 1
      · rw [if_pos hp1] at hres
        by_cases hq : q = 1
        · rw [if_pos hq] at hres
          simp only [Option.some.injEq, List.cons.injEq, and_true] at hres
          obtain ⟨r1, r2⟩ := hres
          obtain rfl := inj hx r1
          obtain rfl := inj hy r2
          exact .inl ⟨p, _, _, rfl, by omega, hi'⟩
        · rw [if_neg hq] at hres; simp at hres
      · rw [if_neg hp1] at hres
        by_cases hq : q = 1
        · rw [if_pos hq] at hres; simp at hres
        · rw [if_neg hq] at hres
          simp only [Option.some.injEq, List.cons.injEq, and_true, true_and] at hres
          obtain ⟨r0, r1, r2⟩ := hres
          obtain rfl := inj hx r1
          obtain rfl := inj hy r2
          have r0 := congrArg UInt8.toNat r0
          rw [u8_toNat, u8_toNat] at r0
          exact .inl ⟨p, _, _, rfl, by omega, hi'⟩
  · exact .inr hres

theorem cns_5344 : (cns11643_wctomb 0x5344).run 0 3 = .ok (.put [1, 0x24, 0x3f] 0) := by decide +kernel

theorem cnsPlane_eq {p : Nat} (h1 : 1 ≤ p) (h7 : p ≤ 7) : cnsPlane p = plane p := by
  have h : p = 1 ∨ p = 2 ∨ p = 3 ∨ p = 4 ∨ p = 5 ∨ p = 6 ∨ p = 7 := by omega
  rcases h with rfl | rfl | rfl | rfl | rfl | rfl | rfl
  · rw [← plane_1]; rfl
  · rw [← plane_2]; rfl
  · rw [← plane_3]; rfl
  · rw [← plane_4]; rfl
  · rw [← plane_5]; rfl
  · rw [← plane_6]; rfl
  · rw [← plane_7]; rfl

/-- What the inverse table of CNS 11643 gives, and the planes before that plane do not have the character. -/
theorem cns_cases (wc : Nat) :
    ((cns11643_wctomb wc).run 0 3 = .ok (.iluni 0) ∧ ∀ q, 1 ≤ q → q ≤ 7 → ∀ c, ¬ Has (.cns q) c wc) ∨
    ∃ p a b : Byte, (cns11643_wctomb wc).run 0 3 = .ok (.put [p, a, b] 0) ∧
      (1 ≤ p.toNat → p.toNat ≤ 7 → a.toNat < 0x80 ∧ b.toNat < 0x80 ∧ ∀ c, Has (.cns p.toNat) c wc ↔ c = [a, b]) ∧
      ∀ q, 1 ≤ q → q ≤ 7 → q < p.toNat ∨ p.toNat = 0 → ∀ c, ¬ Has (.cns q) c wc := by
  rcases cns11643_w3 wc with h | ⟨p, a, b, h⟩
  · refine .inl ⟨h, fun q h1 h7 c hc => ?_⟩
    rcases cns_found h1 h7 hc.1 with ⟨p, x, y, _, _, h'⟩ | ⟨_, rfl⟩
    · exact absurd (h.symm.trans h') (by simp [WcRes.put, WcRes.iluni])
    · exact absurd (h.symm.trans cns_5344) (by simp [WcRes.put, WcRes.iluni])
  · refine .inr ⟨p, a, b, h, fun h1 h7 => ?_, fun q h1 h7 hq c hc => ?_⟩
    · have hb := cns11643_back wc p a b h
      rw [cnsPlane_eq h1 h7] at hb
      obtain ⟨l1, l2⟩ := (cns_two h1 h7).low _ _ _ hb
      have := l1.2
      have := l2.2
      refine ⟨by omega, by omega, fun c => ?_⟩
      rw [has_iff (by simp)]
      constructor
      · intro hc
        rcases cns_found h1 h7 hc with ⟨p', x, y, rfl, _, h'⟩ | ⟨hp, rfl⟩
        · rw [h] at h'
          simp only [WcRes.put, Outcome.ok.injEq, WcRes.mk.injEq, List.cons.injEq, and_true] at h'
          rw [h'.2.2.1, h'.2.2.2]
        · rw [cns_5344] at h
          simp only [WcRes.put, Outcome.ok.injEq, WcRes.mk.injEq, List.cons.injEq, and_true] at h
          rw [← h.2.1] at hp
          exact absurd hp (by decide)
      · rintro rfl
        exact ((cns_two h1 h7).chars _ _).2 ⟨a, b, wc, rfl, rfl, hb⟩
    · rcases cns_found h1 h7 hc.1 with ⟨p', x, y, _, hp, h'⟩ | ⟨rfl, rfl⟩
      · rw [h] at h'
        simp only [WcRes.put, Outcome.ok.injEq, WcRes.mk.injEq, List.cons.injEq, and_true] at h'
        rw [h'.2.1] at hq
        omega
      · rw [cns_5344] at h
        simp only [WcRes.put, Outcome.ok.injEq, WcRes.mk.injEq, List.cons.injEq, and_true] at h
        rw [← h.2.1] at hq
        exact absurd hq (by decide)

/-- `try3` for the planes 1 to `n`. -/
theorem Does.cns {V : Writer} {rep : Nat → Regs} {I : Nat → Prop} {st wc n : Nat} {found : Nat → Nat → Nat → SW} {rest : SW} {l : List Set}
    (hn : n ≤ 7) (hf : ∀ p a b : Byte, 1 ≤ p.toNat → p.toNat ≤ n → a.toNat < 0x80 → b.toNat < 0x80 →
      ∃ out st', (found p.toNat a.toNat b.toNat).res = some (out, st') ∧ I st' ∧
        V.put (rep st) (.cns p.toNat) [a, b] = some (out, rep st'))
    (ho : ∀ p a b : Byte, p.toNat = 0 ∨ n < p.toNat → found p.toNat a.toNat b.toNat = rest)
    (hr : Does V rep I st wc rest l) :
    Does V rep I st wc (.try3 (cns11643_wctomb wc) found rest) ((List.range' 1 n).map Set.cns ++ l) := by
  rcases cns_cases wc with ⟨h, hq⟩ | ⟨p, a, b, h, hp, hq⟩
  · have e : SW.try3 (cns11643_wctomb wc) found rest = rest := by unfold SW.try3 SW.on; rw [h]; rfl
    rw [e]
    have : ∀ m s, 1 ≤ s → s + m ≤ 8 → Does V rep I st wc rest ((List.range' s m).map Set.cns ++ l) := by
      intro m
      induction m with
      | zero => intro s _ _; exact hr
      | succ m ih => intro s h1 h2; exact (ih (s + 1) (by omega) (by omega)).next (hq s h1 (by omega))
    exact this n 1 (by omega) (by omega)
  · have e : SW.try3 (cns11643_wctomb wc) found rest = found p.toNat a.toNat b.toNat := by unfold SW.try3 SW.on; rw [h]; rfl
    rw [e]
    by_cases hpn : p.toNat = 0 ∨ n < p.toNat
    · rw [ho p a b hpn]
      have : ∀ m s, 1 ≤ s → s + m ≤ n + 1 → Does V rep I st wc rest ((List.range' s m).map Set.cns ++ l) := by
        intro m
        induction m with
        | zero => intro s _ _; exact hr
        | succ m ih => intro s h1 h2; exact (ih (s + 1) (by omega) (by omega)).next (hq s h1 (by omega) (by omega))
      exact this n 1 (by omega) (by omega)
    · obtain ⟨ha, hb, hc⟩ := hp (by omega) (by omega)
      obtain ⟨out, st', g1, g2, g3⟩ := hf p a b (by omega) (by omega) ha hb
      have : ∀ m s, 1 ≤ s → s ≤ p.toNat → p.toNat < s + m → s + m ≤ n + 1 →
          Does V rep I st wc (found p.toNat a.toNat b.toNat) ((List.range' s m).map Set.cns ++ l) := by
        intro m
        induction m with
        | zero => intro s _ _ _ _; omega
        | succ m ih =>
          intro s h1 h2 h3 h4
          by_cases hs : s = p.toNat
          · subst hs
            exact .here hc g1 g2 g3
          · exact (ih (s + 1) (by omega) (by omega) (by omega) (by omega)).next (hq s h1 (by omega) (by omega))
      exact this n 1 (by omega) (by omega) (by omega) (by omega)

theorem fffd_cns {q : Nat} (h1 : 1 ≤ q) (h7 : q ≤ 7) : ∀ b, ¬ Has (.cns q) b 0xfffd := by
  have e : (cns11643_wctomb 0xfffd).run 0 3 = .ok (.iluni 0) := by decide +kernel
  rcases cns_cases 0xfffd with ⟨_, h⟩ | ⟨p, a, b, h, _⟩
  · exact h q h1 h7
  · exact absurd (h.symm.trans e) (by simp [WcRes.put, WcRes.iluni])

theorem has_irr {m : M MbRet} {w : Nat → W} {T irr : List (List Byte × Nat)} (ht : TableOK m w T irr) (hb : ∀ p ∈ irr, p ∈ T)
    (name : String) (entry : Entry) {wc : Nat} (b : List Byte) :
    Listed ⟨name, entry, T, irr⟩ b [wc] ∧ (b, wc) ∉ irr ↔ (w wc).res = some b := by
  rw [ht.enc_iff]
  constructor
  · rintro ⟨⟨c, h, h2⟩, h3⟩
    cases h2
    exact .inl ⟨h, h3⟩
  · rintro (⟨h, h2⟩ | ⟨h, h2⟩)
    · exact ⟨⟨wc, h, rfl⟩, h2⟩
    · exact absurd (hb _ h2) h

theorem isoir165_res {wc : Nat} (b : List Byte) : Has .isoir165 b wc ↔ (isoir165_wctomb wc).res = some b := by
  refine Iff.trans ?_ (has_irr isoir165_table isoir165_dup_back "ISO-IR-165" isoir165_entry b)
  exact ⟨fun h => ⟨h.1, h.2 rfl⟩, fun h => ⟨h.1, fun _ => h.2⟩⟩

theorem fffd_isoir165 : ∀ b, ¬ Has .isoir165 b 0xfffd := fun b hb => by
  rw [isoir165_res, show (isoir165_wctomb 0xfffd).res = none by decide +kernel] at hb; cases hb

theorem byte_of {p : Byte} {n : Nat} (h : p.toNat = n) : p = u8 n := by rw [← h, u8_of_toNat]

theorem cn_wrote : Wrote cnW iso2022_cn_encoder cn_rep cnI where
  init := by unfold cnI; omega
  rep_init := rfl
  full := by
    intro st wc hI
    have hI' := hI
    obtain ⟨i1, i2, i3⟩ := hI'
    have hs1 : st % 256 = 0 ∨ st % 256 = 1 := by omega
    have hs2 : st / 256 % 256 = 0 ∨ st / 256 % 256 = 1 ∨ st / 256 % 256 = 2 := by omega
    have hs3 : st / 65536 = 0 ∨ st / 65536 = 1 := by omega
    rw [iso2022_cn_enc.full_eq hI]
    show Does cnW cn_rep cnI st wc (iso2022_cn_wctomb st wc) cnW.order
    unfold iso2022_cn_wctomb
    dsimp only
    refine Does.one (by simp) (ascii_wOne wc) ascii_hp (fun a _ ha => ⟨_, _, rfl, ?_, ?_⟩) ?_
    rotate_left 2
    refine Does.two (w := gb2312_wctomb) gb2312_two (gb2312_w2 wc) (has_res gb2312_table (by simp) rfl)
        (fun a b => ⟨_, _, rfl, cnI_cnSt (by omega) (by omega) i3, ?_⟩) ?_
    rotate_left
    refine Does.cns (n := 2) (by omega) (fun p a b h1 h2 ha hb => ?_) (fun p a b hp => ?_) Does.nil
    rotate_left 2
    · split
      · exact cnI_cnSt (by omega) (by omega) (by omega)
      · exact cnI_cnSt (by omega) i2 i3
    · refine (ascii_put rfl rfl ha).trans ?_
      by_cases hw : wc = 0x0a ∨ wc = 0x0d
      · rw [if_pos hw, if_pos hw, cn_rep_eq (by omega) (by omega)]
        rcases hs1 with h | h <;> simp [cnRegs, cnG1, u8_of_toNat, h] <;> decide
      · rw [if_neg hw, if_neg hw, cn_rep_eq (by omega) i2]
        rcases hs1 with h | h <;> simp [cnRegs, u8_of_toNat, h] <;> decide
    · rw [cn_rep_eq (by omega) (by omega)]
      rcases hs1 with h | h <;> rcases hs2 with h' | h' | h' <;>
        simp [Writer.put, cnW, cnPlace, cn_rep, cnRegs, cnG1, u8_of_toNat, h, h'] <;> decide
    · have hp : p.toNat = 1 ∨ p.toNat = 2 := by omega
      rcases hp with hp | hp
      · rw [hp]
        refine ⟨_, _, by rw [if_pos ⟨rfl, ha, hb⟩]; rfl, cnI_cnSt (by omega) (by omega) i3, ?_⟩
        rw [cn_rep_eq (by omega) (by omega)]
        rcases hs1 with h | h <;> rcases hs2 with h' | h' | h' <;>
          simp [Writer.put, cnW, cnPlace, cn_rep, cnRegs, cnG1, u8_of_toNat, h, h'] <;> decide
      · rw [hp]
        refine ⟨_, _, by rw [if_neg (by simp), if_pos ⟨rfl, ha, hb⟩]; rfl, cnI_cnSt i1 i2 (by omega), ?_⟩
        rw [cn_rep_eq i1 i2]
        rcases hs3 with h | h <;>
          simp [Writer.put, cnW, cnPlace, cn_rep, cnRegs, u8_of_toNat, h] <;> decide
    · rw [if_neg (by omega), if_neg (by omega)]
  fffd := by
    simp only [Missing, cnW, List.forall_mem_cons]
    exact ⟨fffd_ascii, fffd_gb2312, fffd_cns (by omega) (by omega), fffd_cns (by omega) (by omega), fun _ h => (nomatch h)⟩
  tail := by
    refine ⟨_, rfl, fun st hI => ?_⟩
    obtain ⟨i1, i2, i3⟩ := hI
    have hs1 : st % 256 = 0 ∨ st % 256 = 1 := by omega
    unfold iso2022_cn_encoder
    rcases hs1 with h | h <;> (rw [tail_reset (by unfold iso2022_cn_reset; rw [h]; decide)]; simp [iso2022_cn_reset, h, cn_rep, cnRegs]) <;> decide

theorem cx_one {st : Nat} {x : Set} {k f : Nat} (i2 : st / 256 % 256 ≤ 3) (i3 : st / 65536 % 256 ≤ 1)
    (hk : 1 ≤ k ∧ k ≤ 3) (hx : cxG1s k = some x) (hp : cnPlace x = some (.G1, [0x1b, 0x24, 0x29, f].map u8)) (a b : Byte) :
    (cxG1 (st % 256) (st / 256 % 256) (st / 65536 % 256) (st / 16777216) k f a.toNat b.toNat).res =
      some ((if st / 256 % 256 = k then [] else [0x1b, 0x24, 0x29, f].map u8) ++ (if st % 256 = 1 then [] else [0x0e]) ++ [a, b],
        cxSt 1 k (st / 65536 % 256) (st / 16777216)) ∧
    cnExtW.put (cx_rep st) x [a, b] = some ((if st / 256 % 256 = k then [] else [0x1b, 0x24, 0x29, f].map u8) ++
      (if st % 256 = 1 then [] else [0x0e]) ++ [a, b], cx_rep (cxSt 1 k (st / 65536 % 256) (st / 16777216))) := by
  constructor
  · show some (List.map u8 _, _) = _
    by_cases h1 : st / 256 % 256 = k <;> by_cases h2 : st % 256 = 1 <;> simp [h1, h2, u8_of_toNat] <;> decide
  · rw [cx_rep_eq (by omega) (by omega) i3]
    unfold Writer.put
    rw [show cnExtW.place x = some (.G1, [0x1b, 0x24, 0x29, f].map u8) from hp]
    have hg : (cx_rep st).g1 = some x ↔ st / 256 % 256 = k := by
      show cxG1s (st / 256 % 256) = some x ↔ _
      rw [← hx]
      generalize st / 256 % 256 = s2 at i2
      have h1 : s2 = 0 ∨ s2 = 1 ∨ s2 = 2 ∨ s2 = 3 := by omega
      have h2 : k = 1 ∨ k = 2 ∨ k = 3 := by omega
      rcases h1 with rfl | rfl | rfl | rfl <;> rcases h2 with rfl | rfl | rfl <;> simp [cxG1s]
    simp only [hg]
    simp [cx_rep, cxRegs, hx]

theorem cx_three {st : Nat} {k f : Nat} (i1 : st % 256 ≤ 1) (i2 : st / 256 % 256 ≤ 3) (i3 : st / 65536 % 256 ≤ 1)
    (hk : 1 ≤ k ∧ k ≤ 5) (hp : cnPlace (.cns (k + 2)) = some (.G3, [0x1b, 0x24, 0x2b, f].map u8)) (a b : Byte) :
    (cxG3 (st % 256) (st / 256 % 256) (st / 65536 % 256) (st / 16777216) k f a.toNat b.toNat).res =
      some ((if st / 16777216 = k then [] else [0x1b, 0x24, 0x2b, f].map u8) ++ [0x1b, 0x4f, a, b],
        cxSt (st % 256) (st / 256 % 256) (st / 65536 % 256) k) ∧
    cnExtW.put (cx_rep st) (.cns (k + 2)) [a, b] = some ((if st / 16777216 = k then [] else [0x1b, 0x24, 0x2b, f].map u8) ++
      [0x1b, 0x4f, a, b], cx_rep (cxSt (st % 256) (st / 256 % 256) (st / 65536 % 256) k)) := by
  constructor
  · show some (List.map u8 _, _) = _
    by_cases h1 : st / 16777216 = k <;> simp [h1, u8_of_toNat] <;> decide
  · rw [cx_rep_eq i1 i2 i3]
    unfold Writer.put
    rw [show cnExtW.place (.cns (k + 2)) = some (.G3, [0x1b, 0x24, 0x2b, f].map u8) from hp]
    have hg : (cx_rep st).g3 = some (.cns (k + 2)) ↔ st / 16777216 = k := by
      show cxG3s (st / 16777216) = _ ↔ _
      unfold cxG3s
      split <;> simp <;> omega
    simp only [hg]
    have : k ≠ 0 := by omega
    simp [cx_rep, cxRegs, cxG3s, this]

theorem cnExt_wrote : Wrote cnExtW iso2022_cn_ext_encoder cx_rep cxI where
  init := by unfold cxI; omega
  rep_init := rfl
  full := by
    intro st wc hI
    have hI' := hI
    obtain ⟨i1, i2, i3, i4⟩ := hI'
    have hs1 : st % 256 = 0 ∨ st % 256 = 1 := by omega
    have hs3 : st / 65536 % 256 = 0 ∨ st / 65536 % 256 = 1 := by omega
    rw [iso2022_cn_ext_enc.full_eq hI]
    show Does cnExtW cx_rep cxI st wc (iso2022_cn_ext_wctomb st wc) cnExtW.order
    unfold iso2022_cn_ext_wctomb
    dsimp only
    refine Does.one (by simp) (ascii_wOne wc) ascii_hp (fun a _ ha => ⟨_, _, rfl, ?_, ?_⟩) ?_
    rotate_left 2
    refine Does.two (w := gb2312_wctomb) gb2312_two (gb2312_w2 wc) (has_res gb2312_table (by simp) rfl)
        (fun a b => ⟨_, _, (cx_one i2 i3 (by omega) rfl rfl a b).1, cxI_cxSt (by omega) (by omega) i3 i4,
          (cx_one i2 i3 (by omega) rfl rfl a b).2⟩) ?_
    refine Does.cns (n := 7) (by omega) (fun p a b h1 h2 ha hb => ?_) (fun p a b hp => ?_)
      (Does.two (w := isoir165_wctomb) isoir165_two (isoir165_w2 wc) isoir165_res
        (fun a b => ⟨_, _, (cx_one i2 i3 (by omega) rfl rfl a b).1, cxI_cxSt (by omega) (by omega) i3 i4,
          (cx_one i2 i3 (by omega) rfl rfl a b).2⟩) Does.nil)
    rotate_left 2
    · split
      · exact cxI_cxSt (by omega) (by omega) (by omega) (by omega)
      · exact cxI_cxSt (by omega) i2 i3 i4
    · refine (ascii_put rfl rfl ha).trans ?_
      by_cases hw : wc = 0x0a ∨ wc = 0x0d
      · rw [if_pos hw, if_pos hw, cx_rep_eq (by omega) (by omega) (by omega)]
        rcases hs1 with h | h <;> simp [cxRegs, cxG1s, cxG3s, u8_of_toNat, h] <;> decide
      · rw [if_neg hw, if_neg hw, cx_rep_eq (by omega) i2 i3]
        rcases hs1 with h | h <;> simp [cxRegs, u8_of_toNat, h] <;> decide
    · have hp : p.toNat = 1 ∨ p.toNat = 2 ∨ p.toNat = 3 ∨ p.toNat = 4 ∨ p.toNat = 5 ∨ p.toNat = 6 ∨ p.toNat = 7 := by omega
      have go : ∀ {k f : Nat}, 1 ≤ k ∧ k ≤ 5 → cnPlace (.cns (k + 2)) = some (.G3, [0x1b, 0x24, 0x2b, f].map u8) →
          ∃ out st', (cxG3 (st % 256) (st / 256 % 256) (st / 65536 % 256) (st / 16777216) k f a.toNat b.toNat).res = some (out, st') ∧
            cxI st' ∧ cnExtW.put (cx_rep st) (.cns (k + 2)) [a, b] = some (out, cx_rep st') := fun hk h =>
        ⟨_, _, (cx_three i1 i2 i3 hk h a b).1, cxI_cxSt i1 i2 i3 hk.2, (cx_three i1 i2 i3 hk h a b).2⟩
      rcases hp with hp | hp | hp | hp | hp | hp | hp <;> rw [hp] <;>
        simp only [ha, hb, Nat.reduceEqDiff, false_and, and_self, if_true, if_false]
      · exact ⟨_, _, (cx_one i2 i3 (by omega) rfl rfl a b).1, cxI_cxSt (by omega) (by omega) i3 i4,
          (cx_one i2 i3 (by omega) rfl rfl a b).2⟩
      · refine ⟨_, _, rfl, cxI_cxSt i1 i2 (by omega) i4, ?_⟩
        rw [cx_rep_eq i1 i2 (by omega)]
        rcases hs3 with h | h <;>
          simp [Writer.put, cnExtW, cnPlace, cx_rep, cxRegs, u8_of_toNat, h] <;> decide
      · exact go (k := 1) (by omega) rfl
      · exact go (k := 2) (by omega) rfl
      · exact go (k := 3) (by omega) rfl
      · exact go (k := 4) (by omega) rfl
      · exact go (k := 5) (by omega) rfl
    · rw [if_neg (by omega), if_neg (by omega), if_neg (by omega), if_neg (by omega), if_neg (by omega), if_neg (by omega), if_neg (by omega)]
  fffd := by
    simp only [Missing, cnExtW, List.forall_mem_cons]
    exact ⟨fffd_ascii, fffd_gb2312, fffd_cns (by omega) (by omega), fffd_cns (by omega) (by omega), fffd_cns (by omega) (by omega),
      fffd_cns (by omega) (by omega), fffd_cns (by omega) (by omega), fffd_cns (by omega) (by omega), fffd_cns (by omega) (by omega),
      fffd_isoir165, fun _ h => (nomatch h)⟩
  tail := by
    refine ⟨_, rfl, fun st hI => ?_⟩
    obtain ⟨i1, i2, i3⟩ := hI
    have hs1 : st % 256 = 0 ∨ st % 256 = 1 := by omega
    unfold iso2022_cn_ext_encoder
    rcases hs1 with h | h <;> (rw [tail_reset (by unfold iso2022_cn_ext_reset; rw [h]; decide)]; simp [iso2022_cn_ext_reset, h, cx_rep, cxRegs]) <;> decide

/-- The encodings and their writers. -/
def writers : List (Entry × Writer) :=
  [(hz_entry, hzW), (iso2022_jp_entry, jpW), (iso2022_jp1_entry, jp1W), (iso2022_kr_entry, krW), (iso2022_cn_entry, cnW),
    (iso2022_cn_ext_entry, cnExtW)]

theorem writers_iff : ∀ p ∈ writers, ∀ (discard : Bool) (cs : List Nat) (out : List Byte) (irr : Nat),
    p.2.Text discard cs out irr ↔
      ∃ bs st, Reiconv.writeAll (encChar p.1.enc discard) 0 cs = some (bs, st, irr) ∧ out = bs ++ p.1.enc.tail st := by
  simp only [writers, List.forall_mem_cons]
  exact ⟨fun _ _ _ _ => hz_wrote.text_iff, fun _ _ _ _ => jp_wrote.text_iff, fun _ _ _ _ => jp1_wrote.text_iff,
    fun _ _ _ _ => kr_wrote.text_iff, fun _ _ _ _ => cn_wrote.text_iff, fun _ _ _ _ => cnExt_wrote.text_iff,
    fun _ h => (nomatch h)⟩

end Reiconv.IsoW

namespace Reiconv

open IsoW

/-! ## The property -/

/-- C62: the conversion of a text to these encodings is what the specification says, for every source encoding, with
and without the discard flag. -/
theorem C62_writes (p : Entry × Writer) (hp : p ∈ writers) (A : Entry) (discard : Bool) (inp : List Byte) (cs : List Nat)
    (h : A.Text inp cs) (out : List Byte) (irr : Nat) :
    Whole A.atom (A.conv p.1 discard) St.init inp out irr ↔ p.2.Text discard cs out irr :=
  (whole_iff_write h out irr).trans (writers_iff p hp discard cs out irr).symm

/-- C62 at the API: if the specification gives bytes for the text then `reiconv_result_size` returns their number, and
`reiconv_convert_static_size` writes exactly these bytes into a buffer that has 64 bytes more. If it gives none, both
fail with `EILSEQ`. -/
theorem C62_api (p : Entry × Writer) (hp : p ∈ writers) (A : Entry) (discard : Bool) (inp : List Byte) (cs : List Nat)
    (h : A.Text inp cs) :
    (∀ out irr, p.2.Text discard cs out irr →
      (∃ s, resultSize (A.conv p.1 discard) St.init inp = .ok (.ok out.length, s)) ∧
      ∀ room : List Byte, out.length + 64 ≤ room.length → ∃ s b,
        convertStatic (A.conv p.1 discard) St.init inp ⟨false, [], room⟩ = .ok (.ok (), s, b) ∧ b.out = out) ∧
    ((¬ ∃ out irr, p.2.Text discard cs out irr) →
      ∃ s, resultSize (A.conv p.1 discard) St.init inp = .ok (.error .EILSEQ, s)) := by
  obtain ⟨sz, s1, h1, _, _, h2⟩ := size_whole A p.1 discard inp
  constructor
  · intro out irr hj
    have hw := (C62_writes p hp A discard inp cs h out irr).2 hj
    constructor
    · rcases h2 with ⟨n, o, i, rfl, hw', rfl, _⟩ | ⟨_, hno⟩
      · obtain ⟨rfl, _⟩ := whole_det hw hw'
        exact ⟨s1, h1⟩
      · exact absurd hw (hno _ _)
    · intro room hroom
      obtain ⟨ret, s2, b, hx, hl, h5⟩ := static_whole A p.1 discard St.init A.decOK.inv_init
        p.1.encOK.inv_init inp room hw (.inl (by omega))
      rcases h5 with ⟨rfl, h5, _⟩ | ⟨_, h5, ⟨rest, h6⟩, _⟩
      · exact ⟨s2, b, hx, h5⟩
      · rw [h6, List.length_append] at hroom
        omega
  · intro hno
    rcases h2 with ⟨n, o, i, rfl, hw', _⟩ | ⟨rfl, _⟩
    · exact absurd ⟨_, _, (C62_writes p hp A discard inp cs h _ _).1 hw'⟩ hno
    · exact ⟨s1, h1⟩

/-- The specification gives at most one result. -/
theorem C62_unique (p : Entry × Writer) (hp : p ∈ writers) {discard : Bool} {cs : List Nat} {o o' : List Byte} {i i' : Nat}
    (h : p.2.Text discard cs o i) (h' : p.2.Text discard cs o' i') : o = o' ∧ i = i' := by
  obtain ⟨b, s, e, rfl⟩ := (writers_iff p hp _ _ _ _).1 h
  obtain ⟨b', s', e', rfl⟩ := (writers_iff p hp _ _ _ _).1 h'
  rw [e] at e'
  cases e'
  exact ⟨rfl, rfl⟩

/-- The texts that can be written: with `discard` all of them, and without it those of which every character is a tag
character or in one of the sets. -/
theorem C62_exists (p : Entry × Writer) (hp : p ∈ writers) (discard : Bool) (cs : List Nat) :
    (∃ out irr, p.2.Text discard cs out irr) ↔ discard = true ∨ ∀ wc ∈ cs, isTag wc = true ∨ ¬ Missing wc p.2.order := by
  suffices hs : ∀ {V : Writer} {E : Encoder} {rep : Nat → Iso.Regs} {I : Nat → Prop}, IsoW.Wrote V E rep I →
      ((∃ out irr, V.Text discard cs out irr) ↔ discard = true ∨ ∀ wc ∈ cs, isTag wc = true ∨ ¬ Missing wc V.order) by
    revert hp
    simp only [writers, List.mem_cons, List.not_mem_nil, or_false]
    rintro (rfl | rfl | rfl | rfl | rfl | rfl)
    · exact hs hz_wrote
    · exact hs jp_wrote
    · exact hs jp1_wrote
    · exact hs kr_wrote
    · exact hs cn_wrote
    · exact hs cnExt_wrote
  intro V E rep I h
  have key : ∀ cs {st}, I st → ((∃ o i g, WriteAll V discard (rep st) cs o i g) ↔
      discard = true ∨ ∀ wc ∈ cs, isTag wc = true ∨ ¬ Missing wc V.order) := by
    intro cs
    induction cs with
    | nil => intro st _; exact ⟨fun _ => .inr fun _ h => (nomatch h), fun _ => ⟨_, _, _, .nil⟩⟩
    | cons c cs ih =>
      intro st hI
      constructor
      · rintro ⟨o, i, g, hw⟩
        cases hw with
        | cons h1 h2 =>
          obtain ⟨st1, _, hI1, hg⟩ := (h.write_iff hI).1 h1
          rcases (ih hI1).1 ⟨_, _, _, hg ▸ h2⟩ with hd | hd
          · exact .inl hd
          · cases h1 with
            | char hf _ => exact .inr (List.forall_mem_cons.2 ⟨.inr (first_missing hf), hd⟩)
            | tag _ ht => exact .inr (List.forall_mem_cons.2 ⟨.inl ht, hd⟩)
            | drop _ _ hd => exact .inl hd
      · intro hd
        have hc : ∃ o i g, Write V discard (rep st) c o i g := by
          rcases h.full st c hI with ⟨out, st', _, _, h3⟩ | ⟨_, hm⟩
          · obtain ⟨x, b, hf, hp⟩ := (h3 _ _).2 ⟨rfl, rfl⟩
            exact ⟨_, _, _, .char hf hp⟩
          · by_cases ht : isTag c = true
            · exact ⟨_, _, _, .tag hm ht⟩
            · rcases hd with hd | hd
              · exact ⟨_, _, _, .drop hm (by simpa using ht) hd⟩
              · rcases hd c (List.mem_cons_self ..) with h | h
                · exact absurd h ht
                · exact absurd hm h
        obtain ⟨o, i, g, hw⟩ := hc
        obtain ⟨st1, _, hI1, rfl⟩ := (h.write_iff hI).1 hw
        obtain ⟨o2, i2, g2, hw2⟩ := (ih hI1).2 (hd.imp id fun hd x hx => hd x (List.mem_cons_of_mem _ hx))
        exact ⟨_, _, _, .cons hw hw2⟩
  rw [← key cs h.init, h.rep_init]
  obtain ⟨e, he, _⟩ := h.tail
  exact ⟨fun ⟨out, irr, o, g, e', h1, _, _⟩ => ⟨o, irr, g, h1⟩, fun ⟨o, irr, g, h1⟩ => ⟨_, irr, o, g, e, h1, he, rfl⟩⟩

/-- RFC 1557 asks for the designation of KS C 5601 once in a text, at the beginning of a line, before the first SO. The
library writes it in front of the first Korean character of each line, also in the middle of the line. -/
theorem C62_kr_header : krW.Text false [0x41, 0xac00, 0x0a, 0xac00]
    [0x41, 0x1b, 0x24, 0x29, 0x43, 0x0e, 0x30, 0x21, 0x0f, 0x0a, 0x1b, 0x24, 0x29, 0x43, 0x0e, 0x30, 0x21, 0x0f] 0 :=
  kr_wrote.text_iff.2 ⟨_, _, by rfl, by decide +kernel⟩

/-- U+4E4B is in GB 2312 and in plane 1 of CNS 11643, U+5287 only in plane 1. After the newline the set is designated
again. The Latin letter ĝ is in none of the sets. -/
example : cnW.Text true [0x4e4b, 0x61, 0x4e4b, 0x5287, 0x11d, 0x0a, 0x5287]
    [0x1b, 0x24, 0x29, 0x41, 0x0e, 0x56, 0x2e, 0x0f, 0x61, 0x0e, 0x56, 0x2e, 0x1b, 0x24, 0x29, 0x47, 0x6c, 0x2a, 0x0f, 0x0a,
      0x1b, 0x24, 0x29, 0x47, 0x0e, 0x6c, 0x2a, 0x0f] 1 :=
  cn_wrote.text_iff.2 ⟨_, _, by rfl, by decide +kernel⟩

/-- Planes 2 and 7 of CNS 11643, in G2 and G3. -/
example : cnExtW.Text false [0x4e42, 0x20055, 0x4e42, 0x20055]
    [0x1b, 0x24, 0x2a, 0x48, 0x1b, 0x4e, 0x21, 0x21, 0x1b, 0x24, 0x2b, 0x4d, 0x1b, 0x4f, 0x21, 0x21, 0x1b, 0x4e, 0x21, 0x21,
      0x1b, 0x4f, 0x21, 0x21] 0 :=
  cnExt_wrote.text_iff.2 ⟨_, _, by rfl, by decide +kernel⟩

/-- Roman for the yen sign, JIS X 0208, JIS X 0212 and the return to ASCII; `~{` and `~}`. -/
example : jp1W.Text false [0xa5, 0x3042, 0x4e02, 0x41]
      [0x1b, 0x28, 0x4a, 0x5c, 0x1b, 0x24, 0x42, 0x24, 0x22, 0x1b, 0x24, 0x28, 0x44, 0x30, 0x21, 0x1b, 0x28, 0x42, 0x41] 0 ∧
    hzW.Text false [0x4e4b, 0x4e4b, 0x41, 0x4e4b] [0x7e, 0x7b, 0x56, 0x2e, 0x56, 0x2e, 0x7e, 0x7d, 0x41, 0x7e, 0x7b, 0x56, 0x2e, 0x7e, 0x7d] 0 :=
  ⟨jp1_wrote.text_iff.2 ⟨_, _, by rfl, by decide +kernel⟩, hz_wrote.text_iff.2 ⟨_, _, by rfl, by decide +kernel⟩⟩

end Reiconv
