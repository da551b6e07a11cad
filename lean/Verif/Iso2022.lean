import Verif.Props.MultiRows
import Verif.Props.Pair
import Verif.Gen.SbData2

/-!
# ISO 2022: a specification

The structure of the encodings ISO-2022-KR, ISO-2022-CN, ISO-2022-CN-EXT, ISO-2022-JP, ISO-2022-JP-1,
ISO-2022-JP-2 and ISO-2022-JP-3 as their definitions (RFC 1557, RFC 1922, RFC 1468, RFC 2237, RFC 1554, JIS X 0213) give it, independently of the converters. There are
four registers G0 to G3 for character sets. A designation puts a set into a register. Bytes stand for
characters of the set in G0 or, after SO, in G1; `ESC N` and `ESC O` select G2 and G3 for one character. The
character sets are those of the published tables in `tests/data`.
-/

namespace Reiconv.Iso

/-- The character sets. -/
inductive Set where
  | ascii | roman | kana | jisx0208 | jisx0212 | gb2312 | ksc5601 | isoir165
  /-- A plane of CNS 11643. -/
  | cns (p : Nat)
  /-- A plane of JIS X 0213. -/
  | jisx0213 (p : Nat)
  /-- The right half of ISO-8859-1 and of ISO-8859-7, with the bytes from `lo` on. -/
  | latin1 (lo : Nat)
  | greek (lo : Nat)

/-- A byte with the highest bit set. -/
def hi (x : Byte) : Byte := u8 (x.toNat + 0x80)

/-- The bytes of two-byte characters. -/
def Graphic (x : Byte) : Prop := 0x21 ≤ x.toNat ∧ x.toNat < 0x7f

/-- The published table has the bytes with one character. -/
def Listed (r : MbRow) (b : List Byte) (w : List Nat) : Prop := ∃ wc, (b, wc) ∈ r.table ∧ w = [wc]

/-- The published table has the bytes with one or two characters. -/
def Listed2 (r : PairRow) (b : List Byte) (w : List Nat) : Prop :=
  (∃ wc, (b, wc) ∈ r.table ∧ w = [wc]) ∨ ∃ c1 c2, (b, c1, c2) ∈ r.pairs ∧ w = [c1, c2]

/-- In the set, the bytes stand for the characters. -/
def Set.Chars : Set → List Byte → List Nat → Prop
  | ascii, b, w => ∃ x : Byte, x.toNat < 0x80 ∧ b = [x] ∧ w = [x.toNat]
  | roman, b, w => ∃ x : Byte, x.toNat < 0x80 ∧ b = [x] ∧
      w = [if x.toNat = 0x5c then 0xa5 else if x.toNat = 0x7e then 0x203e else x.toNat]
  | kana, b, w => ∃ x : Byte, 0x21 ≤ x.toNat ∧ x.toNat ≤ 0x5f ∧ b = [x] ∧ w = [x.toNat + 0xff40]
  | jisx0208, b, w => Listed jisx0208_mbrow b w
  | jisx0212, b, w => Listed jisx0212_mbrow b w
  | gb2312, b, w => Listed gb2312_mbrow b w
  | ksc5601, b, w => Listed ksc5601_mbrow b w
  | isoir165, b, w => Listed isoir165_mbrow b w
  | cns p, b, w => ∃ x y, Graphic x ∧ Graphic y ∧ b = [x, y] ∧
      Listed euc_tw_row [0x8e, u8 (0xa0 + p), hi x, hi y] w
  | jisx0213 p, b, w => ∃ x y, Graphic x ∧ Graphic y ∧ b = [x, y] ∧
      Listed2 euc_jx_prow (if p = 1 then [hi x, hi y] else [0x8f, hi x, hi y]) w
  | latin1 lo, b, w => ∃ x : Byte, lo ≤ x.toNat ∧ x.toNat < 0x80 ∧ b = [x] ∧ w = [x.toNat + 0x80]
  | greek lo, b, w => ∃ (x : Byte) (wc : Nat), lo ≤ x.toNat ∧ x.toNat < 0x80 ∧ b = [x] ∧
      (x.toNat + 0x80, wc) ∈ iso8859_7_from ∧ w = [wc]

/-- The registers; `so` after SO. -/
structure Regs where
  g0 : Set
  g1 : Option Set
  g2 : Option Set
  g3 : Option Set
  so : Bool

/-- A text begins with ASCII in G0. -/
def Regs.init : Regs := ⟨.ascii, none, none, none, false⟩

inductive Reg where
  | G0 | G1 | G2 | G3

/-- Designate a character set to a register. -/
def Regs.set (g : Regs) : Reg → Set → Regs
  | .G0, x => { g with g0 := x }
  | .G1, x => { g with g1 := some x }
  | .G2, x => { g with g2 := some x }
  | .G3, x => { g with g3 := some x }

/-- The set that bytes are read in. -/
def Regs.current (g : Regs) : Option Set := if g.so then g.g1 else some g.g0

/-- An encoding: its designations, whether it has SO and SI, whether the designations to G1, G2, G3 end
with the line. -/
structure Profile where
  desig : List (List Byte × Reg × Set)
  shifts : Bool
  lines : Bool

/-- The bytes that do not stand for characters by themselves. -/
def Profile.control (P : Profile) : List Byte := if P.shifts then [0x1b, 0x0e, 0x0f] else [0x1b]

/-- The registers after the bytes `b` of a character. -/
def Profile.after (P : Profile) (g : Regs) (b : List Byte) : Regs :=
  if P.lines ∧ (b = [0x0a] ∨ b = [0x0d]) then { g with g1 := none, g2 := none, g3 := none } else g

/-- One element of a text: the bytes, the characters they stand for, and the registers before and after. -/
inductive Profile.Step (P : Profile) : Regs → List Byte → List Nat → Regs → Prop
  | desig (g e r x) : (e, r, x) ∈ P.desig → P.Step g e [] (g.set r x)
  | so (g) : P.shifts = true → g.g1 ≠ none → P.Step g [0x0e] [] { g with so := true }
  | si (g) : P.shifts = true → P.Step g [0x0f] [] { g with so := false }
  | char (g x b w) : g.current = some x → x.Chars b w → (∀ c ∈ b, c ∉ P.control) → P.Step g b w (P.after g b)
  | ss2 (g x b w) : g.g2 = some x → x.Chars b w → P.Step g (0x1b :: 0x4e :: b) w g
  | ss3 (g x b w) : g.g3 = some x → x.Chars b w → P.Step g (0x1b :: 0x4f :: b) w g

/-- A text read in steps from the state `g`: `Step g b w g'` says that in the state `g` the bytes `b` stand for the
characters `w` and leave the state `g'`. -/
inductive Reads {R : Type} (Step : R → List Byte → List Nat → R → Prop) : R → List Byte → List Nat → Prop
  | nil (g) : Reads Step g [] []
  | step {g b w g' s ws} : Step g b w g' → Reads Step g' s ws → Reads Step g (b ++ s) (w ++ ws)

/-! ## The encodings -/

/-- RFC 1557. -/
def kr : Profile where
  desig := [([0x1b, 0x24, 0x29, 0x43], .G1, .ksc5601)]
  shifts := true
  lines := false

/-- RFC 1922. -/
def cn : Profile where
  desig := [([0x1b, 0x24, 0x29, 0x41], .G1, .gb2312), ([0x1b, 0x24, 0x29, 0x47], .G1, .cns 1),
    ([0x1b, 0x24, 0x2a, 0x48], .G2, .cns 2)]
  shifts := true
  lines := true

/-- RFC 1922. -/
def cnExt : Profile where
  desig := [([0x1b, 0x24, 0x29, 0x41], .G1, .gb2312), ([0x1b, 0x24, 0x29, 0x47], .G1, .cns 1),
    ([0x1b, 0x24, 0x29, 0x45], .G1, .isoir165), ([0x1b, 0x24, 0x2a, 0x48], .G2, .cns 2),
    ([0x1b, 0x24, 0x2b, 0x49], .G3, .cns 3), ([0x1b, 0x24, 0x2b, 0x4a], .G3, .cns 4),
    ([0x1b, 0x24, 0x2b, 0x4b], .G3, .cns 5), ([0x1b, 0x24, 0x2b, 0x4c], .G3, .cns 6),
    ([0x1b, 0x24, 0x2b, 0x4d], .G3, .cns 7)]
  shifts := true
  lines := true

/-- RFC 1468. -/
def jp : Profile where
  desig := [([0x1b, 0x28, 0x42], .G0, .ascii), ([0x1b, 0x28, 0x4a], .G0, .roman),
    ([0x1b, 0x24, 0x40], .G0, .jisx0208), ([0x1b, 0x24, 0x42], .G0, .jisx0208)]
  shifts := false
  lines := false

/-- RFC 2237. -/
def jp1 : Profile where
  desig := jp.desig ++ [([0x1b, 0x24, 0x28, 0x44], .G0, .jisx0212)]
  shifts := false
  lines := false

/-- RFC 1554, with `lo = 0x20` and without `kana`: the sets of 96 characters have the bytes 0x20 to 0x7f, and there is
no designation of JIS X 0201 Kana. -/
def jp2 (lo : Nat) (kana : Bool) : Profile where
  desig := jp1.desig ++ [([0x1b, 0x24, 0x41], .G0, .gb2312), ([0x1b, 0x24, 0x28, 0x43], .G0, .ksc5601),
    ([0x1b, 0x2e, 0x41], .G2, .latin1 lo), ([0x1b, 0x2e, 0x46], .G2, .greek lo)] ++
    (if kana then [([0x1b, 0x28, 0x49], .G0, .kana)] else [])
  shifts := false
  lines := true

/-- JIS X 0213:2000 and its amendment of 2004 (final byte 0x51). -/
def jp3 : Profile where
  desig := jp.desig ++ [([0x1b, 0x28, 0x49], .G0, .kana), ([0x1b, 0x24, 0x28, 0x4f], .G0, .jisx0213 1),
    ([0x1b, 0x24, 0x28, 0x51], .G0, .jisx0213 1), ([0x1b, 0x24, 0x28, 0x50], .G0, .jisx0213 2)]
  shifts := false
  lines := false

/-! ## HZ (RFC 1843) -/

/-- One element of an HZ text. The state is true between `~{` and `~}`. With `eight`, bytes outside of ASCII stand for
themselves (RFC 1843 has no such bytes). -/
inductive HzStep (eight : Bool) : Bool → List Byte → List Nat → Bool → Prop
  | char (c : Byte) : c ≠ 0x7e → (eight = true ∨ c.toNat < 0x80) → HzStep eight false [c] [c.toNat] false
  | tilde : HzStep eight false [0x7e, 0x7e] [0x7e] false
  | enter : HzStep eight false [0x7e, 0x7b] [] true
  | line : HzStep eight false [0x7e, 0x0a] [] false
  | leave : HzStep eight true [0x7e, 0x7d] [] false
  | gb (b w) : Set.gb2312.Chars b w → HzStep eight true b w true

end Reiconv.Iso
