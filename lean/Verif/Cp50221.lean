import Verif.Iso2022

/-!
# CP50221: a specification

The structure of CP50221 as the comment at the head of its converter describes it
(`lib/converters/iso2022_jpms.h:25-84`): ASCII, JIS X 0201 Katakana, and two sets that extend JIS X 0208 and JIS X 0212.
The extension of JIS X 0208 consists of characters of CP932: a row and column stand for the character that CP932 has
at the corresponding two bytes.
-/

namespace Reiconv.Cp50221

open Iso (Listed Graphic)

/-- The character sets. -/
inductive Cset where
  | ascii | roman | kana | jisx0208 | jisx0212

/-- The bytes of CP932 for a row and a column of JIS X 0208. -/
def cp932Bytes (x y : Byte) : List Byte :=
  [u8 ((x.toNat - 0x21) / 2 + if x.toNat - 0x21 < 62 then 0x81 else 0xc1),
   u8 (if (x.toNat - 0x21) % 2 = 1 then y.toNat - 0x21 + 0x9f
     else if y.toNat - 0x21 < 63 then y.toNat - 0x21 + 0x40 else y.toNat - 0x21 + 0x41)]

/-- What the converter does differently: `shifts`, SO and SI have no effect (instead of being errors) where they are not
expected; `quote`, the character of row 13 column 64. -/
structure Variant where
  shifts : Bool
  quote : Nat

/-- The documented encoding; CP932 has U+301D in row 13 column 64. -/
def documented : Variant := ⟨false, 0x301d⟩

/-- The converter. -/
def implemented : Variant := ⟨true, 0x301e⟩

/-- The extended JIS X 0208: row 13 has the characters of CP932 that JIS X 0208 does not have; the rows from 85 on have
those of CP932 and for the rest the private use area from U+E000. -/
def In0208 (v : Variant) (x y : Byte) (wc : Nat) : Prop :=
  if x.toNat = 0x2d then ∃ c, Listed cp932_row (cp932Bytes x y) [c] ∧ (∀ b, ¬ Listed jisx0208_mbrow b [c]) ∧
    wc = if c = 0x301d then v.quote else c
  else if x.toNat < 0x75 then Listed jisx0208_mbrow [x, y] [wc]
  else Listed cp932_row (cp932Bytes x y) [wc] ∨
    (∀ c, ¬ Listed cp932_row (cp932Bytes x y) [c]) ∧ wc = 0xe000 + ((x.toNat - 0x75) * 94 + (y.toNat - 0x21))

/-- The extension of JIS X 0212, counted from row 83 column 1 (`lib/converters/cp50221_0212_ext.h:30-72`; there is no
published table in the repository). -/
def rows0212 : List (Nat × Nat) :=
  (List.range 10).map (fun i => (i, 0x2170 + i)) ++
  [(20, 0xff07), (21, 0xff02), (25, 0x70bb), (26, 0x4efc), (27, 0x50f4), (28, 0x51ec), (29, 0x5307), (30, 0x5324),
   (31, 0xfa0e), (32, 0x548a), (33, 0x5759), (34, 0xfa0f), (35, 0xfa10), (36, 0x589e), (37, 0x5bec), (38, 0x5cf5),
   (39, 0x5d53), (40, 0xfa11), (41, 0x5fb7), (42, 0x6085), (43, 0x6120), (44, 0x654e), (46, 0x6665), (47, 0xfa12),
   (48, 0xf929), (49, 0x6801), (50, 0xfa13), (51, 0xfa14), (52, 0x6a6b), (53, 0x6ae2), (54, 0x6df8), (55, 0x6df2),
   (56, 0x7028), (57, 0xfa15), (58, 0xfa16), (59, 0x7501), (60, 0x7682), (61, 0x769e), (62, 0xfa17), (63, 0x7930),
   (64, 0xfa18), (65, 0xfa19), (66, 0xfa1a), (67, 0xfa1b), (68, 0x7ae7), (69, 0xfa1c), (70, 0xfa1d), (71, 0x7da0),
   (72, 0x7dd6), (73, 0xfa1e), (74, 0x8362), (75, 0xfa1f), (76, 0x85b0), (77, 0xfa20), (78, 0xfa21), (79, 0x8807),
   (80, 0xfa22), (81, 0x8b7f), (82, 0x8cf4), (83, 0x8d76), (84, 0xfa23), (85, 0xfa24), (86, 0xfa25), (87, 0x90de),
   (88, 0xfa26), (89, 0x9115), (90, 0xfa27), (91, 0xfa28), (92, 0x9592), (93, 0xf9dc), (94, 0xfa29), (95, 0x973b),
   (97, 0x9751), (98, 0xfa2a), (99, 0xfa2b), (100, 0xfa2c), (101, 0x999e), (102, 0x9ad9), (103, 0x9b72), (104, 0xfa2d),
   (105, 0x9ed1), (160, 0x974d)]

/-- The extended JIS X 0212: rows 83 and 84, and the private use area from U+E3AC in the rows from 85 on. -/
def In0212 (x y : Byte) (wc : Nat) : Prop :=
  if x.toNat < 0x73 then Listed jisx0212_mbrow [x, y] [wc]
  else if x.toNat < 0x75 then ((x.toNat - 0x73) * 94 + (y.toNat - 0x21), wc) ∈ rows0212
  else wc = 0xe3ac + ((x.toNat - 0x75) * 94 + (y.toNat - 0x21))

/-- In the set, the bytes stand for the characters. -/
def Cset.Chars (v : Variant) : Cset → List Byte → List Nat → Prop
  | ascii, b, w => Iso.Set.ascii.Chars b w
  | roman, b, w => Iso.Set.roman.Chars b w
  | kana, b, w => Iso.Set.kana.Chars b w
  | jisx0208, b, w => ∃ x y wc, Graphic x ∧ Graphic y ∧ b = [x, y] ∧ w = [wc] ∧ In0208 v x y wc
  | jisx0212, b, w => ∃ x y wc, Graphic x ∧ Graphic y ∧ b = [x, y] ∧ w = [wc] ∧ In0212 x y wc

/-- The escape sequences. -/
def escapes : List (List Byte × Cset) :=
  [([0x1b, 0x28, 0x42], .ascii), ([0x1b, 0x28, 0x4a], .roman), ([0x1b, 0x28, 0x49], .kana),
   ([0x1b, 0x24, 0x40], .jisx0208), ([0x1b, 0x24, 0x42], .jisx0208), ([0x1b, 0x24, 0x28, 0x44], .jisx0212)]

/-- One element of a text. SO and SI turn JIS X 0201 Roman into Katakana and back. -/
inductive Step (v : Variant) : Cset → List Byte → List Nat → Cset → Prop
  | esc (g e x) : (e, x) ∈ escapes → Step v g e [] x
  | so : Step v .roman [0x0e] [] .kana
  | si : Step v .kana [0x0f] [] .roman
  | noSo (g) : v.shifts = true → g ≠ .roman → Step v g [0x0e] [] g
  | noSi (g) : v.shifts = true → g ≠ .kana → Step v g [0x0f] [] g
  | char (g b w) : g.Chars v b w → (∀ c ∈ b, c ≠ 0x1b ∧ c ≠ 0x0e ∧ c ≠ 0x0f) → Step v g b w g

end Reiconv.Cp50221
