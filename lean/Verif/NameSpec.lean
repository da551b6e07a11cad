import Verif.Lookup

/-!
# Names: specification

When two names count as the same, which names are declared, and where the lookup table differs from the
declarations.
-/

namespace Reiconv

/-- The ASCII letter case of a byte, folded to lower case. -/
def lowerCase (c : Byte) : Byte := if 0x41 ≤ c.toNat ∧ c.toNat ≤ 0x5a then u8 (c.toNat + 0x20) else c

/-- Two names differ only in ASCII case, in hyphens and in underscores. -/
inductive SameName : List Byte → List Byte → Prop where
  | nil : SameName [] []
  | left {c s t} : c = 0x2d ∨ c = 0x5f → SameName s t → SameName (c :: s) t
  | right {c s t} : c = 0x2d ∨ c = 0x5f → SameName s t → SameName s (c :: t)
  | both {c d s t} : lowerCase c = lowerCase d → SameName s t → SameName (c :: s) (d :: t)

/-- `n` is declared as a name of encoding number `i` in `lib/encodings.h.snippet`. -/
def Declared (n : String) (i : Nat) : Prop := ∃ l, declaredNames[i]? = some l ∧ n ∈ l

/-- Declared names that the lookup does not find, or finds for another encoding. -/
def lostNames : List (String × Nat) :=
  [("UNICODEFFFE", ei_ucs2be), ("CP50220", ei_iso2022_jp), ("50220", ei_iso2022_jp),
    ("CP50222", ei_iso2022_jp), ("50222", ei_iso2022_jp), ("CP50227", ei_iso2022_cn),
    ("50227", ei_iso2022_cn), ("XCP50227", ei_iso2022_cn), ("KSC56011987", ei_cp949),
    ("ISO88598I", ei_iso8859_8), ("IBM921", ei_iso8859_13), ("CP28603", ei_iso8859_13),
    ("CSISO885915", ei_iso8859_15), ("CP28605", ei_iso8859_15)]

/-- Names that the lookup finds although they are not declared: two literals without a comma between
them. -/
def extraNames : List (String × Nat) :=
  [("IBM921CP28603", ei_iso8859_13), ("CSISO885915CP28605", ei_iso8859_15)]

end Reiconv
