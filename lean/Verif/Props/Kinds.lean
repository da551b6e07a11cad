import Verif.Props.Registry
import Verif.Props.Pair
import Verif.Props.RoundTrip

/-!
# The registered encodings by kind

Every member of `targets` is one of the encodings treated in `Props/Single`, `Props/MultiRows`, `Props/Pair`,
`Props/Shift`, `Props/RoundTrip`, or one of nine others.
-/

namespace Reiconv

/-- The encodings with byte order marks or escapes, and those with combining characters. -/
noncomputable def otherEntries : List Entry :=
  [ucs2_entry, ucs4_entry, utf16_entry, utf32_entry, c99_entry, java_entry, cp1255_entry, cp1258_entry, tcvn_entry]

/-- The kinds of encodings. -/
inductive Kind (B : Entry) : Prop
  | single (r : SbRow) (h : r ∈ singleRows) (e : r.entry = B)
  | multi (r : MbRow) (h : r ∈ mbRows) (e : r.entry = B)
  | uni (h : B ∈ exactUni)
  | pair (r : PairRow) (h : r ∈ pairRows) (e : r.entry = B)
  | shift (r : ShiftRow) (h : r ∈ shiftRows) (e : r.entry = B)
  | other (h : B ∈ otherEntries)

theorem is_single {B : Entry} (k : Nat) (h : singleRows[k]?.map (·.entry) = some B) : Kind B := by
  obtain ⟨r, h1, h2⟩ := Option.map_eq_some_iff.1 h
  exact .single r (List.mem_of_getElem? h1) h2

theorem is_multi {B : Entry} (k : Nat) (h : mbRows[k]?.map (·.entry) = some B) : Kind B := by
  obtain ⟨r, h1, h2⟩ := Option.map_eq_some_iff.1 h
  exact .multi r (List.mem_of_getElem? h1) h2

theorem is_pair {B : Entry} (k : Nat) (h : pairRows[k]?.map (·.entry) = some B) : Kind B := by
  obtain ⟨r, h1, h2⟩ := Option.map_eq_some_iff.1 h
  exact .pair r (List.mem_of_getElem? h1) h2

theorem is_shift {B : Entry} (k : Nat) (h : shiftRows[k]?.map (·.entry) = some B) : Kind B := by
  obtain ⟨r, h1, h2⟩ := Option.map_eq_some_iff.1 h
  exact .shift r (List.mem_of_getElem? h1) h2

theorem is_uni {B : Entry} (k : Nat) (h : exactUni[k]? = some B) : Kind B := .uni (List.mem_of_getElem? h)

theorem is_other {B : Entry} (k : Nat) (h : otherEntries[k]? = some B) : Kind B := .other (List.mem_of_getElem? h)

set_option maxRecDepth 10000 in
/-- Every registered target has a kind. -/
theorem targets_kinds : ∀ B ∈ targets, Kind B :=
  all_cons (is_single 0 rfl) <| all_cons (is_uni 0 rfl) <| all_cons (is_other 0 rfl) <|
  all_cons (is_uni 5 rfl) <| all_cons (is_uni 6 rfl) <| all_cons (is_other 1 rfl) <| all_cons (is_uni 9 rfl) <|
  all_cons (is_uni 10 rfl) <| all_cons (is_other 2 rfl) <| all_cons (is_uni 1 rfl) <|
  all_cons (is_uni 2 rfl) <| all_cons (is_other 3 rfl) <| all_cons (is_uni 3 rfl) <| all_cons (is_uni 4 rfl) <|
  all_cons (is_shift 9 rfl) <| all_cons (is_uni 7 rfl) <| all_cons (is_uni 8 rfl) <|
  all_cons (is_uni 11 rfl) <| all_cons (is_uni 12 rfl) <| all_cons (is_other 4 rfl) <|
  all_cons (is_other 5 rfl) <| all_cons (is_multi 3 rfl) <| all_cons (is_multi 4 rfl) <|
  all_cons (is_multi 5 rfl) <| all_cons (is_shift 4 rfl) <| all_cons (is_shift 5 rfl) <|
  all_cons (is_shift 6 rfl) <| all_cons (is_shift 8 rfl) <| all_cons (is_multi 8 rfl) <|
  all_cons (is_multi 9 rfl) <| all_cons (is_multi 10 rfl) <| all_cons (is_multi 11 rfl) <|
  all_cons (is_shift 2 rfl) <| all_cons (is_shift 3 rfl) <| all_cons (is_shift 0 rfl) <|
  all_cons (is_multi 16 rfl) <| all_cons (is_multi 12 rfl) <| all_cons (is_multi 13 rfl) <|
  all_cons (is_pair 0 rfl) <| all_cons (is_pair 1 rfl) <| all_cons (is_pair 2 rfl) <|
  all_cons (is_pair 3 rfl) <| all_cons (is_multi 0 rfl) <| all_cons (is_multi 1 rfl) <|
  all_cons (is_multi 2 rfl) <| all_cons (is_shift 1 rfl) <| all_cons (is_multi 7 rfl) <|
  all_cons (is_multi 15 rfl) <| all_cons (is_single 1 rfl) <| all_cons (is_single 51 rfl) <|
  all_cons (is_single 52 rfl) <| all_cons (is_single 53 rfl) <| all_cons (is_single 54 rfl) <|
  all_cons (is_single 55 rfl) <| all_cons (is_single 56 rfl) <| all_cons (is_single 57 rfl) <|
  all_cons (is_single 58 rfl) <| all_cons (is_single 45 rfl) <| all_cons (is_single 46 rfl) <|
  all_cons (is_single 47 rfl) <| all_cons (is_single 48 rfl) <| all_cons (is_single 49 rfl) <|
  all_cons (is_single 50 rfl) <| all_cons (is_single 60 rfl) <| all_cons (is_single 63 rfl) <|
  all_cons (is_single 61 rfl) <| all_cons (is_single 13 rfl) <| all_cons (is_single 14 rfl) <|
  all_cons (is_single 15 rfl) <| all_cons (is_single 16 rfl) <| all_cons (is_single 17 rfl) <|
  all_cons (is_other 6 rfl) <| all_cons (is_single 18 rfl) <| all_cons (is_single 19 rfl) <|
  all_cons (is_other 7 rfl) <| all_cons (is_single 23 rfl) <| all_cons (is_single 32 rfl) <|
  all_cons (is_single 36 rfl) <| all_cons (is_single 8 rfl) <| all_cons (is_single 71 rfl) <|
  all_cons (is_single 65 rfl) <| all_cons (is_single 70 rfl) <| all_cons (is_single 66 rfl) <|
  all_cons (is_single 72 rfl) <| all_cons (is_single 67 rfl) <| all_cons (is_single 75 rfl) <|
  all_cons (is_single 68 rfl) <| all_cons (is_single 74 rfl) <| all_cons (is_single 69 rfl) <|
  all_cons (is_single 64 rfl) <| all_cons (is_single 73 rfl) <| all_cons (is_single 42 rfl) <|
  all_cons (is_single 77 rfl) <| all_cons (is_single 2 rfl) <| all_cons (is_single 40 rfl) <|
  all_cons (is_single 41 rfl) <| all_cons (is_single 62 rfl) <| all_cons (is_single 78 rfl) <|
  all_cons (is_single 80 rfl) <| all_cons (is_single 76 rfl) <| all_cons (is_single 9 rfl) <|
  all_cons (is_single 82 rfl) <| all_cons (is_single 38 rfl) <| all_cons (is_single 83 rfl) <|
  all_cons (is_other 8 rfl) <| all_cons (is_single 44 rfl) <| all_cons (is_single 59 rfl) <|
  all_cons (is_multi 20 rfl) <| all_cons (is_multi 21 rfl) <| all_cons (is_single 43 rfl) <|
  all_cons (is_multi 18 rfl) <| all_cons (is_multi 17 rfl) <| all_cons (is_multi 19 rfl) <|
  all_cons (is_single 27 rfl) <| all_cons (is_single 39 rfl) <| all_cons (is_multi 6 rfl) <|
  all_cons (is_single 4 rfl) <| all_cons (is_single 5 rfl) <| all_cons (is_single 7 rfl) <|
  all_cons (is_single 10 rfl) <| all_cons (is_single 11 rfl) <| all_cons (is_single 12 rfl) <|
  all_cons (is_single 20 rfl) <| all_cons (is_single 21 rfl) <| all_cons (is_single 22 rfl) <|
  all_cons (is_single 24 rfl) <| all_cons (is_single 25 rfl) <| all_cons (is_single 26 rfl) <|
  all_cons (is_single 28 rfl) <| all_cons (is_single 29 rfl) <| all_cons (is_single 30 rfl) <|
  all_cons (is_single 31 rfl) <| all_cons (is_single 33 rfl) <| all_cons (is_single 34 rfl) <|
  all_cons (is_single 35 rfl) <| all_cons (is_single 37 rfl) <| all_cons (is_single 6 rfl) <|
  all_cons (is_single 84 rfl) <| all_cons (is_single 117 rfl) <| all_cons (is_single 118 rfl) <|
  all_cons (is_single 119 rfl) <| all_cons (is_single 120 rfl) <| all_cons (is_single 121 rfl) <|
  all_cons (is_single 122 rfl) <| all_cons (is_single 123 rfl) <| all_cons (is_single 124 rfl) <|
  all_cons (is_single 125 rfl) <| all_cons (is_single 126 rfl) <| all_cons (is_single 127 rfl) <|
  all_cons (is_single 129 rfl) <| all_cons (is_single 130 rfl) <| all_cons (is_single 131 rfl) <|
  all_cons (is_single 132 rfl) <| all_cons (is_single 133 rfl) <| all_cons (is_single 134 rfl) <|
  all_cons (is_single 135 rfl) <| all_cons (is_single 136 rfl) <| all_cons (is_single 85 rfl) <|
  all_cons (is_single 86 rfl) <| all_cons (is_single 87 rfl) <| all_cons (is_single 88 rfl) <|
  all_cons (is_single 89 rfl) <| all_cons (is_single 90 rfl) <| all_cons (is_single 91 rfl) <|
  all_cons (is_single 92 rfl) <| all_cons (is_single 93 rfl) <| all_cons (is_single 94 rfl) <|
  all_cons (is_single 95 rfl) <| all_cons (is_single 96 rfl) <| all_cons (is_single 97 rfl) <|
  all_cons (is_single 98 rfl) <| all_cons (is_single 99 rfl) <| all_cons (is_single 100 rfl) <|
  all_cons (is_single 101 rfl) <| all_cons (is_single 102 rfl) <| all_cons (is_single 103 rfl) <|
  all_cons (is_single 104 rfl) <| all_cons (is_single 105 rfl) <| all_cons (is_single 106 rfl) <|
  all_cons (is_single 107 rfl) <| all_cons (is_single 108 rfl) <| all_cons (is_single 109 rfl) <|
  all_cons (is_single 110 rfl) <| all_cons (is_single 111 rfl) <| all_cons (is_single 112 rfl) <|
  all_cons (is_single 113 rfl) <| all_cons (is_single 114 rfl) <| all_cons (is_single 128 rfl) <|
  all_cons (is_single 115 rfl) <| all_cons (is_single 116 rfl) <| all_cons (is_pair 4 rfl) <|
  all_cons (is_pair 5 rfl) <| all_cons (is_shift 7 rfl) <| all_cons (is_multi 14 rfl) <|
  all_cons (is_single 81 rfl) <| all_cons (is_single 3 rfl) <| all_cons (is_single 79 rfl) <| all_nil

end Reiconv
