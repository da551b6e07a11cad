import Verif.Props.Join
import Verif.Props.Ascii

/-!
# Texts that tell encodings apart

41 byte strings such that, for any two encodings of which the second one does not extend the first one, one of them is a text of
the first encoding that the second one does not read, or reads as other characters.
-/

namespace Reiconv.Ext

/-- Reads a text: `none` if that takes more than `fuel` steps, `some none` if it is not a text. -/
def rd (atom : IState → List Byte → Atom) : Nat → IState → List Byte → Option (Option (List Nat × IState))
  | _, is, [] => some (some ([], is))
  | 0, _, _ => none
  | fuel + 1, is, b :: s =>
    match atom is (b :: s) with
    | .char wc n is' => (rd atom fuel is' ((b :: s).drop n)).map (Option.map fun x => (wc :: x.1, x.2))
    | .shift n is' => rd atom fuel is' ((b :: s).drop n)
    | _ => some none

theorem rd_sound {atom : IState → List Byte → Atom} : ∀ {fuel is s} {o : Option (List Nat × IState)},
    rd atom fuel is s = some o → ∀ cs is', Chars atom is s cs is' ↔ o = some (cs, is') := by
  intro fuel
  induction fuel with
  | zero =>
    intro is s o h cs is'
    cases s with
    | nil =>
      simp only [rd, Option.some.injEq] at h
      subst h
      constructor
      · intro hc; cases hc <;> first | rfl | contradiction
      · intro he; cases he; exact .nil _
    | cons b s => simp [rd] at h
  | succ fuel ih =>
    intro is s o h cs is'
    cases s with
    | nil =>
      simp only [rd, Option.some.injEq] at h
      subst h
      constructor
      · intro hc; cases hc <;> first | rfl | contradiction
      · intro he; cases he; exact .nil _
    | cons b s =>
      simp only [rd] at h
      split at h
      · next wc n is1 ha =>
        obtain ⟨o1, h1, rfl⟩ := Option.map_eq_some_iff.1 h
        constructor
        · intro hc
          cases hc with
          | char _ ha' hr =>
            rw [ha] at ha'
            cases ha'
            rw [(ih h1 _ _).1 hr]; rfl
          | shift _ ha' _ => rw [ha] at ha'; cases ha'
        · intro he
          obtain ⟨x, rfl, he⟩ := Option.map_eq_some_iff.1 he
          cases he
          exact .char (by simp) ha ((ih h1 _ _).2 rfl)
      · next n is1 ha =>
        constructor
        · intro hc
          cases hc with
          | char _ ha' _ => rw [ha] at ha'; cases ha'
          | shift _ ha' hr =>
            rw [ha] at ha'
            cases ha'
            exact (ih h _ _).1 hr
        · intro he
          exact .shift (by simp) ha ((ih h _ _).2 he)
      · next h1 h2 =>
        cases h
        constructor
        · intro hc
          cases hc with
          | char _ ha' _ => exact absurd ha' (h1 _ _ _)
          | shift _ ha' _ => exact absurd ha' (h2 _ _)
        · intro he; cases he

/-- A checksum of characters. -/
def hash (cs : List Nat) : Nat := cs.foldl (fun a c => (a * 257 + c) % 65521) 1 + 2

/-- What is read: 0 if that is not known, 1 if nothing, and otherwise the checksum of the characters. -/
def code (A : Entry) (p : List Byte) : Nat :=
  match rd A.atom 16 IState.init p with
  | none => 0
  | some none => 1
  | some (some x) => hash (x.1 ++ A.dec.kept x.2)

theorem hash_ge (cs : List Nat) : 2 ≤ hash cs := by unfold hash; omega

theorem code_some {A : Entry} {p : List Byte} (h : 2 ≤ code A p) :
    ∃ cs, A.Text p cs ∧ code A p = hash cs := by
  unfold code at h ⊢
  split at h
  · omega
  · omega
  · next x hx => exact ⟨_, ⟨x.1, x.2, (rd_sound hx _ _).2 rfl, rfl⟩, rfl⟩

theorem code_none {A : Entry} {p : List Byte} (h : code A p = 1) (cs : List Nat) : ¬ A.Text p cs := by
  unfold code at h
  split at h
  · omega
  · next hx =>
    rintro ⟨ds, is, hc, _⟩
    exact absurd ((rd_sound hx _ _).1 hc) (by simp)
  · next x _ =>
    have := hash_ge (x.1 ++ A.dec.kept x.2)
    omega

/-- The texts. -/
def probes : List (List Byte) :=
  [[0xc2, 0xcb, 0xc2, 0xc1], [0x1b, 0x28, 0x4a, 0x7e],
   [0x5c, 0x55, 0x30, 0x30, 0x30, 0x31, 0x46, 0x36, 0x30, 0x30], [0xf0, 0x9f, 0x98, 0x80],
   [0x00, 0x00, 0xfe, 0xff, 0x00, 0x00, 0x00, 0x41], [0x0f], [0x00, 0xf6, 0x01, 0x00], [0x2b, 0x21],
   [0x8e, 0xa2, 0xa1, 0xa1], [0x88, 0x62], [0xbe], [0xd8, 0x00, 0xdc, 0x00], [0xa1, 0xa4], [0xe1],
   [0xc7, 0xf3], [0x80], [0x5a], [0x82, 0x35, 0x90, 0x37], [0xa1, 0xbd], [0x87, 0x40],
   [0x5c, 0x75, 0x30, 0x30, 0x65, 0x39], [0x1b, 0x28, 0x49, 0x21],
   [0x1b, 0x24, 0x29, 0x41, 0x0e, 0x30, 0x21], [0x1b, 0x24, 0x28, 0x44, 0x22, 0x2f],
   [0x1b, 0x24, 0x29, 0x43, 0x0e, 0x30, 0x21], [0x02], [0x9b], [0xd5], [0x00, 0xd8, 0x00, 0xdc],
   [0xa1, 0x56], [0x25], [0xee], [0xfc], [0xa2, 0xe8], [0xf9, 0xd6], [0x8c, 0x40], [0x87, 0x7a],
   [0x28, 0x21], [0x7e, 0x7b, 0x21, 0x21, 0x7e, 0x7d], [0x1b, 0x24, 0x28, 0x4f, 0x21, 0x21],
   [0x1b, 0x24, 0x29, 0x45, 0x0e, 0x21, 0x21]]

set_option maxRecDepth 100000 in
/-- What each encoding reads, by the numbers of the encodings. -/
def sigs : List (Nat × List Nat) :=
  [(31, [61524, 51582, 7348, 37209, 1, 274, 1, 11614, 50628, 22601, 1, 1, 442, 1, 27973, 1, 349, 41143, 12570, 22281, 63978, 51232, 19820, 58236, 29128, 261, 1, 1, 1, 58847, 296, 1, 1, 13094, 58314, 23627, 22368, 10843, 36753, 63773, 34581]),
   (0, [1, 51582, 7348, 1, 1, 274, 1, 11614, 1, 1, 1, 1, 1, 1, 1, 1, 349, 1, 1, 1, 63978, 51232, 19820, 58236, 29128, 261, 1, 1, 1, 1, 296, 1, 1, 1, 1, 1, 1, 10843, 36753, 63773, 34581]),
   (1, [1, 51582, 7348, 63250, 1, 274, 1, 11614, 1, 1, 1, 1, 1, 1, 1, 1, 349, 1, 1, 1, 63978, 51232, 19820, 58236, 29128, 261, 1, 1, 1, 1, 296, 1, 1, 1, 1, 1, 1, 10843, 36753, 63773, 34581]),
   (2, [24090, 37197, 29280, 14431, 4721, 1, 64008, 11300, 56502, 35173, 1, 1, 41639, 1, 51446, 1, 1, 20779, 41664, 34883, 38634, 36848, 1, 41091, 1, 1, 1, 1, 56262, 41561, 1, 1, 1, 41963, 64217, 36163, 34941, 10532, 49592, 43648, 1]),
   (3, [24090, 37197, 29280, 14431, 20033, 1, 64008, 11300, 56502, 35173, 1, 1, 41639, 1, 51446, 1, 1, 20779, 41664, 34883, 38634, 36848, 1, 41091, 1, 1, 1, 1, 56262, 41561, 1, 1, 1, 41963, 64217, 36163, 34941, 10532, 49592, 43648, 1]),
   (4, [23961, 50639, 35209, 7177, 40206, 1, 1676, 8750, 56782, 25483, 1, 56262, 42404, 1, 62666, 1, 1, 62527, 48804, 16778, 51843, 26830, 1, 11659, 1, 1, 1, 1, 1, 22436, 1, 1, 1, 59813, 55292, 16783, 31626, 8747, 38543, 11055, 1]),
   (5, [1, 58088, 1, 1, 324, 1, 4205, 1, 1, 1, 1, 1, 1, 1, 1, 1, 1, 1, 1, 1, 1, 57739, 1, 1, 1, 1, 1, 1, 3719, 1, 1, 1, 1, 1, 1, 1, 1, 1, 1, 1, 1]),
   (6, [11869, 58088, 1, 45990, 3922, 1, 4205, 1, 65178, 1, 1, 34246, 1, 1, 1, 1, 1, 13005, 1, 1, 1, 57739, 1, 1, 1, 1, 1, 1, 3719, 1, 1, 1, 1, 1, 1, 1, 1, 1, 1, 1, 1]),
   (7, [10199, 36829, 1, 10835, 38161, 1, 63250, 1, 7318, 1, 1, 3775, 1, 1, 1, 1, 1, 30754, 1, 1, 1, 7299, 1, 1, 1, 1, 1, 1, 48582, 1, 1, 1, 1, 1, 1, 1, 1, 1, 1, 1, 1]),
   (8, [24090, 37197, 29280, 14431, 4721, 1, 64008, 11300, 56502, 35173, 1, 274, 41639, 1, 51446, 1, 1, 20779, 41664, 34883, 38634, 36848, 1, 41091, 1, 1, 1, 1, 56262, 41561, 1, 1, 1, 41963, 64217, 36163, 34941, 10532, 49592, 43648, 1]),
   (9, [24090, 37197, 29280, 14431, 20033, 1, 64008, 11300, 56502, 35173, 1, 274, 41639, 1, 51446, 1, 1, 20779, 41664, 34883, 38634, 36848, 1, 41091, 1, 1, 1, 1, 56262, 41561, 1, 1, 1, 41963, 64217, 36163, 34941, 10532, 49592, 43648, 1]),
   (10, [23961, 50639, 35209, 7177, 40206, 1, 1676, 8750, 56782, 25483, 1, 56262, 42404, 1, 62666, 1, 1, 62527, 48804, 16778, 51843, 26830, 1, 11659, 1, 1, 1, 1, 274, 22436, 1, 1, 1, 59813, 55292, 16783, 31626, 8747, 38543, 11055, 1]),
   (11, [1, 1, 1, 1, 324, 1, 1, 1, 1, 1, 1, 1, 1, 1, 1, 1, 1, 1, 1, 1, 1, 1, 1, 1, 1, 1, 1, 1, 1, 1, 1, 1, 1, 1, 1, 1, 1, 1, 1, 1, 1]),
   (12, [1, 1, 1, 1, 3922, 1, 1, 1, 1, 1, 1, 1, 1, 1, 1, 1, 1, 1, 1, 1, 1, 1, 1, 1, 1, 1, 1, 1, 1, 1, 1, 1, 1, 1, 1, 1, 1, 1, 1, 1, 1]),
   (13, [1, 1, 1, 1, 1, 1, 63250, 1, 1, 1, 1, 1, 1, 1, 1, 1, 1, 1, 1, 1, 1, 1, 1, 1, 1, 1, 1, 1, 1, 1, 1, 1, 1, 1, 1, 1, 1, 1, 1, 1, 1]),
   (14, [1, 1, 1, 1, 1, 1, 1, 292, 1, 1, 1, 1, 1, 1, 1, 1, 349, 1, 1, 1, 1, 1, 1, 1, 1, 1, 1, 1, 1, 1, 296, 1, 1, 1, 1, 1, 1, 10843, 1, 1, 1]),
   (15, [23961, 50639, 35209, 7177, 40206, 1, 1676, 8750, 56782, 25483, 1, 56262, 42404, 1, 62666, 1, 1, 62527, 48804, 16778, 51843, 26830, 1, 11659, 1, 1, 1, 1, 1, 22436, 1, 1, 1, 59813, 55292, 16783, 31626, 8747, 38543, 11055, 1]),
   (16, [24090, 37197, 29280, 14431, 20033, 1, 64008, 11300, 56502, 35173, 1, 1, 41639, 1, 51446, 1, 1, 20779, 41664, 34883, 38634, 36848, 1, 41091, 1, 1, 1, 1, 56262, 41561, 1, 1, 1, 41963, 64217, 36163, 34941, 10532, 49592, 43648, 1]),
   (17, [10199, 36829, 1, 10835, 38161, 1, 63250, 1, 7318, 1, 1, 3775, 1, 1, 1, 1, 1, 30754, 1, 1, 1, 7299, 1, 1, 1, 1, 1, 1, 48582, 1, 1, 1, 1, 1, 1, 1, 1, 1, 1, 1, 1]),
   (18, [11869, 58088, 1, 45990, 3922, 1, 4205, 1, 65178, 1, 1, 34246, 1, 1, 1, 1, 1, 13005, 1, 1, 1, 57739, 1, 1, 1, 1, 1, 1, 3719, 1, 1, 1, 1, 1, 1, 1, 1, 1, 1, 1, 1]),
   (19, [1, 51582, 63250, 1, 1, 274, 1, 11614, 1, 35580, 1, 1, 1, 1, 1, 387, 349, 31559, 1, 35289, 492, 51232, 19820, 58236, 29128, 261, 414, 1, 1, 1, 296, 1, 1, 1, 1, 36574, 35347, 10843, 36753, 63773, 34581]),
   (20, [28477, 51582, 7348, 11907, 36528, 274, 15805, 11614, 18392, 35580, 449, 30170, 42071, 484, 51916, 387, 349, 31559, 42096, 35289, 492, 51232, 19820, 58236, 29128, 261, 414, 472, 65449, 41993, 296, 497, 511, 42396, 64737, 36574, 35347, 10843, 36753, 63773, 34581]),
   (21, [19867, 51582, 7348, 1, 1, 274, 1, 11614, 41588, 1, 1, 1, 30, 1, 31895, 1, 349, 1, 8472, 1, 63978, 51232, 19820, 58236, 29128, 261, 1, 1, 1, 1, 296, 1, 1, 9016, 58032, 1, 1, 10843, 36753, 63773, 34581]),
   (22, [7302, 59710, 34551, 1, 1, 274, 1, 11614, 11957, 1, 144, 39298, 28902, 1, 1, 1, 349, 1, 28927, 1, 51256, 51232, 19820, 58236, 29128, 261, 1, 167, 35146, 29129, 296, 1, 1, 1, 59444, 25755, 1, 10843, 32399, 63773, 34581]),
   (23, [7302, 51582, 7348, 1, 1, 274, 1, 11614, 11957, 1, 144, 39298, 28902, 1, 1, 1, 349, 1, 28927, 9571, 63978, 51232, 19820, 58236, 29128, 261, 1, 167, 35146, 29129, 296, 1, 1, 1, 59444, 25755, 1, 10843, 36753, 63773, 34581]),
   (24, [1, 8513, 7348, 1, 1, 274, 1, 11614, 1, 1, 1, 1, 1, 1, 1, 1, 349, 1, 1, 1, 63978, 1, 1, 1, 1, 261, 1, 1, 1, 1, 296, 1, 1, 1, 1, 1, 1, 10843, 36753, 1, 1]),
   (25, [1, 8513, 7348, 1, 1, 274, 1, 11614, 1, 1, 1, 1, 1, 1, 1, 1, 349, 1, 1, 1, 63978, 1, 1, 987, 1, 261, 1, 1, 1, 1, 296, 1, 1, 1, 1, 1, 1, 10843, 36753, 1, 1]),
   (26, [1, 8513, 7348, 1, 1, 274, 1, 11614, 1, 1, 1, 1, 1, 1, 1, 1, 349, 1, 1, 1, 63978, 115, 1, 987, 1, 261, 1, 1, 1, 1, 296, 1, 1, 1, 1, 1, 1, 10843, 36753, 1, 1]),
   (27, [1, 8513, 7348, 1, 1, 3, 1, 11614, 1, 1, 1, 1, 1, 1, 1, 1, 349, 1, 1, 1, 63978, 115, 1, 987, 1, 261, 1, 1, 1, 1, 296, 1, 1, 1, 1, 1, 1, 10843, 36753, 1, 1]),
   (28, [61524, 51582, 7348, 1, 1, 274, 1, 11614, 1, 1, 1, 1, 12798, 1, 27973, 1, 349, 1, 12570, 1, 63978, 51232, 19820, 58236, 29128, 261, 1, 1, 1, 1, 296, 1, 1, 13094, 1, 1, 1, 10843, 36753, 63773, 34581]),
   (29, [61524, 51582, 7348, 37209, 1, 274, 1, 11614, 50628, 22601, 1, 1, 442, 1, 27973, 1, 349, 1, 12570, 22281, 63978, 51232, 19820, 58236, 29128, 261, 1, 1, 1, 1, 296, 1, 1, 13094, 1, 23627, 22368, 10843, 36753, 63773, 34581]),
   (30, [61524, 51582, 7348, 37209, 1, 274, 1, 11614, 50628, 22601, 1, 1, 442, 1, 27973, 8623, 349, 1, 12570, 22281, 63978, 51232, 19820, 58236, 29128, 261, 1, 1, 1, 58847, 296, 1, 1, 13094, 58314, 23627, 22368, 10843, 36753, 63773, 34581]),
   (32, [61524, 51582, 7348, 37209, 1, 274, 1, 11614, 50628, 22601, 1, 1, 442, 1, 27973, 1, 349, 59681, 12570, 22281, 63978, 51232, 19820, 58236, 29128, 261, 1, 1, 1, 58847, 296, 1, 1, 13094, 58314, 23627, 22368, 10843, 36753, 63773, 34581]),
   (33, [1, 1, 7348, 1, 1, 3, 1, 11614, 1, 1, 1, 1, 1, 1, 1, 1, 349, 1, 1, 1, 63978, 1, 22093, 1, 1, 261, 1, 1, 1, 1, 296, 1, 1, 1, 1, 1, 1, 10843, 36753, 1, 1]),
   (34, [1, 1, 7348, 1, 1, 3, 1, 11614, 1, 1, 1, 1, 1, 1, 1, 1, 349, 1, 1, 1, 63978, 1, 22093, 1, 1, 261, 1, 1, 1, 1, 296, 1, 1, 1, 1, 1, 1, 10843, 36753, 1, 12547]),
   (35, [28477, 1, 7348, 11907, 36528, 274, 15805, 11614, 18392, 35580, 449, 30170, 42071, 484, 51916, 387, 349, 31559, 42096, 35289, 63978, 51232, 19820, 58236, 29128, 261, 414, 472, 65449, 41993, 296, 497, 511, 42396, 64737, 36574, 35347, 10843, 12547, 63773, 34581]),
   (36, [1, 51582, 7348, 1, 1, 274, 1, 11614, 20293, 1, 1, 1, 12549, 1, 23642, 1, 349, 1, 1, 1, 63978, 51232, 19820, 58236, 29128, 261, 1, 1, 1, 1, 296, 1, 1, 23, 40153, 1, 1, 10843, 36753, 63773, 34581]),
   (37, [46945, 51582, 7348, 1, 1, 274, 1, 11614, 1, 1, 1, 1, 65377, 1, 9591, 1, 349, 1, 9891, 1, 63978, 51232, 19820, 58236, 29128, 261, 1, 1, 1, 8470, 296, 1, 1, 76, 1, 1, 1, 10843, 36753, 63773, 34581]),
   (38, [46945, 51582, 7348, 1, 1, 274, 1, 11614, 16937, 62504, 1, 1, 65377, 1, 1, 1, 349, 1, 9891, 62313, 63978, 51232, 19820, 58236, 29128, 261, 1, 1, 1, 8470, 296, 1, 1, 76, 31108, 63098, 62371, 10843, 36753, 63773, 34581]),
   (39, [46945, 51582, 7348, 1, 1, 274, 1, 11614, 26276, 53216, 1, 1, 65377, 1, 1299, 1, 349, 1, 9891, 1, 63978, 51232, 19820, 58236, 29128, 261, 1, 1, 1, 8470, 296, 1, 1, 76, 31108, 1, 1, 10843, 36753, 63773, 34581]),
   (40, [46945, 51582, 7348, 1, 1, 274, 1, 11614, 26276, 53216, 1, 1, 65377, 1, 1299, 1, 349, 1, 9891, 1, 63978, 51232, 19820, 58236, 29128, 261, 1, 1, 1, 8470, 296, 1, 1, 76, 31108, 20798, 1, 10843, 36753, 63773, 34581]),
   (41, [46945, 51582, 7348, 1, 1, 274, 1, 11614, 26276, 53216, 1, 1, 65377, 1, 1299, 1, 349, 1, 9891, 17651, 63978, 51232, 19820, 58236, 29128, 261, 1, 1, 1, 8470, 296, 1, 1, 76, 31108, 20798, 1, 10843, 36753, 63773, 34581]),
   (42, [46945, 51582, 7348, 1, 1, 274, 1, 11614, 26276, 53216, 1, 1, 65377, 1, 1299, 1, 349, 1, 9891, 17651, 63978, 51232, 19820, 58236, 29128, 261, 1, 1, 1, 8470, 296, 1, 1, 76, 31108, 20798, 14712, 10843, 36753, 63773, 34581]),
   (43, [25379, 51582, 7348, 1, 1, 274, 1, 11614, 1, 1, 1, 1, 442, 1, 55036, 1, 349, 1, 12564, 1, 63978, 51232, 19820, 58236, 29128, 261, 1, 1, 1, 1, 296, 1, 1, 13185, 32856, 1, 1, 10843, 36753, 63773, 34581]),
   (44, [25379, 51582, 7348, 1, 1, 274, 1, 11614, 65509, 45973, 1, 1, 442, 1, 55036, 1, 349, 1, 12564, 1, 63978, 51232, 19820, 58236, 29128, 261, 1, 1, 1, 51646, 296, 1, 1, 1, 32856, 1, 45784, 10843, 36753, 63773, 34581]),
   (45, [32725, 51582, 20921, 1, 1, 274, 1, 11614, 19438, 44292, 1, 1, 48046, 1, 1, 1, 349, 1, 48070, 1, 7823, 51232, 19820, 58236, 29128, 261, 1, 1, 1, 47979, 296, 1, 1, 48274, 21515, 1, 1, 10843, 36753, 63773, 34581]),
   (46, [1, 1, 7348, 1, 1, 3, 1, 11614, 1, 1, 1, 1, 1, 1, 1, 1, 349, 1, 1, 1, 63978, 1, 1, 1, 44291, 261, 1, 1, 1, 1, 296, 1, 1, 1, 1, 1, 1, 10843, 36753, 1, 1]),
   (47, [19867, 51582, 7348, 1, 1, 274, 1, 11614, 1, 1, 1, 1, 30, 1, 31895, 1, 349, 1, 8472, 1, 63978, 51232, 19820, 58236, 29128, 261, 1, 1, 1, 1, 296, 1, 1, 9016, 1, 1, 1, 10843, 36753, 63773, 34581]),
   (48, [15927, 51582, 7348, 1, 1, 274, 1, 11614, 1, 1, 1, 1, 12549, 1, 23642, 1, 349, 1, 1, 1, 63978, 51232, 19820, 58236, 29128, 261, 1, 1, 1, 23870, 296, 1, 1, 23, 40153, 1, 1, 10843, 36753, 63773, 34581]),
   (49, [28477, 51582, 7348, 11907, 36528, 274, 15805, 11614, 18392, 35580, 449, 30170, 42071, 484, 51916, 387, 349, 31559, 42096, 35289, 63978, 51232, 19820, 58236, 29128, 261, 414, 472, 65449, 41993, 296, 497, 511, 42396, 64737, 36574, 35347, 10843, 36753, 63773, 34581]),
   (50, [28477, 51582, 7348, 34447, 19251, 274, 15805, 11614, 15177, 35580, 641, 36193, 1993, 484, 51916, 387, 349, 31559, 2562, 35289, 63978, 51232, 19820, 58236, 29128, 261, 414, 595, 1991, 1915, 296, 497, 511, 56853, 29542, 36574, 35347, 10843, 36753, 63773, 34581]),
   (51, [28477, 51582, 7348, 1, 17604, 274, 15805, 11614, 23949, 35580, 1, 19037, 10731, 484, 51916, 387, 349, 31559, 10756, 35289, 63978, 51232, 19820, 58236, 29128, 261, 414, 547, 35832, 10653, 296, 497, 511, 56816, 64737, 36574, 35347, 10843, 36753, 63773, 34581]),
   (52, [28477, 51582, 7348, 34447, 21447, 274, 15805, 11614, 57613, 35580, 641, 30170, 1993, 484, 12934, 387, 349, 31559, 2159, 35289, 63978, 51232, 19820, 58236, 29128, 261, 414, 472, 65449, 1915, 296, 497, 511, 15462, 30570, 36574, 35347, 10843, 36753, 63773, 34581]),
   (53, [11125, 51582, 7348, 50063, 25792, 274, 13350, 11614, 42286, 35580, 1313, 14409, 2899, 1348, 12744, 387, 349, 31559, 2924, 35289, 63978, 51232, 19820, 58236, 29128, 261, 414, 1336, 63858, 1957, 296, 1361, 1375, 3224, 25565, 36574, 35347, 10843, 36753, 63773, 34581]),
   (54, [44523, 51582, 7348, 60274, 1, 274, 1, 11614, 1, 35580, 1, 1, 1, 1860, 1, 387, 349, 31559, 1, 35289, 63978, 51232, 19820, 58236, 29128, 261, 414, 1848, 1, 1, 296, 1873, 1, 1, 1, 36574, 35347, 10843, 36753, 63773, 34581]),
   (55, [14017, 51582, 7348, 21216, 1, 274, 2839, 11614, 59606, 35580, 1169, 27956, 23734, 1204, 41113, 387, 349, 31559, 15559, 35289, 63978, 51232, 19820, 58236, 29128, 261, 414, 1192, 53203, 15456, 296, 1217, 1231, 16579, 53934, 36574, 35347, 10843, 36753, 63773, 34581]),
   (56, [1, 51582, 7348, 63194, 1, 274, 27987, 11614, 1, 35580, 449, 1, 1, 1748, 1, 387, 349, 31559, 1, 35289, 63978, 51232, 19820, 58236, 29128, 261, 414, 1, 1, 1, 296, 1761, 1, 43660, 1, 36574, 35347, 10843, 36753, 63773, 34581]),
   (57, [28477, 51582, 7348, 34082, 30394, 274, 15805, 11614, 18392, 35580, 449, 30170, 42071, 484, 51916, 387, 349, 31559, 42096, 35289, 63978, 51232, 19820, 58236, 29128, 261, 414, 472, 65449, 41993, 296, 497, 511, 42396, 64737, 36574, 35347, 10843, 36753, 63773, 34581]),
   (58, [28477, 51582, 7348, 11907, 5613, 274, 15805, 11614, 37549, 35580, 622, 30170, 2127, 484, 12866, 387, 349, 31559, 10042, 35289, 63978, 51232, 19820, 58236, 29128, 261, 414, 472, 65449, 1915, 296, 497, 511, 5696, 30570, 36574, 35347, 10843, 36753, 63773, 34581]),
   (59, [47073, 51582, 7348, 25600, 1, 274, 54610, 11614, 23295, 35580, 3873, 1, 8169, 3908, 18014, 387, 349, 31559, 8194, 35289, 63978, 51232, 19820, 58236, 29128, 261, 414, 3896, 1, 4667, 296, 3921, 1, 8494, 30835, 36574, 35347, 10843, 36753, 63773, 34581]),
   (60, [45063, 51582, 7348, 13641, 29434, 274, 15805, 11614, 1200, 35580, 449, 26155, 16819, 562, 5670, 387, 349, 31559, 16844, 35289, 63978, 51232, 19820, 58236, 29128, 261, 414, 472, 15719, 16741, 296, 558, 511, 42433, 17977, 36574, 35347, 10843, 36753, 63773, 34581]),
   (61, [28477, 51582, 7348, 41200, 36982, 274, 15805, 11614, 33008, 35580, 8072, 30170, 9440, 484, 51916, 387, 349, 31559, 16986, 35289, 63978, 51232, 19820, 58236, 29128, 261, 414, 472, 65449, 9260, 296, 497, 511, 9663, 64737, 36574, 35347, 10843, 36753, 63773, 34581]),
   (62, [28477, 51582, 7348, 11907, 36528, 274, 15805, 11614, 18392, 35580, 635, 30170, 50271, 484, 51916, 387, 349, 31559, 42246, 35289, 63978, 51232, 19820, 58236, 29128, 261, 414, 472, 65449, 41993, 296, 497, 511, 42396, 64737, 36574, 35347, 10843, 36753, 63773, 34581]),
   (63, [28477, 51582, 7348, 34447, 16479, 274, 15805, 11614, 30685, 35580, 635, 16847, 10193, 484, 51916, 387, 349, 31559, 2168, 35289, 63978, 51232, 19820, 58236, 29128, 261, 414, 595, 14663, 1915, 296, 497, 511, 2318, 64737, 36574, 35347, 10843, 36753, 63773, 34581]),
   (64, [27204, 51582, 7348, 56357, 10128, 274, 45079, 11614, 39899, 21963, 9839, 46337, 40929, 1299, 15778, 9731, 349, 3894, 40953, 19873, 63978, 51232, 19820, 58236, 29128, 261, 9252, 1350, 8914, 31460, 296, 1312, 1328, 32692, 13743, 44545, 19931, 10843, 36753, 63773, 34581]),
   (65, [27204, 51582, 7348, 56357, 10128, 274, 45079, 11614, 39899, 21963, 9839, 46337, 32482, 1299, 15778, 9731, 349, 3894, 32542, 19873, 63978, 51232, 19820, 58236, 29128, 261, 9252, 1350, 8914, 31460, 296, 1312, 1328, 32692, 13743, 44545, 19931, 10843, 36753, 63773, 34581]),
   (66, [27204, 51582, 7348, 56357, 10128, 274, 45079, 11614, 39899, 21963, 1297, 46337, 32482, 1299, 15778, 9731, 349, 3894, 32542, 19873, 63978, 51232, 19820, 58236, 29128, 261, 9252, 1350, 8914, 31460, 296, 1312, 1328, 32692, 13743, 44545, 19931, 10843, 36753, 63773, 34581]),
   (67, [28477, 51582, 7348, 1, 19251, 274, 15805, 11614, 64463, 1, 577, 36193, 52379, 484, 51916, 8623, 349, 1, 52948, 17747, 63978, 51232, 19820, 58236, 29128, 261, 8509, 595, 1991, 52301, 296, 497, 511, 56853, 29542, 23995, 17805, 10843, 36753, 63773, 34581]),
   (68, [55127, 51582, 7348, 1, 16284, 274, 4902, 11614, 56894, 53504, 1368, 1354, 5376, 1332, 8616, 1285, 349, 49207, 6241, 17747, 63978, 51232, 19820, 58236, 29128, 261, 8509, 1320, 55394, 5298, 296, 1345, 1359, 26852, 21437, 4248, 17805, 10843, 36753, 63773, 34581]),
   (69, [28477, 51582, 7348, 21695, 36528, 274, 15805, 11614, 16841, 52056, 449, 30170, 42071, 484, 51916, 8623, 349, 1, 42096, 17747, 63978, 51232, 19820, 58236, 29128, 261, 8509, 472, 65449, 41993, 296, 497, 511, 42396, 64737, 21939, 17805, 10843, 36753, 63773, 34581]),
   (70, [14017, 51582, 7348, 1, 1, 274, 2839, 11614, 1, 1, 1169, 27956, 35688, 1204, 41113, 8623, 349, 1, 35713, 17747, 63978, 51232, 19820, 58236, 29128, 261, 8509, 1192, 53203, 35610, 296, 1217, 1231, 36733, 53934, 1, 17805, 10843, 36753, 63773, 34581]),
   (71, [28477, 51582, 7348, 43870, 30394, 274, 15805, 11614, 1, 52056, 449, 30170, 42071, 484, 51916, 8623, 349, 1, 42096, 17747, 63978, 51232, 19820, 58236, 29128, 261, 8509, 472, 65449, 41993, 296, 497, 511, 42396, 64737, 21939, 17805, 10843, 36753, 63773, 34581]),
   (72, [24932, 51582, 7348, 1, 1, 274, 27987, 11614, 1, 52056, 449, 1, 50269, 1748, 50423, 8623, 349, 1, 42096, 17747, 63978, 51232, 19820, 58236, 29128, 261, 8509, 1780, 1, 41993, 296, 1761, 1, 43660, 63288, 1, 17805, 10843, 36753, 63773, 34581]),
   (73, [44523, 51582, 7348, 24726, 26393, 274, 18434, 11614, 36407, 52056, 449, 35417, 5404, 1863, 13793, 8623, 349, 8129, 5429, 17747, 63978, 51232, 19820, 58236, 29128, 261, 8509, 1848, 6577, 5326, 296, 497, 511, 42396, 592, 21939, 17805, 10843, 36753, 63773, 34581]),
   (74, [45063, 51582, 7348, 1, 59423, 274, 15805, 11614, 1, 1, 449, 26155, 1, 562, 5670, 8623, 349, 1, 1, 17747, 63978, 51232, 19820, 58236, 29128, 261, 8509, 472, 15719, 1, 296, 558, 511, 42433, 17977, 1, 17805, 10843, 36753, 63773, 34581]),
   (75, [28477, 51582, 7348, 44235, 1974, 274, 15805, 11614, 1, 52056, 449, 30170, 42071, 484, 51916, 8623, 349, 1, 42096, 17747, 63978, 51232, 19820, 58236, 29128, 261, 8509, 675, 65449, 41993, 296, 497, 511, 42396, 64737, 21939, 17805, 10843, 36753, 63773, 34581]),
   (76, [52784, 51582, 7348, 51498, 41474, 274, 16333, 11614, 4479, 60766, 424, 41216, 61680, 482, 50835, 458, 349, 1402, 61601, 59961, 63978, 51232, 19820, 58236, 29128, 261, 507, 564, 4560, 61525, 296, 434, 438, 63203, 43911, 61760, 60019, 10843, 36753, 63773, 34581]),
   (77, [52784, 51582, 7348, 38570, 41474, 274, 16333, 11614, 54671, 57495, 9822, 16864, 61680, 482, 43776, 1747, 349, 27377, 5482, 57204, 63978, 51232, 19820, 58236, 29128, 261, 421, 9813, 38373, 61525, 296, 1208, 8578, 63915, 25724, 58489, 57262, 10843, 36753, 63773, 34581]),
   (78, [52784, 51582, 7348, 57743, 41474, 274, 40855, 11614, 76, 7880, 9822, 16864, 15283, 1348, 36080, 1299, 349, 54963, 23771, 7589, 63978, 51232, 19820, 58236, 29128, 261, 1326, 9813, 38373, 14293, 296, 1361, 8729, 15560, 25724, 8874, 7647, 10843, 36753, 63773, 34581]),
   (79, [52784, 51582, 7348, 57743, 22924, 274, 40855, 11614, 76, 7880, 9822, 16864, 15283, 1348, 36080, 1299, 349, 54963, 23771, 7589, 63978, 51232, 19820, 58236, 29128, 261, 1326, 9813, 38373, 14293, 296, 1361, 1427, 15560, 33271, 8874, 7647, 10843, 36753, 63773, 34581]),
   (80, [45637, 51582, 7348, 1, 18426, 274, 64234, 11614, 52650, 58196, 489, 47415, 45929, 442, 44696, 455, 349, 48210, 54248, 58419, 63978, 51232, 19820, 58236, 29128, 261, 504, 8476, 28549, 45848, 296, 470, 443, 42367, 56831, 59447, 58477, 10843, 36753, 63773, 34581]),
   (81, [52086, 51582, 7348, 10950, 61174, 274, 15756, 11614, 49433, 2184, 573, 17301, 45929, 611, 44844, 455, 349, 27545, 46075, 58419, 63978, 51232, 19820, 58236, 29128, 261, 504, 8476, 4212, 45848, 296, 470, 580, 7325, 277, 2407, 58477, 10843, 36753, 63773, 34581]),
   (82, [45637, 51582, 7348, 1, 18426, 274, 64234, 11614, 52650, 58196, 489, 12029, 45929, 442, 44696, 455, 349, 48210, 54248, 58419, 63978, 51232, 19820, 58236, 29128, 261, 504, 8476, 20508, 45848, 296, 470, 443, 42367, 56831, 59447, 58477, 10843, 36753, 63773, 34581]),
   (83, [45637, 51582, 7348, 41228, 44704, 274, 64234, 11614, 52650, 58196, 641, 1, 45929, 442, 44696, 455, 349, 48210, 54248, 58419, 63978, 51232, 19820, 58236, 29128, 261, 504, 8476, 1, 45848, 296, 470, 443, 42433, 50934, 59447, 58477, 10843, 36753, 63773, 34581]),
   (84, [45637, 51582, 7348, 1, 18426, 274, 64234, 11614, 52650, 58196, 518, 47415, 45929, 442, 44696, 455, 349, 48210, 54248, 58419, 63978, 51232, 19820, 58236, 29128, 261, 504, 8476, 28549, 45848, 296, 470, 443, 42367, 56831, 59447, 58477, 10843, 36753, 63773, 34581]),
   (85, [32962, 51582, 7348, 23340, 60024, 274, 4902, 11614, 7845, 7880, 1293, 13597, 45929, 1332, 45568, 1299, 349, 54963, 46875, 7589, 63978, 51232, 19820, 58236, 29128, 261, 1326, 8476, 49068, 45848, 296, 1345, 1359, 43244, 20622, 8874, 7647, 10843, 36753, 63773, 34581]),
   (86, [32962, 51582, 7348, 23340, 60024, 274, 4902, 11614, 14845, 7880, 1293, 13597, 45929, 1332, 45568, 1299, 349, 54963, 46875, 7589, 63978, 51232, 19820, 58236, 29128, 261, 1326, 8476, 49068, 45848, 296, 1345, 1359, 39702, 20622, 8874, 7647, 10843, 36753, 63773, 34581]),
   (87, [44523, 51582, 7348, 52332, 1, 274, 4423, 11614, 51735, 58196, 1195, 19892, 40045, 1204, 45440, 455, 349, 15997, 40061, 35588, 63978, 51232, 19820, 58236, 29128, 261, 425, 8476, 37365, 39208, 296, 1216, 1230, 40330, 52219, 43770, 35646, 10843, 36753, 63773, 34581]),
   (88, [45637, 51582, 7348, 1, 18426, 274, 64234, 11614, 52650, 58196, 489, 36701, 45929, 442, 44696, 455, 349, 48210, 54248, 58419, 63978, 51232, 19820, 58236, 29128, 261, 504, 8476, 20604, 45848, 296, 470, 443, 42367, 56831, 59447, 58477, 10843, 36753, 63773, 34581]),
   (89, [1, 51582, 7348, 4454, 1, 274, 27987, 11614, 1, 58196, 1, 32445, 1, 1748, 23812, 455, 349, 48210, 1, 58419, 63978, 51232, 19820, 58236, 29128, 261, 504, 8476, 8605, 1, 296, 1761, 1, 1, 60543, 59447, 58477, 10843, 36753, 63773, 34581]),
   (90, [44523, 51582, 7348, 52920, 38755, 274, 23137, 11614, 1, 58196, 1, 1, 1, 1860, 13841, 455, 349, 48210, 1, 58419, 63978, 51232, 19820, 58236, 29128, 261, 506, 1848, 1, 1, 296, 1873, 1, 1, 38698, 44541, 58477, 10843, 36753, 63773, 34581]),
   (91, [47073, 51582, 7348, 1, 1, 274, 54610, 11614, 13907, 38038, 3873, 64343, 8169, 3908, 18014, 430, 349, 1, 8194, 41345, 63978, 51232, 19820, 58236, 29128, 261, 63894, 3896, 46716, 4667, 296, 8741, 1, 8494, 30835, 41088, 41403, 10843, 36753, 63773, 34581]),
   (92, [36272, 51582, 7348, 59177, 1, 274, 28509, 11614, 43286, 35580, 661, 63249, 50076, 454, 64961, 387, 349, 31559, 50041, 35289, 63978, 51232, 19820, 58236, 29128, 261, 414, 496, 54870, 49960, 296, 635, 9891, 50598, 44468, 36574, 35347, 10843, 36753, 63773, 34581]),
   (93, [15734, 51582, 7348, 37768, 1, 274, 18973, 11614, 54164, 52028, 431, 18927, 50167, 457, 57091, 419, 349, 13604, 50147, 51737, 63978, 51232, 19820, 58236, 29128, 261, 480, 483, 5748, 41993, 296, 503, 513, 42485, 64491, 53022, 51795, 10843, 36753, 63773, 34581]),
   (94, [44654, 51582, 7348, 48228, 1, 274, 15892, 11614, 1, 35580, 1594, 19623, 1, 1659, 30793, 387, 349, 31559, 1, 35289, 63978, 51232, 19820, 58236, 29128, 261, 414, 1653, 9065, 1, 296, 1618, 1625, 37936, 37156, 36574, 35347, 10843, 36753, 63773, 34581]),
   (95, [55096, 51582, 7348, 13459, 36528, 274, 15805, 11614, 18392, 52056, 449, 43734, 42071, 4596, 60364, 387, 349, 64057, 42096, 17747, 63978, 51232, 19820, 58236, 29128, 261, 8509, 4584, 12983, 41993, 296, 497, 511, 42396, 3328, 21939, 17805, 10843, 36753, 63773, 34581]),
   (96, [54568, 51582, 7348, 13459, 36528, 274, 15805, 11614, 18392, 52056, 449, 29001, 42071, 4593, 1525, 387, 349, 64057, 42096, 17747, 63978, 51232, 19820, 58236, 29128, 261, 8509, 4598, 11396, 41993, 296, 497, 511, 42396, 3325, 21939, 17805, 10843, 36753, 63773, 34581]),
   (97, [27204, 51582, 7348, 1, 10128, 274, 45079, 11614, 3995, 1, 1, 46337, 63201, 1299, 15778, 1438, 349, 2190, 1, 17747, 63978, 51232, 19820, 58236, 29128, 261, 8509, 1350, 8914, 63123, 296, 1312, 1328, 63841, 13743, 47424, 17805, 10843, 36753, 63773, 34581]),
   (98, [55127, 51582, 7348, 1019, 16284, 274, 4902, 11614, 19571, 47458, 1454, 1354, 6468, 1332, 8616, 1433, 349, 61090, 6406, 46396, 63978, 51232, 19820, 58236, 29128, 261, 1510, 1320, 55394, 5298, 296, 1345, 1359, 26852, 21437, 43312, 46454, 10843, 36753, 63773, 34581]),
   (99, [55127, 51582, 7348, 1, 16284, 274, 4902, 11614, 39670, 53504, 1446, 1354, 47010, 1332, 8616, 1285, 349, 49207, 48032, 17747, 63978, 51232, 19820, 58236, 29128, 261, 8509, 1320, 55394, 46932, 296, 1345, 1359, 48183, 21437, 4248, 17805, 10843, 36753, 63773, 34581]),
   (100, [22662, 51582, 7348, 31623, 1, 274, 56673, 11614, 58382, 35580, 4001, 45456, 41193, 4036, 51038, 387, 349, 31559, 41218, 35289, 63978, 51232, 19820, 58236, 29128, 261, 414, 4024, 44348, 37563, 296, 1, 4063, 41518, 63859, 36574, 35347, 10843, 36753, 63773, 34581]),
   (101, [49093, 51582, 7348, 31623, 1, 274, 56673, 11614, 58382, 35580, 1, 1, 41196, 1, 55407, 387, 349, 31559, 1, 35289, 63978, 51232, 19820, 58236, 29128, 261, 414, 4043, 1, 37563, 296, 1, 421, 1, 63878, 36574, 35347, 10843, 36753, 63773, 34581]),
   (102, [47073, 51582, 7348, 1, 1, 274, 54610, 11614, 1, 1, 3873, 1, 8169, 3908, 18014, 1, 349, 1, 8194, 1, 63978, 51232, 19820, 58236, 29128, 261, 1, 3896, 1, 4667, 296, 3921, 1, 8494, 30835, 1, 1, 10843, 36753, 63773, 34581]),
   (103, [47073, 51582, 7348, 1, 1, 274, 54610, 11614, 1, 1, 3873, 1, 8169, 3908, 18014, 8623, 349, 1, 8194, 1, 63978, 51232, 19820, 58236, 29128, 261, 1, 3896, 1, 4667, 296, 3921, 1, 8494, 30835, 1, 1, 10843, 36753, 63773, 34581]),
   (104, [12239, 51582, 7348, 34180, 17431, 274, 53472, 11614, 5266, 57074, 8158, 45192, 61480, 484, 55420, 8099, 349, 42426, 54052, 52928, 63978, 51232, 19820, 58236, 29128, 8117, 8139, 8100, 11459, 53721, 296, 556, 8170, 54381, 6929, 58582, 52986, 10843, 36753, 63773, 34581]),
   (105, [58289, 51582, 7348, 56476, 45540, 274, 59560, 11614, 36416, 56560, 8114, 13924, 1527, 8146, 51829, 451, 349, 22141, 9176, 51994, 63978, 51232, 19820, 58236, 29128, 8167, 8157, 8130, 50344, 1401, 296, 8166, 8188, 58277, 12955, 59610, 52052, 10843, 36753, 63773, 34581]),
   (106, [1, 59710, 34551, 1, 1, 274, 1, 11614, 1, 1, 1, 1, 1, 1, 1, 1, 349, 1, 1, 1, 51256, 51232, 19820, 58236, 29128, 261, 1, 1, 1, 1, 296, 1, 1, 1, 1, 1, 1, 10843, 32399, 63773, 34581]),
   (107, [7302, 59710, 34551, 1, 1, 274, 1, 11614, 1, 1, 144, 39298, 28902, 1, 1, 1, 349, 1, 28927, 1, 51256, 51232, 19820, 58236, 29128, 261, 1, 167, 35146, 29129, 296, 1, 1, 1, 1, 1, 1, 10843, 32399, 63773, 34581]),
   (108, [1, 1, 63334, 1, 1, 1, 1, 1, 1, 1, 1, 1, 1, 1, 1, 1, 1, 1, 1, 1, 26614, 1, 1, 1, 1, 1, 1, 1, 1, 1, 1, 1, 1, 1, 1, 1, 1, 9731, 1, 1, 1]),
   (109, [1, 1, 56889, 1, 1, 1, 1, 484, 1, 1, 1, 1, 1, 1, 1, 1, 1, 1, 1, 1, 38941, 1, 1, 1, 1, 1, 1, 1, 1, 1, 1, 1, 1, 1, 1, 1, 1, 1, 1, 1, 1]),
   (110, [1, 59710, 7348, 1, 1, 274, 1, 11614, 1, 1, 1, 1, 1, 1, 1, 1, 349, 1, 1, 1, 63978, 51232, 22470, 50343, 31778, 261, 1, 1, 1, 1, 296, 1, 1, 1, 1, 1, 1, 10843, 32399, 55880, 37231]),
   (111, [1, 1, 7452, 1, 1, 1, 1, 1, 1, 1, 1, 1, 1, 1, 1, 1, 1, 1, 1, 1, 42068, 1, 1, 1, 1, 1, 1, 1, 1, 1, 1, 1, 1, 1, 1, 1, 1, 516, 1, 1, 1]),
   (112, [1, 1, 7452, 1, 1, 1, 1, 8372, 1, 1, 1, 1, 1, 1, 1, 1, 1, 1, 1, 1, 42068, 1, 1, 1, 1, 1, 1, 1, 1, 1, 1, 1, 1, 1, 1, 1, 1, 8372, 58653, 1, 1]),
   (113, [1, 1, 28475, 1, 1, 1, 1, 12708, 1, 1, 1, 1, 1, 1, 1, 1, 1, 1, 1, 1, 33264, 1, 1, 1, 1, 1, 1, 1, 1, 1, 1, 1, 1, 1, 1, 1, 1, 457, 1, 1, 1]),
   (114, [52784, 51582, 7348, 1, 41474, 274, 16333, 11614, 1, 57495, 424, 1, 1, 1, 1, 1747, 349, 27377, 1, 57204, 63978, 51232, 19820, 58236, 29128, 261, 1, 1, 1, 1, 296, 434, 438, 1, 1, 58489, 57262, 10843, 36753, 63773, 34581]),
   (115, [28477, 51582, 7348, 13641, 6143, 274, 15805, 11614, 18392, 35580, 449, 30170, 42071, 484, 51916, 387, 349, 31559, 42096, 35289, 63978, 51232, 19820, 58236, 29128, 261, 414, 472, 65449, 41993, 296, 497, 511, 42396, 64737, 36574, 35347, 10843, 36753, 63773, 34581]),
   (116, [7302, 51582, 7348, 1, 1, 274, 1, 11614, 11957, 1, 144, 39298, 28902, 1, 1, 1, 349, 1, 28927, 9571, 63978, 51232, 19820, 58236, 29128, 261, 1, 167, 35146, 29129, 296, 1, 1, 1, 59444, 25755, 1, 10843, 36753, 63773, 34581]),
   (117, [44523, 51582, 7348, 3958, 1, 274, 59406, 11614, 5291, 35580, 65485, 42474, 1110, 1860, 11897, 65419, 349, 49311, 640, 32948, 63978, 51232, 19820, 58236, 29128, 261, 65491, 1848, 55554, 1032, 296, 1873, 65514, 2297, 3905, 14733, 33006, 10843, 36753, 63773, 34581]),
   (118, [11125, 51582, 7348, 50063, 25792, 274, 13350, 11614, 42286, 35580, 1313, 14409, 2899, 1348, 12806, 387, 349, 31559, 2924, 35289, 63978, 51232, 19820, 58236, 29128, 261, 414, 1336, 63858, 1957, 296, 1361, 1375, 3224, 25565, 36574, 35347, 10843, 36753, 63773, 34581]),
   (119, [28477, 51582, 7348, 34447, 1974, 274, 15805, 11614, 18392, 35580, 449, 30170, 42071, 484, 51916, 387, 349, 31559, 42096, 35289, 63978, 51232, 19820, 58236, 29128, 261, 414, 675, 65449, 41993, 296, 497, 511, 42396, 64737, 36574, 35347, 10843, 36753, 63773, 34581]),
   (120, [47073, 51582, 7348, 1, 63897, 274, 54610, 11614, 1, 1, 3873, 10135, 8169, 3908, 18014, 1, 349, 1, 8194, 1, 63978, 51232, 19820, 58236, 29128, 261, 1, 3896, 42171, 4667, 296, 3921, 421, 8494, 30835, 1, 1, 10843, 36753, 63773, 34581]),
   (121, [47073, 51582, 7348, 33836, 1, 274, 54610, 11614, 23295, 35580, 3873, 1, 8169, 3908, 18014, 8623, 349, 31559, 8194, 35289, 63978, 51232, 19820, 58236, 29128, 261, 414, 3896, 1, 4667, 296, 3921, 1, 8494, 30835, 36574, 35347, 10843, 36753, 63773, 34581]),
   (122, [28477, 51582, 7348, 34447, 1974, 274, 15805, 11614, 18392, 35580, 449, 30170, 50271, 484, 51916, 387, 349, 31559, 42096, 35289, 63978, 51232, 19820, 58236, 29128, 261, 414, 675, 65449, 41993, 296, 497, 511, 42396, 64737, 36574, 35347, 10843, 36753, 63773, 34581]),
   (123, [52784, 51582, 7348, 41837, 41474, 274, 16333, 11614, 4479, 60766, 9822, 16864, 61680, 482, 43776, 458, 349, 1402, 5482, 59961, 63978, 51232, 19820, 58236, 29128, 261, 421, 9813, 38373, 61525, 296, 1208, 8578, 63915, 25724, 61760, 60019, 10843, 36753, 63773, 34581]),
   (124, [52784, 51582, 7348, 23334, 41474, 274, 16333, 11614, 36215, 40762, 9822, 16864, 50102, 1199, 43776, 1172, 349, 20955, 58709, 40471, 63978, 51232, 19820, 58236, 29128, 261, 1207, 9813, 38373, 49231, 296, 1167, 8578, 50373, 25724, 41756, 40529, 10843, 36753, 63773, 34581]),
   (125, [52784, 51582, 7348, 15062, 41474, 274, 16333, 11614, 20217, 17861, 611, 3893, 11975, 482, 28233, 521, 349, 1402, 11897, 2664, 63978, 51232, 19820, 58236, 29128, 261, 507, 612, 31439, 11681, 296, 584, 438, 63291, 16540, 11916, 2722, 10843, 36753, 63773, 34581]),
   (126, [52784, 51582, 7348, 4918, 41474, 274, 16333, 11614, 4479, 17861, 639, 1794, 61699, 482, 2283, 458, 349, 1402, 61818, 59961, 63978, 51232, 19820, 58236, 29128, 261, 615, 586, 44688, 61525, 296, 614, 603, 63321, 43911, 61760, 60019, 10843, 36753, 63773, 34581]),
   (127, [52784, 51582, 7348, 14987, 41474, 274, 16333, 11614, 4479, 60766, 639, 41216, 61680, 482, 25031, 458, 349, 1402, 61818, 59961, 63978, 51232, 19820, 58236, 29128, 261, 544, 564, 4560, 61525, 296, 1, 438, 63276, 43911, 61760, 60019, 10843, 36753, 63773, 34581]),
   (128, [52784, 51582, 7348, 35099, 41474, 274, 54583, 11614, 64403, 23557, 1308, 8913, 6820, 1347, 9375, 1365, 349, 44517, 6807, 2706, 63978, 51232, 19820, 58236, 29128, 261, 1298, 1312, 10553, 5812, 296, 1327, 1322, 15266, 21461, 24037, 2764, 10843, 36753, 63773, 34581]),
   (129, [52784, 51582, 7348, 37163, 41474, 274, 16333, 11614, 4479, 60766, 424, 41216, 61680, 482, 50835, 458, 349, 1402, 61601, 59961, 63978, 51232, 19820, 58236, 29128, 261, 507, 1, 4560, 61525, 296, 434, 438, 63196, 43911, 61760, 60019, 10843, 36753, 63773, 34581]),
   (130, [52784, 51582, 7348, 51498, 41474, 274, 16333, 11614, 4479, 60766, 424, 41216, 61680, 482, 50835, 458, 349, 1402, 61601, 59961, 63978, 51232, 19820, 58236, 29128, 261, 507, 8623, 4560, 61525, 296, 434, 438, 63203, 43911, 61760, 60019, 10843, 36753, 63773, 34581]),
   (131, [52784, 51582, 7348, 58924, 41474, 274, 16333, 11614, 65346, 60766, 9822, 16864, 61680, 482, 43776, 458, 349, 1402, 5482, 59961, 63978, 51232, 19820, 58236, 29128, 261, 421, 9813, 38373, 61525, 296, 1208, 8578, 63915, 25724, 55078, 60019, 10843, 36753, 63773, 34581]),
   (132, [52784, 51582, 7348, 41323, 41474, 274, 16333, 11614, 4479, 60766, 9822, 16864, 61632, 482, 43776, 458, 349, 1402, 5482, 59961, 63978, 51232, 19820, 58236, 29128, 261, 507, 9813, 38373, 61525, 296, 1208, 8578, 63915, 25724, 62274, 60019, 10843, 36753, 63773, 34581]),
   (133, [52784, 51582, 7348, 18450, 41474, 274, 16333, 11614, 36678, 60766, 9822, 16864, 46958, 482, 43776, 458, 349, 1402, 56354, 59961, 63978, 51232, 19820, 58236, 29128, 261, 421, 9813, 38373, 46876, 296, 1208, 8578, 63915, 25724, 61760, 60019, 10843, 36753, 63773, 34581]),
   (134, [59660, 51582, 7348, 1, 1, 274, 13361, 11614, 13216, 19907, 65468, 40647, 45155, 65494, 39816, 435, 349, 27525, 44675, 26041, 63978, 51232, 19820, 58236, 29128, 261, 1, 65470, 55037, 45077, 1901, 65488, 65500, 36993, 981, 14733, 26099, 10843, 36753, 63773, 34581]),
   (135, [52784, 51582, 7348, 41837, 41474, 274, 16333, 11614, 4479, 60766, 9822, 16864, 61680, 482, 43776, 458, 349, 1402, 5482, 59961, 63978, 51232, 19820, 58236, 29128, 261, 507, 9813, 38373, 61525, 296, 1208, 8578, 63915, 25724, 61760, 60019, 10843, 36753, 63773, 34581]),
   (136, [52784, 51582, 7348, 1, 41474, 274, 3895, 11614, 3521, 47659, 1186, 12563, 39264, 1210, 43686, 1, 349, 1, 39277, 1, 63978, 51232, 19820, 58236, 29128, 261, 1199, 1196, 2154, 38437, 296, 1223, 1203, 54729, 44651, 15691, 1, 10843, 36753, 63773, 34581]),
   (137, [52784, 51582, 7348, 57743, 41474, 274, 36631, 11614, 76, 7880, 9822, 16864, 15283, 1348, 36141, 1299, 349, 54963, 23771, 7589, 63978, 51232, 19820, 58236, 29128, 261, 1326, 9813, 38373, 14293, 296, 1361, 8729, 15560, 33528, 8874, 7647, 10843, 36753, 63773, 34581]),
   (138, [11078, 9475, 30172, 28338, 61566, 274, 45471, 36382, 47147, 27452, 439, 65314, 33029, 506, 18828, 475, 292, 7013, 33080, 27033, 9914, 29846, 12867, 19348, 1734, 261, 445, 337, 59722, 33150, 269, 470, 479, 30174, 15258, 62242, 27059, 35611, 45567, 31934, 49438]),
   (139, [11078, 18213, 30172, 28338, 61566, 274, 45471, 36382, 6652, 27452, 439, 32675, 57958, 506, 18828, 475, 479, 7013, 58009, 27033, 9914, 29846, 12867, 19348, 37232, 261, 445, 337, 59595, 58079, 269, 470, 352, 30174, 15258, 62242, 27059, 35611, 45567, 49407, 49438]),
   (140, [11078, 42357, 30172, 56219, 61566, 274, 45471, 36382, 14134, 27452, 439, 32932, 65411, 506, 18828, 323, 423, 7013, 65462, 27033, 9914, 29846, 12867, 19348, 1734, 261, 445, 337, 59596, 11, 269, 470, 479, 30174, 15258, 62242, 27059, 35611, 15785, 49407, 49438]),
   (141, [11078, 10760, 30172, 56371, 61566, 274, 45471, 36382, 14134, 27452, 439, 32932, 65411, 506, 18828, 475, 423, 7013, 65462, 27033, 9914, 29846, 12867, 19348, 37232, 261, 445, 337, 59596, 11, 269, 470, 479, 30174, 15258, 62242, 27059, 35611, 47906, 49407, 49438]),
   (142, [11078, 13073, 30172, 28338, 61566, 274, 45471, 36382, 10006, 27452, 439, 65314, 61299, 506, 18828, 475, 492, 50689, 61350, 27033, 9914, 29846, 12867, 31541, 1734, 261, 445, 337, 59722, 61420, 269, 470, 479, 30174, 15258, 62242, 27059, 35611, 20974, 49407, 49438]),
   (143, [11078, 56749, 4803, 28338, 61566, 274, 45471, 36382, 8716, 27452, 384, 65314, 60014, 506, 18828, 475, 352, 7013, 60065, 27033, 9914, 29846, 12867, 19348, 1734, 261, 445, 337, 59722, 60135, 269, 470, 479, 30174, 15258, 62242, 27059, 35611, 31206, 49407, 49438]),
   (144, [11078, 56749, 30172, 28338, 61566, 274, 45471, 36382, 57983, 27452, 439, 65314, 43823, 506, 18828, 475, 352, 7013, 43832, 27033, 9914, 10571, 12867, 19348, 1734, 261, 445, 337, 59722, 43944, 269, 470, 479, 30174, 15258, 62242, 27059, 35611, 2922, 31934, 49438]),
   (145, [11078, 42614, 30172, 28338, 61566, 274, 45471, 36382, 59789, 27452, 439, 65314, 45622, 506, 18828, 475, 292, 7013, 45673, 27033, 9914, 29846, 12867, 19348, 1734, 261, 445, 337, 59722, 45743, 269, 470, 479, 30174, 15258, 62242, 27059, 35611, 45567, 31934, 49438]),
   (146, [11078, 13073, 30172, 28338, 61566, 274, 45471, 36382, 57983, 27452, 439, 65314, 43823, 506, 18828, 475, 426, 50689, 43832, 27033, 9914, 29846, 12867, 389, 1734, 261, 445, 337, 59722, 43944, 269, 470, 479, 30174, 15258, 62242, 27059, 35611, 20974, 49407, 49438]),
   (147, [752, 56749, 39790, 53368, 1, 274, 45471, 36382, 16463, 28190, 1226, 60174, 43823, 1, 18828, 455, 352, 16779, 44672, 27033, 48007, 8043, 44716, 57119, 54024, 261, 1211, 337, 59702, 44633, 269, 508, 458, 30174, 15258, 47378, 27059, 35611, 20974, 49407, 59477]),
   (148, [1, 9475, 49273, 1, 1, 274, 45471, 36382, 1, 28764, 439, 1, 33029, 506, 18828, 1, 292, 7013, 33080, 27033, 1, 24776, 34405, 33114, 43713, 261, 1, 337, 1, 34414, 269, 1, 1, 30174, 15258, 1, 27059, 35611, 45567, 31934, 49166]),
   (149, [11078, 43726, 13528, 34919, 46743, 274, 45471, 36382, 21780, 27452, 1870, 65314, 33029, 506, 18828, 1842, 292, 42292, 33005, 27033, 18812, 43537, 12867, 19348, 51561, 261, 1849, 337, 59722, 33150, 269, 8465, 479, 30174, 15258, 14524, 27059, 35611, 45567, 31934, 51995]),
   (150, [11078, 56749, 30172, 28338, 61566, 274, 45471, 36382, 47147, 27452, 439, 65314, 33029, 506, 18828, 475, 352, 7013, 33080, 27033, 9914, 29846, 12867, 19348, 1734, 261, 445, 337, 59722, 33150, 269, 470, 479, 30174, 15258, 62242, 27059, 35611, 45567, 49407, 49438]),
   (151, [33515, 9475, 17681, 24077, 23580, 274, 45471, 36382, 39030, 30857, 3894, 21049, 33029, 3917, 18828, 3922, 292, 54226, 36546, 27033, 8826, 56817, 12867, 25945, 35868, 261, 3879, 337, 63119, 36508, 269, 3916, 3920, 30174, 15258, 12323, 27059, 35611, 45567, 31934, 41321]),
   (152, [11078, 56749, 48058, 28850, 61566, 274, 45471, 36382, 12014, 27452, 439, 65314, 33029, 506, 18828, 987, 352, 7013, 33080, 27033, 9914, 35500, 12867, 22995, 1734, 261, 583, 337, 59722, 33150, 269, 470, 479, 30174, 15258, 5202, 27059, 35611, 45567, 49407, 49438]),
   (153, [11078, 24895, 30172, 28338, 61566, 274, 45471, 36382, 58122, 27452, 351, 65314, 63869, 506, 18828, 475, 457, 7013, 63920, 27033, 9914, 29846, 12867, 19348, 1734, 261, 445, 337, 59722, 63990, 269, 470, 479, 30174, 15258, 25234, 27059, 35611, 45567, 49407, 49438]),
   (154, [752, 56749, 39790, 54073, 21049, 274, 45471, 36382, 5627, 28190, 1226, 1, 33029, 1, 18828, 1160, 352, 7013, 33878, 27033, 48007, 8043, 44716, 57119, 54024, 261, 1211, 337, 1, 33839, 269, 430, 1, 30174, 15258, 47378, 27059, 35611, 45567, 49407, 59477]),
   (155, [42464, 56749, 50723, 57913, 64195, 274, 45471, 36382, 20593, 28285, 1319, 9601, 33029, 423, 18828, 1353, 352, 43035, 33957, 27033, 30, 57130, 12867, 25869, 30298, 261, 1342, 337, 60525, 34031, 269, 1327, 1328, 30174, 15258, 19122, 27059, 35611, 45567, 49407, 31097]),
   (156, [11078, 18984, 1, 28850, 61566, 274, 45471, 36382, 1, 27452, 439, 24194, 63869, 506, 18828, 987, 545, 7013, 63920, 27033, 9914, 29846, 12867, 19348, 1734, 261, 544, 337, 59562, 63990, 269, 470, 293, 30174, 15258, 24734, 27059, 35611, 20901, 49407, 49438]),
   (157, [11078, 24638, 30172, 33552, 61566, 274, 45471, 36382, 47147, 27452, 640, 65314, 33029, 506, 18828, 475, 292, 7013, 33005, 27033, 9914, 29846, 12867, 19348, 1734, 261, 445, 337, 59722, 33150, 269, 470, 479, 30174, 15258, 62242, 27059, 35611, 45567, 31934, 49438]),
   (158, [42464, 56749, 50723, 57913, 64195, 274, 45471, 36382, 20593, 28285, 1319, 9601, 33029, 426, 18828, 1353, 352, 43035, 33957, 27033, 30, 57130, 12867, 25869, 30298, 261, 1342, 337, 60525, 34031, 269, 1327, 1328, 30174, 15258, 19122, 27059, 35611, 45567, 49407, 31097]),
   (159, [11078, 18984, 30172, 28338, 61566, 274, 45471, 36382, 61681, 27452, 439, 24194, 63869, 506, 18828, 475, 545, 7013, 63920, 27033, 9914, 29846, 12867, 19348, 1734, 261, 445, 337, 59562, 63990, 269, 470, 293, 30174, 15258, 32687, 27059, 35611, 20901, 49407, 49438]),
   (160, [11078, 9475, 30172, 28338, 61566, 274, 45471, 36382, 47147, 27452, 439, 65314, 33029, 506, 18828, 475, 292, 7013, 33005, 27033, 9914, 29846, 12867, 19348, 1734, 261, 445, 337, 59722, 33150, 269, 470, 479, 30174, 15258, 62242, 27059, 35611, 45567, 31934, 49438]),
   (161, [1770, 9989, 28890, 44087, 300, 274, 45471, 36382, 15207, 26081, 65508, 45198, 33029, 1826, 18828, 64653, 292, 12639, 32638, 27033, 12703, 34103, 12867, 34377, 17158, 261, 65472, 337, 58369, 32554, 269, 2038, 2042, 30174, 15258, 49364, 27059, 35611, 45567, 31934, 46152]),
   (162, [58070, 9475, 55136, 28338, 31181, 274, 45471, 36382, 45322, 27610, 575, 65314, 33029, 506, 18828, 475, 292, 7013, 33222, 27033, 41545, 562, 12867, 38884, 1734, 261, 602, 337, 59722, 41134, 269, 470, 479, 30174, 15258, 1090, 27059, 35611, 45567, 31934, 19324]),
   (163, [11078, 10760, 30172, 56371, 61566, 274, 45471, 36382, 20157, 27452, 439, 32932, 65411, 506, 18828, 475, 423, 7013, 65462, 27033, 9914, 29846, 12867, 19348, 37232, 261, 445, 337, 59596, 11, 269, 470, 479, 30174, 15258, 25762, 27059, 35611, 47906, 49407, 49438]),
   (164, [42464, 56749, 50723, 57913, 64195, 274, 45471, 36382, 20593, 28426, 1319, 9601, 33029, 426, 18828, 1353, 352, 43035, 33957, 27033, 30, 57130, 12867, 25869, 56762, 261, 1342, 337, 60525, 34031, 269, 1327, 1328, 30174, 15258, 19122, 27059, 35611, 45567, 49407, 31097]),
   (165, [11078, 56749, 48058, 28338, 61566, 274, 45471, 36382, 15026, 27452, 635, 65314, 33029, 506, 18828, 475, 352, 7013, 33251, 27033, 9914, 29846, 12867, 19348, 1734, 261, 445, 337, 59722, 33150, 269, 470, 479, 30174, 15258, 5202, 27059, 35611, 45567, 49407, 49438]),
   (166, [45610, 9475, 51453, 1, 1, 274, 45471, 36382, 58650, 30997, 4038, 1, 33029, 1, 18828, 1, 292, 1, 36690, 27033, 58729, 56817, 12867, 28536, 41891, 261, 4024, 337, 1, 36647, 269, 1, 1, 30174, 15258, 49331, 27059, 35611, 45567, 31934, 61306]),
   (167, [27141, 38371, 5237, 9518, 9707, 274, 45471, 36382, 29994, 29582, 2638, 28175, 33029, 8464, 18828, 2601, 292, 41563, 33005, 27033, 11860, 38182, 12867, 5315, 41159, 261, 2611, 337, 61872, 35232, 269, 2669, 2673, 30174, 15258, 13795, 27059, 35611, 45567, 31934, 51266]),
   (168, [11078, 9475, 30172, 33552, 61566, 274, 45471, 36382, 47147, 27452, 439, 65314, 33029, 506, 18828, 475, 292, 7013, 33080, 27033, 9914, 29846, 12867, 19348, 1734, 261, 445, 337, 59722, 33150, 269, 470, 479, 30174, 15258, 62242, 27059, 35611, 45567, 31934, 49438]),
   (169, [11078, 18213, 30172, 33552, 61566, 274, 45471, 36382, 6652, 27452, 439, 32675, 57958, 506, 18828, 475, 479, 7013, 58009, 27033, 9914, 29846, 12867, 19348, 37232, 261, 445, 337, 59595, 58079, 269, 470, 352, 30174, 15258, 62242, 27059, 35611, 45567, 49407, 49438]),
   (170, [11078, 42357, 30172, 56219, 61566, 274, 45471, 36382, 14134, 27452, 439, 32932, 65411, 506, 18828, 323, 8623, 7013, 65462, 27033, 9914, 29846, 12867, 19348, 1734, 261, 445, 337, 59596, 11, 269, 470, 479, 30174, 15258, 62242, 27059, 35611, 15785, 49407, 49438]),
   (171, [11078, 10760, 30172, 56371, 61566, 274, 45471, 36382, 14134, 27452, 439, 32932, 65411, 506, 18828, 475, 8623, 7013, 65462, 27033, 9914, 29846, 12867, 19348, 37232, 261, 445, 337, 59596, 11, 269, 470, 479, 30174, 15258, 62242, 27059, 35611, 47906, 49407, 49438]),
   (172, [11078, 13073, 30172, 33552, 61566, 274, 45471, 36382, 10006, 27452, 439, 65314, 61299, 506, 18828, 475, 492, 50689, 61350, 27033, 9914, 29846, 12867, 31541, 1734, 261, 445, 337, 59722, 61420, 269, 470, 479, 30174, 15258, 62242, 27059, 35611, 20974, 49407, 49438]),
   (173, [11078, 56749, 30172, 33552, 61566, 274, 45471, 36382, 57983, 27452, 439, 65314, 43823, 506, 18828, 475, 352, 7013, 43832, 27033, 9914, 10571, 12867, 19348, 1734, 261, 445, 337, 59722, 43944, 269, 470, 479, 30174, 15258, 62242, 27059, 35611, 2922, 31934, 49438]),
   (174, [11078, 42614, 30172, 33552, 61566, 274, 45471, 36382, 59789, 27452, 439, 65314, 45622, 506, 18828, 475, 292, 7013, 45673, 27033, 9914, 29846, 12867, 19348, 1734, 261, 445, 337, 59722, 45743, 269, 470, 479, 30174, 15258, 62242, 27059, 35611, 45567, 31934, 49438]),
   (175, [11078, 13073, 30172, 33552, 61566, 274, 45471, 36382, 57983, 27452, 439, 65314, 43823, 506, 18828, 475, 426, 50689, 43832, 27033, 9914, 29846, 12867, 389, 1734, 261, 445, 337, 59722, 43944, 269, 470, 479, 30174, 15258, 62242, 27059, 35611, 20974, 49407, 49438]),
   (176, [11078, 56749, 30172, 33552, 61566, 274, 45471, 36382, 47147, 27452, 439, 65314, 33029, 506, 18828, 475, 352, 7013, 33080, 27033, 9914, 29846, 12867, 19348, 1734, 261, 445, 337, 59722, 33150, 269, 470, 479, 30174, 15258, 62242, 27059, 35611, 45567, 49407, 49438]),
   (177, [11078, 24895, 30172, 33552, 61566, 274, 45471, 36382, 58122, 27452, 351, 65314, 63869, 506, 18828, 475, 457, 7013, 63920, 27033, 9914, 29846, 12867, 19348, 1734, 261, 445, 337, 59722, 63990, 269, 470, 479, 30174, 15258, 25234, 27059, 35611, 45567, 49407, 49438]),
   (178, [11078, 56749, 48058, 34064, 61566, 274, 45471, 36382, 12014, 27452, 439, 65314, 33029, 506, 18828, 987, 352, 7013, 33080, 27033, 9914, 35500, 12867, 22995, 1734, 261, 583, 337, 59722, 33150, 269, 470, 479, 30174, 15258, 5202, 27059, 35611, 45567, 49407, 49438]),
   (179, [42464, 56749, 50723, 57913, 64195, 274, 45471, 36382, 20593, 28285, 1319, 9601, 33029, 8623, 18828, 1353, 352, 43035, 33957, 27033, 30, 57130, 12867, 25869, 30298, 261, 1342, 337, 60525, 34031, 269, 1327, 1328, 30174, 15258, 19122, 27059, 35611, 45567, 49407, 31097]),
   (180, [11078, 18984, 30172, 33552, 61566, 274, 45471, 36382, 61681, 27452, 439, 24194, 63869, 506, 18828, 475, 545, 7013, 63920, 27033, 9914, 29846, 12867, 19348, 1734, 261, 445, 337, 59562, 63990, 269, 470, 293, 30174, 15258, 32687, 27059, 35611, 20901, 49407, 49438]),
   (181, [58070, 9475, 55136, 33552, 31181, 274, 45471, 36382, 45322, 27610, 575, 65314, 33029, 506, 18828, 475, 292, 7013, 33222, 27033, 41545, 562, 12867, 38884, 1734, 261, 602, 337, 59722, 41134, 269, 470, 479, 30174, 15258, 1090, 27059, 35611, 45567, 31934, 19324]),
   (182, [11078, 10760, 30172, 56371, 61566, 274, 45471, 36382, 20157, 27452, 439, 32932, 65411, 506, 18828, 475, 8623, 7013, 65462, 27033, 9914, 29846, 12867, 19348, 37232, 261, 445, 337, 59596, 11, 269, 470, 479, 30174, 15258, 25762, 27059, 35611, 47906, 49407, 49438]),
   (183, [42464, 56749, 50723, 57913, 64195, 274, 45471, 36382, 20593, 28426, 1319, 9601, 33029, 8623, 18828, 1353, 352, 43035, 33957, 27033, 30, 57130, 12867, 25869, 56762, 261, 1342, 337, 60525, 34031, 269, 1327, 1328, 30174, 15258, 19122, 27059, 35611, 45567, 49407, 31097]),
   (184, [33515, 9475, 17681, 24077, 4408, 274, 45471, 36382, 39030, 30857, 3894, 21049, 33029, 3917, 18828, 3922, 292, 54226, 36546, 27033, 8826, 56817, 12867, 25945, 35868, 261, 3879, 337, 63119, 36508, 269, 3916, 3920, 30174, 15258, 12323, 27059, 35611, 45567, 31934, 41321]),
   (185, [11078, 56749, 48058, 33552, 61566, 274, 45471, 36382, 15026, 27452, 635, 65314, 33029, 506, 18828, 475, 352, 7013, 33251, 27033, 9914, 29846, 12867, 19348, 1734, 261, 445, 337, 59722, 33150, 269, 470, 479, 30174, 15258, 5202, 27059, 35611, 45567, 49407, 49438]),
   (186, [11078, 24638, 48058, 34064, 61566, 274, 45471, 36382, 12014, 27452, 439, 65314, 33029, 506, 18828, 987, 292, 7013, 33005, 27033, 9914, 35500, 12867, 22995, 1734, 261, 583, 337, 59722, 33150, 269, 470, 479, 30174, 15258, 5202, 27059, 35611, 45567, 31934, 49438]),
   (187, [42464, 56749, 50723, 57913, 64195, 274, 45471, 36382, 20593, 28428, 1319, 9601, 33029, 8623, 18828, 1353, 352, 43035, 33957, 27033, 38327, 57130, 12867, 25869, 549, 261, 1342, 337, 60525, 34123, 269, 1327, 1328, 30174, 15258, 19122, 27059, 35611, 45567, 49407, 31097]),
   (188, [752, 56749, 39790, 54073, 21049, 274, 45471, 36382, 5627, 28190, 1226, 1, 33029, 1, 18828, 1160, 352, 7013, 33878, 27033, 48007, 8043, 44716, 57119, 54024, 261, 1211, 337, 1, 33839, 269, 430, 8623, 30174, 15258, 47378, 27059, 35611, 45567, 49407, 59477]),
   (189, [1, 9475, 49273, 1, 60921, 274, 45471, 36382, 1, 28764, 439, 21044, 33029, 506, 18828, 1, 292, 7013, 33080, 27033, 1, 24776, 34405, 33114, 43713, 261, 1, 337, 2187, 34414, 269, 1, 8494, 30174, 15258, 1, 27059, 35611, 45567, 31934, 49166]),
   (190, [5994, 9475, 32647, 51554, 26293, 274, 45471, 36382, 27444, 28835, 65514, 21194, 64126, 8458, 18828, 1847, 292, 43320, 94, 27033, 21119, 44051, 12867, 25145, 26737, 261, 65485, 337, 61080, 63, 269, 1895, 1898, 30174, 15258, 51934, 27059, 35611, 45567, 31934, 28643]),
   (191, [19867, 51582, 7348, 1, 1, 274, 1, 11614, 41588, 1, 1, 1, 30, 1, 31895, 1, 349, 1, 8471, 1, 63978, 51232, 19820, 58236, 29128, 261, 1, 1, 1, 1, 296, 1, 1, 9016, 31678, 1, 1, 10843, 36753, 63773, 34581]),
   (192, [7302, 59710, 34551, 21870, 1, 274, 1, 11614, 11957, 22564, 144, 39298, 28902, 1, 1, 1, 349, 1, 28927, 9571, 51256, 51232, 19820, 58236, 29128, 261, 1, 167, 35146, 29129, 296, 1, 1, 1, 35640, 25755, 1, 10843, 32399, 63773, 34581]),
   (193, [1, 8513, 7348, 1, 1, 274, 1, 11614, 1, 1, 1, 1, 1, 1, 1, 1, 349, 1, 1, 1, 63978, 115, 1, 1, 1, 261, 1, 1, 1, 1, 296, 1, 1, 1, 1, 1, 1, 10843, 36753, 12547, 1]),
   (194, [46945, 51582, 7348, 1, 1, 274, 1, 11614, 16937, 62504, 1, 1, 65377, 1, 1, 1, 349, 1, 9891, 62313, 63978, 51232, 19820, 58236, 29128, 261, 1, 1, 1, 8472, 296, 1, 1, 76, 31108, 63098, 62371, 10843, 36753, 63773, 34581]),
   (195, [1, 51321, 44193, 1, 1, 274, 1, 11614, 1, 1, 1, 1, 1, 1, 1, 1, 479, 1, 1, 1, 45815, 50975, 19820, 58236, 53767, 261, 1, 1, 1, 1, 296, 1, 1, 1, 1, 1, 1, 10843, 33476, 62717, 34581]),
   (196, [55909, 51582, 7348, 41837, 23121, 274, 16333, 11614, 4479, 60766, 433, 61125, 61680, 1205, 65430, 458, 349, 1402, 61608, 59961, 63978, 51232, 19820, 58236, 29128, 261, 421, 1771, 25543, 61525, 296, 8971, 8578, 63915, 17682, 61760, 60019, 10843, 36753, 63773, 34581]),
   (197, [28477, 51582, 7348, 30693, 36528, 274, 15805, 11614, 31909, 3160, 449, 30170, 42071, 484, 51916, 8989, 349, 26456, 42096, 35289, 63978, 51232, 19820, 58236, 29128, 261, 598, 472, 65449, 41993, 296, 497, 511, 42396, 64737, 19032, 35347, 10843, 36753, 63773, 34581])]

set_option maxRecDepth 100000 in
theorem sigs_ok : sources.map (fun A => (A.idx, probes.map (code A))) = sigs := by decide +kernel

/-- Some text of the first encoding is not read by the second one, or as other characters. -/
def differ : List Nat → List Nat → Bool
  | a :: l, b :: l' => (Nat.ble 2 a && Nat.ble 1 b && !Nat.beq a b) || differ l l'
  | _, _ => false

theorem differ_sound {A B : Entry} : ∀ {ps : List (List Byte)}, differ (ps.map (code A)) (ps.map (code B)) = true →
    ∃ inp cs, A.Text inp cs ∧ ¬ B.Text inp cs
  | [], h => by simp [differ] at h
  | p :: ps, h => by
    simp only [List.map_cons, differ, Bool.or_eq_true, Bool.and_eq_true, Bool.not_eq_true'] at h
    rcases h with ⟨⟨h1, h2⟩, h3⟩ | h
    · have h1 := Nat.le_of_ble_eq_true h1
      have h2 := Nat.le_of_ble_eq_true h2
      have h3 : code A p ≠ code B p := fun he => by rw [he, Nat.beq_refl] at h3; cases h3
      obtain ⟨cs, hc, he⟩ := code_some h1
      refine ⟨p, cs, hc, fun hB => ?_⟩
      rcases Nat.lt_or_ge (code B p) 2 with hl | hl
      · exact code_none (by omega) cs hB
      · obtain ⟨ds, hd, he'⟩ := code_some hl
        have := hd.det hB
        exact h3 (by rw [he, he', this])
    · exact differ_sound h

end Reiconv.Ext
