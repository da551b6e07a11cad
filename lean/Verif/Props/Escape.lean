import Verif.Codec.Escape
import Verif.Props.Unicode

/-!
# Properties of C99 and JAVA (C26)
-/

namespace Reiconv

/-! ## Specification -/

/-- A hexadecimal digit and its value. -/
def hexVal (b : Byte) : Option Nat :=
  let c := b.toNat
  if 48 ≤ c ∧ c ≤ 57 then some (c - 48)           -- 0-9
  else if 65 ≤ c ∧ c ≤ 70 then some (c - 65 + 10)  -- A-F
  else if 97 ≤ c ∧ c ≤ 102 then some (c - 97 + 10) -- a-f
  else none

/-- The hexadecimal digits `ds` denote the number `v`. -/
inductive Hex : List Byte → Nat → Prop
  | nil : Hex [] 0
  | cons {d ds v w} : hexVal d = some v → Hex ds w → Hex (d :: ds) (v * 16 ^ ds.length + w)

/-- `inp` is Java source text for the characters `cs`: bytes other than the backslash stand for the
Latin-1 character, a backslash not followed by `u` for itself, `\uXXXX` for a character of the basic
plane and a surrogate pair of `\u` escapes for one beyond it. -/
inductive JavaText : List Byte → List Nat → Prop
  | nil : JavaText [] []
  | plain {b inp cs} : b ≠ 0x5c → JavaText inp cs → JavaText (b :: inp) (b.toNat :: cs)
  | backslash {b inp cs} : b ≠ 0x75 → JavaText (b :: inp) cs → JavaText (0x5c :: b :: inp) (0x5c :: cs)
  | bmp {ds v inp cs} : Hex ds v → ds.length = 4 → ¬ (0xd800 ≤ v ∧ v < 0xe000) → JavaText inp cs →
      JavaText (0x5c :: 0x75 :: ds ++ inp) (v :: cs)
  | pair {d1 d2 hi lo inp cs} : Hex d1 hi → d1.length = 4 → Hex d2 lo → d2.length = 4 →
      0xd800 ≤ hi → hi < 0xdc00 → 0xdc00 ≤ lo → lo < 0xe000 → JavaText inp cs →
      JavaText (0x5c :: 0x75 :: d1 ++ (0x5c :: 0x75 :: d2 ++ inp))
        ((0x10000 + (hi - 0xd800) * 1024 + (lo - 0xdc00)) :: cs)

/-- What ISO C 6.4.3 allows as a universal character name, and the range of UCS-4. -/
def C99Name (v : Nat) : Prop :=
  (0xa0 ≤ v ∨ v = 0x24 ∨ v = 0x40 ∨ v = 0x60) ∧ ¬ (0xd800 ≤ v ∧ v < 0xe000)

/-- `inp` is C source text for the characters `cs`: bytes below 0xA0 other than the backslash stand
for themselves, and so does a backslash not followed by `u` or `U`; `\uXXXX` and `\UXXXXXXXX` are
universal character names. -/
inductive C99Text : List Byte → List Nat → Prop
  | nil : C99Text [] []
  | plain {b inp cs} : b < 0xa0 → b ≠ 0x5c → C99Text inp cs → C99Text (b :: inp) (b.toNat :: cs)
  | backslash {b inp cs} : b ≠ 0x75 → b ≠ 0x55 → C99Text (b :: inp) cs →
      C99Text (0x5c :: b :: inp) (0x5c :: cs)
  | short {ds v inp cs} : Hex ds v → ds.length = 4 → C99Name v → C99Text inp cs →
      C99Text (0x5c :: 0x75 :: ds ++ inp) (v :: cs)
  | long {ds v inp cs} : Hex ds v → ds.length = 8 → C99Name v → C99Text inp cs →
      C99Text (0x5c :: 0x55 :: ds ++ inp) (v :: cs)

/-- No backslash in `cs` is the last character or is followed by one of the characters `bad`. -/
def NoEscape (bad : Nat → Prop) : List Nat → Prop
  | [] => True
  | [c] => c ≠ 0x5c
  | c :: d :: cs => (c = 0x5c → ¬ bad d) ∧ NoEscape bad (d :: cs)

/-! ## The digit loop -/

theorem hexVal_escDigit {d : Byte} {v : Nat} (h : hexVal d = some v) :
    escDigit d.toNat = some v ∧ v < 16 := by
  unfold hexVal at h
  unfold escDigit
  dsimp only at h
  by_cases h1 : 48 ≤ d.toNat ∧ d.toNat ≤ 57
  · rw [if_pos h1] at h; cases h
    rw [if_pos (by omega)]; exact ⟨rfl, by omega⟩
  rw [if_neg h1] at h
  by_cases h2 : 65 ≤ d.toNat ∧ d.toNat ≤ 70
  · rw [if_pos h2] at h; cases h
    rw [if_neg (by omega), if_pos (by omega)]
    exact ⟨congrArg some (by omega), by omega⟩
  rw [if_neg h2] at h
  by_cases h3 : 97 ≤ d.toNat ∧ d.toNat ≤ 102
  · rw [if_pos h3] at h; cases h
    rw [if_neg (by omega), if_neg (by omega), if_pos (by omega)]
    exact ⟨congrArg some (by omega), by omega⟩
  · rw [if_neg h3] at h; cases h

theorem Hex.lt {ds : List Byte} {v : Nat} (h : Hex ds v) : v < 16 ^ ds.length := by
  induction h with
  | nil => simp
  | @cons d ds v w hd _ ih =>
    have := (hexVal_escDigit hd).2
    have h2 : v * 16 ^ ds.length ≤ 15 * 16 ^ ds.length := Nat.mul_le_mul_right _ (by omega)
    rw [List.length_cons, Nat.pow_succ]
    omega

theorem escLoop_run {f : Nat → M MbRet} {bs : M MbRet} {ds : List Byte} {v : Nat} (h : Hex ds v) :
    ∀ (pre t : List Byte) (a : Nat), ds.length ≤ 8 →
      (escLoop f bs pre.length ds.length (a * 16 ^ ds.length)).run (pre ++ (ds ++ t)) =
        (f (a * 16 ^ ds.length + v)).run (pre ++ (ds ++ t)) := by
  induction h with
  | nil => intro pre t a _; rfl
  | @cons d ds v w hd hh ih =>
    intro pre t a hl
    obtain ⟨h1, h2⟩ := hexVal_escDigit hd
    have hlen : ds.length + 1 ≤ 8 := hl
    simp only [List.length_cons, escLoop, M.run, List.cons_append]
    rw [if_pos (by simp), List.getElem?_append_right (Nat.le_refl _), Nat.sub_self]
    simp only [List.getElem?_cons_zero, h1]
    have hp : (16 : Nat) ^ ds.length = 2 ^ (4 * ds.length) := by rw [Nat.pow_mul]
    have hb : v * 16 ^ ds.length < 16 ^ (ds.length + 1) := by
      rw [Nat.pow_succ]
      have : v * 16 ^ ds.length ≤ 15 * 16 ^ ds.length := Nat.mul_le_mul_right _ (by omega)
      have : 0 < 16 ^ ds.length := Nat.pow_pos (by omega)
      omega
    have hc : (16 : Nat) ^ (ds.length + 1) ≤ 16 ^ 8 := Nat.pow_le_pow_right (by omega) hlen
    have e1 : (v <<< (4 * ds.length)) % 4294967296 = v * 16 ^ ds.length := by
      rw [Nat.shiftLeft_eq, ← hp, Nat.mod_eq_of_lt (by omega)]
    have e2 : a * 16 ^ (ds.length + 1) ||| v * 16 ^ ds.length = (a * 16 + v) * 16 ^ ds.length := by
      have hp1 : (16 : Nat) ^ (ds.length + 1) = 2 ^ (4 * (ds.length + 1)) := by rw [Nat.pow_mul]
      have := Nat.two_pow_add_eq_or_of_lt (i := 4 * (ds.length + 1)) (b := v * 16 ^ ds.length)
        (by rw [← hp1]; exact hb) a
      rw [← hp1] at this
      rw [Nat.mul_comm a, ← this, Nat.add_mul, Nat.pow_succ, Nat.mul_assoc,
        Nat.mul_comm (16 ^ _) (16 * a), Nat.mul_comm 16 a]
    rw [e1, e2]
    have := ih (pre ++ [d]) t (a * 16 + v) (by omega)
    simp only [List.length_append, List.length_cons, List.length_nil, List.append_assoc,
      List.cons_append, List.nil_append] at this
    rw [this]
    congr 2
    rw [Nat.add_mul, Nat.pow_succ, Nat.mul_assoc, Nat.mul_comm 16, Nat.add_assoc]

/-- The digits of a number are read back. -/
theorem hexChar_val {i : Nat} (h : i < 16) : hexVal (hexChar i) = some i := by
  have : ∀ i : Fin 16, hexVal (hexChar i.1) = some i.1 := by decide
  exact this ⟨i, h⟩

theorem hexStr_hex (k v : Nat) : Hex (hexStr k v) (v % 16 ^ k) := by
  induction k with
  | zero => simp only [hexStr, Nat.pow_zero, Nat.mod_one]; exact .nil
  | succ k ih =>
    have := Hex.cons (hexChar_val (Nat.mod_lt (v / 16 ^ k) (by omega))) ih
    rw [hexStr_length] at this
    rw [hexStr]
    have e : v % 16 ^ (k + 1) = v / 16 ^ k % 16 * 16 ^ k + v % 16 ^ k := by
      rw [Nat.pow_succ, Nat.mod_mul, Nat.mul_comm (16 ^ k), Nat.add_comm]
    rw [e]; exact this

theorem hexStr_hex' {k v : Nat} (h : v < 16 ^ k) : Hex (hexStr k v) v := by
  have := hexStr_hex k v
  rwa [Nat.mod_eq_of_lt h] at this

/-! ## Items -/

theorem run_char {m : M MbRet} {s : List Byte} {wc n : Nat} (h : m.run s = .ok (some (.char wc n))) :
    m.val s = .char wc n := M.val_of_run h

section
variable {idx unit : Nat} {hu : unitOf idx = unit} {m : M MbRet} {hg : M.Good M.RetOK 1 m} {E : Encoder}
  {e : SimpleEnc E}

/-- Put an item before a text. -/
theorem text_item {hu : unitOf idx = 1} {a inp : List Byte} {wc : Nat} {cs : List Nat} (ha : a ≠ [])
    (h : m.run (a ++ inp) = .ok (some (.char wc a.length)))
    (ht : (simpleEntry idx 1 hu (M.simple m hg) e).Text inp cs) :
    (simpleEntry idx 1 hu (M.simple m hg) e).Text (a ++ inp) (wc :: cs) := by
  rw [simple_text] at ht ⊢
  refine .char (n := a.length) (is' := IState.init) (by simp [ha]) ?_ ?_
  · unfold atomOf
    rw [show (M.simple m hg).g (a ++ inp) = .char wc a.length from M.val_of_run h]
  · rwa [List.drop_left]

theorem text_empty {hu : unitOf idx = 1} : (simpleEntry idx 1 hu (M.simple m hg) e).Text [] [] := by
  rw [simple_text]; exact .nil _

end

theorem java_run_plain {b : Byte} (h : b ≠ 0x5c) (t : List Byte) :
    java_mbtowc.run (b :: t) = .ok (some (.char b.toNat 1)) := by
  have : b.toNat ≠ 0x5c := fun hh => h (UInt8.toNat_inj.1 hh)
  simp only [java_mbtowc, M.run, List.getElem?_cons_zero, if_pos this]

theorem java_run_backslash {b : Byte} (h : b ≠ 0x75) (t : List Byte) :
    java_mbtowc.run (0x5c :: b :: t) = .ok (some (.char 0x5c 1)) := by
  have : b.toNat ≠ 0x75 := fun hh => h (UInt8.toNat_inj.1 hh)
  simp only [java_mbtowc, M.run, List.getElem?_cons_zero]
  rw [if_neg (by decide)]
  simp only [M.run, List.getElem?_cons_zero, List.getElem?_cons_succ, List.length_cons]
  rw [if_pos (by omega), if_pos this]
  rfl

theorem loop4 {f : Nat → M MbRet} {bs : M MbRet} {ds : List Byte} {v : Nat} (h : Hex ds v)
    (hl : ds.length = 4) (a b : Byte) (t : List Byte) :
    (escLoop f bs 2 4 0).run (a :: b :: (ds ++ t)) = (f v).run (a :: b :: (ds ++ t)) := by
  have := escLoop_run (f := f) (bs := bs) h [a, b] t 0 (by omega)
  rw [hl] at this
  simpa using this

theorem java_run_bmp {ds : List Byte} {v : Nat} (h : Hex ds v) (hl : ds.length = 4)
    (hv : ¬ (0xd800 ≤ v ∧ v < 0xe000)) (t : List Byte) :
    java_mbtowc.run (0x5c :: 0x75 :: (ds ++ t)) = .ok (some (.char v 6)) := by
  simp only [java_mbtowc, M.run, List.getElem?_cons_zero]
  rw [if_neg (by decide)]
  simp only [M.run, List.getElem?_cons_zero, List.getElem?_cons_succ, List.length_cons]
  rw [if_pos (by omega), if_neg (by decide), loop4 h hl, if_pos (by omega)]
  rfl

theorem java_run_pair {d1 d2 : List Byte} {hi lo : Nat} (h1 : Hex d1 hi) (hl1 : d1.length = 4)
    (h2 : Hex d2 lo) (hl2 : d2.length = 4) (a1 : 0xd800 ≤ hi) (a2 : hi < 0xdc00) (a3 : 0xdc00 ≤ lo)
    (a4 : lo < 0xe000) (t : List Byte) :
    java_mbtowc.run (0x5c :: 0x75 :: (d1 ++ (0x5c :: 0x75 :: (d2 ++ t)))) =
      .ok (some (.char (0x10000 + (hi - 0xd800) * 1024 + (lo - 0xdc00)) 12)) := by
  simp only [java_mbtowc, M.run, List.getElem?_cons_zero]
  rw [if_neg (by decide)]
  simp only [M.run, List.getElem?_cons_zero, List.getElem?_cons_succ, List.length_cons]
  rw [if_pos (by omega), if_neg (by decide), loop4 h1 hl1, if_neg (by omega), if_neg (by omega)]
  have e6 : (0x5c :: 0x75 :: (d1 ++ (0x5c :: 0x75 :: (d2 ++ t))) : List Byte)[6]? = some 0x5c := by
    simp only [List.getElem?_cons_succ]
    rw [List.getElem?_append_right (by omega), hl1]; rfl
  have e7 : (0x5c :: 0x75 :: (d1 ++ (0x5c :: 0x75 :: (d2 ++ t))) : List Byte)[7]? = some 0x75 := by
    simp only [List.getElem?_cons_succ]
    rw [List.getElem?_append_right (by omega), hl1]; rfl
  have hlen : (0x5c :: 0x75 :: (d1 ++ (0x5c :: 0x75 :: (d2 ++ t))) : List Byte).length = 12 + t.length := by
    simp only [List.length_cons, List.length_append, hl1, hl2]; omega
  simp only [M.run, hlen]
  rw [if_pos (by omega), e6]
  dsimp only
  rw [if_neg (by decide)]
  simp only [M.run, hlen]
  rw [if_pos (by omega), e7]
  dsimp only
  rw [if_neg (by decide)]
  have hs := escLoop_run (f := fun wc2 => if ¬ (wc2 ≥ 0xdc00 ∧ wc2 < 0xe000) then simplyBackslash
      else .ret (.char (0x10000 + ((hi - 0xd800) <<< 10) + (wc2 - 0xdc00)) 12)) (bs := simplyBackslash) h2
      (0x5c :: 0x75 :: (d1 ++ [0x5c, 0x75])) t 0 (by omega)
  simp only [hl2, List.length_cons, List.length_append, hl1, List.length_nil, Nat.zero_mul, Nat.zero_add,
    List.cons_append, List.append_assoc, List.nil_append] at hs
  rw [hs, if_neg (by omega)]
  simp only [M.run, Nat.shiftLeft_eq]

/-- C26, JAVA. Java source text is decoded as the language defines it. -/
theorem java_text {inp : List Byte} {cs : List Nat} (h : JavaText inp cs) : java_entry.Text inp cs := by
  induction h with
  | nil => exact text_empty
  | @plain b inp cs hb _ ih => exact text_item (a := [b]) (by simp) (java_run_plain hb inp) ih
  | @backslash b inp cs hb _ ih =>
    exact text_item (a := [0x5c]) (by simp) (java_run_backslash hb inp) ih
  | @bmp ds v inp cs h1 h2 h3 _ ih =>
    refine text_item (a := 0x5c :: 0x75 :: ds) (by simp) ?_ ih
    simp only [List.length_cons, h2]
    exact java_run_bmp h1 h2 h3 inp
  | @pair d1 d2 hi lo inp cs h1 h2 h3 h4 a1 a2 a3 a4 _ ih =>
    have := text_item (a := 0x5c :: 0x75 :: (d1 ++ (0x5c :: 0x75 :: d2))) (by simp) (by
      simp only [List.length_cons, List.length_append, h2, h4, List.cons_append, List.append_assoc]
      exact java_run_pair h1 h2 h3 h4 a1 a2 a3 a4 inp) ih
    simp only [List.cons_append, List.append_assoc] at this ⊢
    exact this

theorem c99_run_plain {b : Byte} (h0 : b < 0xa0) (h : b ≠ 0x5c) (t : List Byte) :
    c99_mbtowc.run (b :: t) = .ok (some (.char b.toNat 1)) := by
  have h1 : b.toNat ≠ 0x5c := fun hh => h (UInt8.toNat_inj.1 hh)
  have h2 : b.toNat < 0xa0 := h0
  simp only [c99_mbtowc, M.run, List.getElem?_cons_zero, if_pos h1, if_pos h2]

theorem c99_run_backslash {b : Byte} (h : b ≠ 0x75) (h' : b ≠ 0x55) (t : List Byte) :
    c99_mbtowc.run (0x5c :: b :: t) = .ok (some (.char 0x5c 1)) := by
  have h1 : b.toNat ≠ 0x75 := fun hh => h (UInt8.toNat_inj.1 hh)
  have h2 : b.toNat ≠ 0x55 := fun hh => h' (UInt8.toNat_inj.1 hh)
  simp only [c99_mbtowc, M.run, List.getElem?_cons_zero]
  rw [if_pos (by decide), if_neg (by decide)]
  simp only [M.run, List.getElem?_cons_zero, List.getElem?_cons_succ, List.length_cons]
  rw [if_pos (by omega), if_neg h1, if_neg h2]
  rfl

theorem C99Name.allowed {v : Nat} (h : C99Name v) : c99Allowed v := by
  unfold C99Name at h; unfold c99Allowed; omega

theorem c99_run_short {ds : List Byte} {v : Nat} (h : Hex ds v) (hl : ds.length = 4) (hv : C99Name v)
    (t : List Byte) : c99_mbtowc.run (0x5c :: 0x75 :: (ds ++ t)) = .ok (some (.char v 6)) := by
  simp only [c99_mbtowc, M.run, List.getElem?_cons_zero]
  rw [if_pos (by decide), if_neg (by decide)]
  simp only [M.run, List.getElem?_cons_zero, List.getElem?_cons_succ, List.length_cons]
  rw [if_pos (by omega), if_pos (by decide), loop4 h hl, if_pos hv.allowed]
  rfl

theorem c99_run_long {ds : List Byte} {v : Nat} (h : Hex ds v) (hl : ds.length = 8) (hv : C99Name v)
    (t : List Byte) : c99_mbtowc.run (0x5c :: 0x55 :: (ds ++ t)) = .ok (some (.char v 10)) := by
  simp only [c99_mbtowc, M.run, List.getElem?_cons_zero]
  rw [if_pos (by decide), if_neg (by decide)]
  simp only [M.run, List.getElem?_cons_zero, List.getElem?_cons_succ, List.length_cons]
  have hs := escLoop_run (f := fun wc => if c99Allowed wc then .ret (.char wc 10) else .ret (.ilseq 0))
      (bs := simplyBackslash) h [0x5c, 0x55] t 0 (by omega)
  simp only [hl, List.length_cons, List.length_nil, Nat.zero_mul, Nat.zero_add, List.cons_append,
    List.nil_append] at hs
  rw [if_pos (by omega), if_neg (by decide), if_pos (by decide), hs, if_pos hv.allowed]
  rfl

theorem c99_text {inp : List Byte} {cs : List Nat} (h : C99Text inp cs) : c99_entry.Text inp cs := by
  induction h with
  | nil => exact text_empty
  | @plain b inp cs h0 hb _ ih => exact text_item (a := [b]) (by simp) (c99_run_plain h0 hb inp) ih
  | @backslash b inp cs hb hb' _ ih =>
    exact text_item (a := [0x5c]) (by simp) (c99_run_backslash hb hb' inp) ih
  | @short ds v inp cs h1 h2 h3 _ ih =>
    refine text_item (a := 0x5c :: 0x75 :: ds) (by simp) ?_ ih
    simp only [List.length_cons, h2]
    exact c99_run_short h1 h2 h3 inp
  | @long ds v inp cs h1 h2 h3 _ ih =>
    refine text_item (a := 0x5c :: 0x55 :: ds) (by simp) ?_ ih
    simp only [List.length_cons, h2]
    exact c99_run_long h1 h2 h3 inp

/-! ## The encoders write such text -/

theorem java_first {c : Nat} (h : c ≠ 0x75) : ∃ b t, javaStr c = b :: t ∧ b ≠ 0x75 := by
  unfold javaStr
  split
  · refine ⟨_, _, rfl, fun hh => h ?_⟩
    have := congrArg UInt8.toNat hh
    rw [u8_toNat] at this
    have h2 : (0x75 : Byte).toNat = 0x75 := rfl
    omega
  split
  · exact ⟨_, _, rfl, by decide⟩
  · exact ⟨_, _, rfl, by decide⟩

theorem c99_first {c : Nat} (h : c ≠ 0x75) (h' : c ≠ 0x55) :
    ∃ b t, c99Str c = b :: t ∧ b ≠ 0x75 ∧ b ≠ 0x55 := by
  unfold c99Str
  split
  · refine ⟨_, _, rfl, fun hh => h ?_, fun hh => h' ?_⟩
    · have := congrArg UInt8.toNat hh
      rw [u8_toNat] at this
      have h2 : (0x75 : Byte).toNat = 0x75 := rfl
      omega
    · have := congrArg UInt8.toNat hh
      rw [u8_toNat] at this
      have h2 : (0x55 : Byte).toNat = 0x55 := rfl
      omega
  split
  · exact ⟨_, _, rfl, by decide, by decide⟩
  · exact ⟨_, _, rfl, by decide, by decide⟩

theorem u8_ne {c : Nat} {b : Byte} (hc : c < 256) (h : c ≠ b.toNat) : u8 c ≠ b := by
  intro hh
  have := congrArg UInt8.toNat hh
  rw [u8_toNat, Nat.mod_eq_of_lt hc] at this
  exact h this

theorem java_written {cs : List Nat} (h1 : ∀ c ∈ cs, Scalar c) (h2 : NoEscape (· = 0x75) cs) :
    JavaText (cs.flatMap javaStr) cs := by
  induction cs with
  | nil => exact .nil
  | cons c cs ih =>
    have hc : Scalar c := h1 c (by simp)
    have htail : NoEscape (· = 0x75) cs := by
      cases cs with
      | nil => trivial
      | cons d cs => exact h2.2
    have ih := ih (fun c hc => h1 c (by simp [hc])) htail
    rw [List.flatMap_cons]
    by_cases hb : c = 0x5c
    · subst hb
      cases cs with
      | nil => exact absurd rfl h2
      | cons d cs =>
        obtain ⟨b, t, hd, hb⟩ := java_first (h2.1 rfl)
        rw [List.flatMap_cons, hd] at ih ⊢
        exact .backslash hb ih
    · unfold Scalar at hc
      rw [javaStr]
      by_cases a1 : c < 0x80
      · rw [if_pos a1]
        have := JavaText.plain (u8_ne (b := 0x5c) (by omega) hb) ih
        rwa [u8_toNat, Nat.mod_eq_of_lt (by omega)] at this
      rw [if_neg a1]
      by_cases a2 : c < 0x10000
      · rw [if_pos a2]
        exact .bmp (hexStr_hex' a2) (hexStr_length _ _) (by omega) ih
      · rw [if_neg a2]
        have := JavaText.pair (hexStr_hex' (k := 4) (v := 0xd800 + (c - 0x10000) / 1024) (by omega))
          (hexStr_length _ _) (hexStr_hex' (k := 4) (v := 0xdc00 + (c - 0x10000) % 1024) (by omega))
          (hexStr_length _ _) (by omega) (by omega) (by omega) (by omega) ih
        rw [show 0x10000 + (0xd800 + (c - 0x10000) / 1024 - 0xd800) * 1024 +
          (0xdc00 + (c - 0x10000) % 1024 - 0xdc00) = c by omega] at this
        simp only [List.cons_append, List.append_assoc] at this ⊢
        exact this

theorem c99_written {cs : List Nat} (h1 : ∀ c ∈ cs, Scalar c)
    (h2 : NoEscape (fun c => c = 0x75 ∨ c = 0x55) cs) :
    C99Text (cs.flatMap c99Str) cs := by
  induction cs with
  | nil => exact .nil
  | cons c cs ih =>
    have hc : Scalar c := h1 c (by simp)
    have htail : NoEscape (fun c => c = 0x75 ∨ c = 0x55) cs := by
      cases cs with
      | nil => trivial
      | cons d cs => exact h2.2
    have ih := ih (fun c hc => h1 c (by simp [hc])) htail
    rw [List.flatMap_cons]
    by_cases hb : c = 0x5c
    · subst hb
      cases cs with
      | nil => exact absurd rfl h2
      | cons d cs =>
        have := h2.1 rfl
        obtain ⟨b, t, hd, hb, hb'⟩ := c99_first (c := d) (fun h => this (Or.inl h)) (fun h => this (Or.inr h))
        rw [List.flatMap_cons, hd] at ih ⊢
        exact .backslash hb hb' ih
    · unfold Scalar at hc
      rw [c99Str]
      by_cases a1 : c < 0xa0
      · rw [if_pos a1]
        have hlt : u8 c < 0xa0 := by
          show (u8 c).toNat < 0xa0
          rw [u8_toNat]; omega
        have := C99Text.plain hlt (u8_ne (b := 0x5c) (by omega) hb) ih
        rwa [u8_toNat, Nat.mod_eq_of_lt (by omega)] at this
      rw [if_neg a1]
      by_cases a2 : c < 0x10000
      · rw [if_pos a2]
        exact .short (hexStr_hex' a2) (hexStr_length _ _) (by unfold C99Name; omega) ih
      · rw [if_neg a2]
        exact .long (hexStr_hex' (by omega)) (hexStr_length _ _) (by unfold C99Name; omega) ih

theorem java_encodes {cs : List Nat} (h : ∀ c ∈ cs, Scalar c) :
    java_entry.Encodes cs (cs.flatMap javaStr) :=
  simple_encodes.2 ((java_senc.text_flatMap (P := fun c => c < 0x110000) (fun _ => rfl)).2
    ⟨fun c hc => (h c hc).lt, rfl⟩)

theorem c99_encodes {cs : List Nat} : c99_entry.Encodes cs (cs.flatMap c99Str) :=
  simple_encodes.2 ((c99_senc.text_flatMap (P := fun _ => True) (fun _ => by simp; rfl)).2
    ⟨fun _ _ => trivial, rfl⟩)

/-! ## C26 -/

/-- C26, decoding. Text with `\u` escapes, written with hexadecimal digits of either case, is
converted to the characters that it denotes. -/
theorem C26_escapes_decode (B : Entry) (discard : Bool) (inp out : List Byte) (cs : List Nat)
    (hB : B.Encodes cs out) (alloc : Nat → List Byte) (hal : ∀ n, (alloc n).length = n) :
    (JavaText inp cs → ∃ r, convert (java_entry.conv B discard) St.init inp true true
        (fun n => some (alloc n)) = .ok r ∧ r.ret = .ok () ∧ r.data = some out) ∧
    (C99Text inp cs → ∃ r, convert (c99_entry.conv B discard) St.init inp true true
        (fun n => some (alloc n)) = .ok r ∧ r.ret = .ok () ∧ r.data = some out) := by
  constructor
  · intro h
    obtain ⟨r, h1, h2, _, h3⟩ := convert_text (A := java_entry) (B := B) discard simple_fixed
      (java_text h) hB alloc hal
    exact ⟨r, h1, h2, h3⟩
  · intro h
    obtain ⟨r, h1, h2, _, h3⟩ := convert_text (A := c99_entry) (B := B) discard simple_fixed
      (c99_text h) hB alloc hal
    exact ⟨r, h1, h2, h3⟩

/-- The text `a\u20aC\uD83d\uDe00\n` is Java for the four characters a, U+20AC, U+1F600, a
backslash and n. -/
example : JavaText [0x61, 0x5c, 0x75, 0x32, 0x30, 0x61, 0x43, 0x5c, 0x75, 0x44, 0x38, 0x33, 0x64, 0x5c,
    0x75, 0x44, 0x65, 0x30, 0x30, 0x5c, 0x6e] [0x61, 0x20ac, 0x1f600, 0x5c, 0x6e] := by
  refine .plain (by decide) ?_
  refine JavaText.bmp (ds := [0x32, 0x30, 0x61, 0x43]) (v := 0x20ac)
    (.cons (v := 2) (w := 0xac) rfl (.cons (v := 0) (w := 0xac) rfl (.cons (v := 10) (w := 12) rfl
      (.cons (v := 12) (w := 0) rfl .nil)))) rfl (by omega) ?_
  refine JavaText.pair (d1 := [0x44, 0x38, 0x33, 0x64]) (d2 := [0x44, 0x65, 0x30, 0x30]) (hi := 0xd83d)
    (lo := 0xde00)
    (.cons (v := 13) (w := 0x83d) rfl (.cons (v := 8) (w := 0x3d) rfl (.cons (v := 3) (w := 13) rfl
      (.cons (v := 13) (w := 0) rfl .nil)))) rfl
    (.cons (v := 13) (w := 0xe00) rfl (.cons (v := 14) (w := 0) rfl (.cons (v := 0) (w := 0) rfl
      (.cons (v := 0) (w := 0) rfl .nil)))) rfl (by omega) (by omega) (by omega) (by omega) ?_
  refine .backslash (by decide) ?_
  exact .plain (by decide) .nil

/-- C26, round trip. Converting a text to C99 or JAVA and back gives the text again, as long as no
backslash in it is followed by `u` (in C99 also `U`) or ends it. What is missing: the encoders do not
escape backslashes, so texts with such backslashes do not come back (`C26_backslash_lost`). -/
theorem C26_round_trip_partial (A B : Entry) (discard : Bool) (hA : A.FixedOrder) (inp out : List Byte)
    (cs : List Nat) (hin : A.Text inp cs) (hcs : ∀ c ∈ cs, Scalar c) (hB : B.Encodes cs out)
    (alloc : Nat → List Byte) (hal : ∀ n, (alloc n).length = n) :
    (NoEscape (· = 0x75) cs → ∃ r r',
      convert (A.conv java_entry discard) St.init inp true true (fun n => some (alloc n)) = .ok r ∧
      r.ret = .ok () ∧ r.data = some (cs.flatMap javaStr) ∧
      convert (java_entry.conv B discard) St.init (cs.flatMap javaStr) true true
        (fun n => some (alloc n)) = .ok r' ∧ r'.ret = .ok () ∧ r'.data = some out) ∧
    (NoEscape (fun c => c = 0x75 ∨ c = 0x55) cs → ∃ r r',
      convert (A.conv c99_entry discard) St.init inp true true (fun n => some (alloc n)) = .ok r ∧
      r.ret = .ok () ∧ r.data = some (cs.flatMap c99Str) ∧
      convert (c99_entry.conv B discard) St.init (cs.flatMap c99Str) true true
        (fun n => some (alloc n)) = .ok r' ∧ r'.ret = .ok () ∧ r'.data = some out) := by
  constructor
  · intro h
    obtain ⟨r, h1, h2, _, h3⟩ := convert_text (A := A) (B := java_entry) discard hA hin
      (java_encodes hcs) alloc hal
    obtain ⟨r', h4⟩ := (C26_escapes_decode B discard _ out cs hB alloc hal).1 (java_written hcs h)
    exact ⟨r, r', h1, h2, h3, h4⟩
  · intro h
    obtain ⟨r, h1, h2, _, h3⟩ := convert_text (A := A) (B := c99_entry) discard hA hin
      c99_encodes alloc hal
    obtain ⟨r', h4⟩ := (C26_escapes_decode B discard _ out cs hB alloc hal).2 (c99_written hcs h)
    exact ⟨r, r', h1, h2, h3, h4⟩

/-- A text with all kinds of characters and a harmless backslash meets the hypotheses. -/
example : (∀ c ∈ [0x61, 0x5c, 0x6e, 0xe9, 0x20ac, 0x1f600], Scalar c) ∧
    NoEscape (· = 0x75) [0x61, 0x5c, 0x6e, 0xe9, 0x20ac, 0x1f600] ∧
    ucs4be_entry.Encodes [0x61, 0x5c, 0x6e, 0xe9, 0x20ac, 0x1f600]
      ([0x61, 0x5c, 0x6e, 0xe9, 0x20ac, 0x1f600].flatMap b32) :=
  ⟨by decide, by simp [NoEscape], ucs4be_encodes⟩

/-- C26 fails for backslashes: the six character text `\u0041` comes back from JAVA as `A`, C99
rejects its own output, and a text that ends in a backslash comes back as an error. -/
theorem C26_backslash_lost :
    (convert (ascii_entry.conv java_entry false) St.init [0x5c, 0x75, 0x30, 0x30, 0x34, 0x31]
        true true (fun n => some (List.replicate n 0)) =
      .ok ⟨.ok (), St.init, some 6, some [0x5c, 0x75, 0x30, 0x30, 0x34, 0x31]⟩) ∧
    (convert (java_entry.conv ascii_entry false) St.init [0x5c, 0x75, 0x30, 0x30, 0x34, 0x31]
        true true (fun n => some (List.replicate n 0)) =
      .ok ⟨.ok (), St.init, some 1, some [0x41]⟩) ∧
    (convert (c99_entry.conv ascii_entry false) St.init [0x5c, 0x75, 0x30, 0x30, 0x34, 0x31]
        true true (fun n => some (List.replicate n 0)) =
      .ok ⟨.error .EILSEQ, St.init, none, none⟩) ∧
    (convert (java_entry.conv ascii_entry false) St.init [0x41, 0x5c]
        true true (fun n => some (List.replicate n 0)) =
      .ok ⟨.error .EILSEQ, St.init, none, none⟩) ∧
    (convert (c99_entry.conv ascii_entry false) St.init [0x41, 0x5c]
        true true (fun n => some (List.replicate n 0)) =
      .ok ⟨.error .EILSEQ, St.init, none, none⟩) := by
  refine ⟨?_, ?_, ?_, ?_, ?_⟩ <;> decide +kernel

/-- C26 fails for letters beyond F: `\u00G1` is read as U+0101, in C99 and in JAVA. -/
theorem C26_letters_beyond_f :
    hexVal 0x47 = none ∧
    (convert (java_entry.conv ucs4be_entry false) St.init [0x5c, 0x75, 0x30, 0x30, 0x47, 0x31]
        true true (fun n => some (List.replicate n 0)) =
      .ok ⟨.ok (), St.init, some 4, some [0, 0, 1, 1]⟩) ∧
    (convert (c99_entry.conv ucs4be_entry false) St.init [0x5c, 0x75, 0x30, 0x30, 0x47, 0x31]
        true true (fun n => some (List.replicate n 0)) =
      .ok ⟨.ok (), St.init, some 4, some [0, 0, 1, 1]⟩) := by
  refine ⟨rfl, ?_, ?_⟩ <;> decide +kernel

/-- A decimal digit or an ASCII letter. -/
def Alnum (b : Byte) : Prop :=
  (48 ≤ b.toNat ∧ b.toNat ≤ 57) ∨ (65 ≤ b.toNat ∧ b.toNat ≤ 90) ∨ (97 ≤ b.toNat ∧ b.toNat ≤ 122)

theorem escDigit_alnum {b : Byte} : escDigit b.toNat = none ↔ ¬ Alnum b := by
  unfold escDigit Alnum
  split
  · simp; omega
  split
  · simp; omega
  split
  · simp; omega
  · simp; omega

theorem escLoop_stop {f : Nat → M MbRet} {bs : M MbRet} {ds : List Byte} (b : Byte) (t : List Byte)
    (h : ∀ d ∈ ds, Alnum d) (hb : ¬ Alnum b) :
    ∀ (pre : List Byte) (k a : Nat), ds.length < k →
      (escLoop f bs pre.length k a).run (pre ++ (ds ++ b :: t)) = bs.run (pre ++ (ds ++ b :: t)) := by
  induction ds with
  | nil =>
    intro pre k a hk
    obtain ⟨k, rfl⟩ : ∃ j, k = j + 1 := ⟨k - 1, by simp at hk; omega⟩
    simp only [escLoop, M.run, List.nil_append]
    rw [if_pos (by simp), List.getElem?_append_right (Nat.le_refl _), Nat.sub_self]
    simp only [List.getElem?_cons_zero, escDigit_alnum.2 hb]
  | cons d ds ih =>
    intro pre k a hk
    obtain ⟨k, rfl⟩ : ∃ j, k = j + 1 := ⟨k - 1, by simp at hk; omega⟩
    simp only [escLoop, M.run, List.cons_append]
    rw [if_pos (by simp), List.getElem?_append_right (Nat.le_refl _), Nat.sub_self]
    have hd : escDigit d.toNat ≠ none := fun hh => escDigit_alnum.1 hh (h d (by simp))
    obtain ⟨v, hv⟩ := Option.ne_none_iff_exists'.1 hd
    simp only [List.getElem?_cons_zero, hv]
    have := ih (fun d hd => h d (by simp [hd])) (pre ++ [d]) k (a ||| v <<< (4 * k) % 4294967296)
      (by simp at hk; omega)
    simpa only [List.length_append, List.length_cons, List.length_nil, List.append_assoc,
      List.cons_append, List.nil_append] using this

theorem text_item_iff {idx : Nat} {hu : unitOf idx = 1} {m : M MbRet} {hg : M.Good M.RetOK 1 m}
    {E : Encoder} {e : SimpleEnc E} {b : Byte} {inp : List Byte} {wc : Nat} {cs : List Nat}
    (h : m.run (b :: inp) = .ok (some (.char wc 1))) :
    (simpleEntry idx 1 hu (M.simple m hg) e).Text (b :: inp) cs ↔
      ∃ cs', cs = wc :: cs' ∧ (simpleEntry idx 1 hu (M.simple m hg) e).Text inp cs' := by
  constructor
  · intro ht
    rw [simple_text] at ht
    have hat : atomOf (M.simple m hg).g IState.init (b :: inp) = .char wc 1 IState.init := by
      unfold atomOf
      rw [show (M.simple m hg).g (b :: inp) = .char wc 1 from M.val_of_run h]
    cases ht with
    | char _ ha ht =>
      rw [hat] at ha; cases ha
      exact ⟨_, rfl, simple_text.2 ht⟩
    | shift _ ha _ => exact absurd ha atomOf_shift
  · rintro ⟨cs', rfl, ht⟩
    exact text_item (a := [b]) (by simp) h ht

/-- C26, what is not an escape. A `\u` (in C99 also `\U`) with a character that is neither a digit
nor a letter among the next four (eight) stands for itself. What is missing: the letters from G on
count as digits (`C26_letters_beyond_f`). -/
theorem C26_not_an_escape_partial (ds : List Byte) (b : Byte) (t : List Byte) (cs : List Nat)
    (h : ∀ d ∈ ds, Alnum d) (hb : ¬ Alnum b) :
    (ds.length < 4 → (java_entry.Text (0x5c :: 0x75 :: (ds ++ b :: t)) cs ↔
      ∃ cs', cs = 0x5c :: cs' ∧ java_entry.Text (0x75 :: (ds ++ b :: t)) cs')) ∧
    (ds.length < 4 → (c99_entry.Text (0x5c :: 0x75 :: (ds ++ b :: t)) cs ↔
      ∃ cs', cs = 0x5c :: cs' ∧ c99_entry.Text (0x75 :: (ds ++ b :: t)) cs')) ∧
    (ds.length < 8 → (c99_entry.Text (0x5c :: 0x55 :: (ds ++ b :: t)) cs ↔
      ∃ cs', cs = 0x5c :: cs' ∧ c99_entry.Text (0x55 :: (ds ++ b :: t)) cs')) := by
  refine ⟨fun hl => text_item_iff ?_, fun hl => text_item_iff ?_, fun hl => text_item_iff ?_⟩
  · simp only [java_mbtowc, M.run, List.getElem?_cons_zero, List.getElem?_cons_succ, List.length_cons]
    rw [if_neg (by decide)]
    simp only [M.run, List.getElem?_cons_zero, List.getElem?_cons_succ, List.length_cons]
    rw [if_pos (by omega), if_neg (by decide)]
    exact escLoop_stop b t h hb [0x5c, 0x75] 4 0 hl
  · simp only [c99_mbtowc, M.run, List.getElem?_cons_zero, List.getElem?_cons_succ, List.length_cons]
    rw [if_pos (by decide), if_neg (by decide)]
    simp only [M.run, List.getElem?_cons_zero, List.getElem?_cons_succ, List.length_cons]
    rw [if_pos (by omega), if_pos (by decide)]
    exact escLoop_stop b t h hb [0x5c, 0x75] 4 0 hl
  · simp only [c99_mbtowc, M.run, List.getElem?_cons_zero, List.getElem?_cons_succ, List.length_cons]
    rw [if_pos (by decide), if_neg (by decide)]
    simp only [M.run, List.getElem?_cons_zero, List.getElem?_cons_succ, List.length_cons]
    rw [if_pos (by omega), if_neg (by decide), if_pos (by decide)]
    exact escLoop_stop b t h hb [0x5c, 0x55] 8 0 hl

/-- `\u00-0`: the hyphen ends it. -/
example : (∀ d ∈ [(0x30 : Byte), 0x30], Alnum d) ∧ ¬ Alnum 0x2d ∧ [(0x30 : Byte), 0x30].length < 4 := by
  unfold Alnum; decide

end Reiconv
