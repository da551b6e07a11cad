import Verif.Props.Escape
import Verif.Props.Single

/-!
# C57: exactly which texts C99 and JAVA read
-/

namespace Reiconv

/-! ## Specification -/

/-- The digits the converters accept: decimal digits and all 26 letters, of either case, a letter standing for its
place in the alphabet plus 9. -/
def looseVal (b : Byte) : Option Nat :=
  let c := b.toNat
  if 48 ≤ c ∧ c ≤ 57 then some (c - 48)            -- 0-9
  else if 65 ≤ c ∧ c ≤ 90 then some (c - 65 + 10)   -- A-Z
  else if 97 ≤ c ∧ c ≤ 122 then some (c - 97 + 10)  -- a-z
  else none

/-- The digits `ds` are read as the number `v`: four bits per digit in 32 bits, where digits above 15 spill over into
the digit before. -/
inductive Loose : List Byte → Nat → Prop
  | nil : Loose [] 0
  | cons {d ds v w} : looseVal d = some v → Loose ds w → Loose (d :: ds) (v * 16 ^ ds.length % 2 ^ 32 ||| w)

/-- `k` digits. -/
def Digits (k : Nat) (ds : List Byte) (v : Nat) : Prop := ds.length = k ∧ Loose ds v

/-- Whatever follows, `s` does not begin with one of `E`. -/
def Never (E : List Byte → Prop) (s : List Byte) : Prop := ∀ t e, E e → ¬ e <+: s ++ t

/-- What follows the backslash of a `\u` escape. -/
def ShortEscape (e : List Byte) : Prop := ∃ ds v, Digits 4 ds v ∧ e = 0x75 :: ds

/-- What follows the backslash of a `\U` escape. -/
def LongEscape (e : List Byte) : Prop := ∃ ds v, Digits 8 ds v ∧ e = 0x55 :: ds

/-- `JavaItem a s c`: where `s` follows, the bytes `a` are one item of JAVA text and stand for the character `c`. -/
inductive JavaItem : List Byte → List Byte → Nat → Prop
  /-- Any byte but the backslash, in Latin-1. -/
  | plain {b s} : b ≠ 0x5c → JavaItem [b] s b.toNat
  /-- `\uXXXX`. -/
  | bmp {ds v s} : Digits 4 ds v → ¬ (0xd800 ≤ v ∧ v < 0xe000) → JavaItem (0x5c :: 0x75 :: ds) s v
  /-- Two escapes for a surrogate pair. -/
  | pair {d1 d2 hi lo s} : Digits 4 d1 hi → Digits 4 d2 lo → 0xd800 ≤ hi → hi < 0xdc00 → 0xdc00 ≤ lo → lo < 0xe000 →
      JavaItem (0x5c :: 0x75 :: d1 ++ 0x5c :: 0x75 :: d2) s (0x10000 + (hi - 0xd800) * 1024 + (lo - 0xdc00))
  /-- A backslash that no further input can make an escape. -/
  | backslash {s} : Never ShortEscape s → JavaItem [0x5c] s 0x5c
  /-- The backslash of an escape for a low surrogate. -/
  | low {ds v s} : Digits 4 ds v → 0xdc00 ≤ v → v < 0xe000 → JavaItem [0x5c] (0x75 :: ds ++ s) 0x5c
  /-- The backslash of an escape for a high surrogate, after which no further input can make an escape. -/
  | high {ds v s} : Digits 4 ds v → 0xd800 ≤ v → v < 0xdc00 → Never (fun e => ∃ e', ShortEscape e' ∧ e = 0x5c :: e') s →
      JavaItem [0x5c] (0x75 :: ds ++ s) 0x5c
  /-- The backslash of an escape for a high surrogate before an escape for anything but a low surrogate. -/
  | unpaired {d1 d2 hi v s} : Digits 4 d1 hi → 0xd800 ≤ hi → hi < 0xdc00 → Digits 4 d2 v → ¬ (0xdc00 ≤ v ∧ v < 0xe000) →
      JavaItem [0x5c] (0x75 :: d1 ++ 0x5c :: 0x75 :: d2 ++ s) 0x5c

/-- The same for C99. -/
inductive C99Item : List Byte → List Byte → Nat → Prop
  /-- Any byte below A0 but the backslash. -/
  | plain {b s} : b < 0xa0 → b ≠ 0x5c → C99Item [b] s b.toNat
  /-- `\uXXXX`. -/
  | short {ds v s} : Digits 4 ds v → C99Name v → C99Item (0x5c :: 0x75 :: ds) s v
  /-- `\UXXXXXXXX`. -/
  | long {ds v s} : Digits 8 ds v → C99Name v → C99Item (0x5c :: 0x55 :: ds) s v
  /-- A backslash that no further input can make an escape. -/
  | backslash {s} : Never ShortEscape s → Never LongEscape s → C99Item [0x5c] s 0x5c

/-- Texts made of such items. -/
inductive Items (R : List Byte → List Byte → Nat → Prop) : List Byte → List Nat → Prop
  | nil : Items R [] []
  | cons {a s c w} : R a s c → Items R s w → Items R (a ++ s) (c :: w)

/-! ## Digits -/

theorem looseVal_eq (b : Byte) : looseVal b = escDigit b.toNat := by
  unfold looseVal escDigit
  dsimp only
  by_cases h1 : 48 ≤ b.toNat ∧ b.toNat ≤ 57
  · rw [if_pos h1, if_pos (show b.toNat ≥ 0x30 ∧ b.toNat ≤ 0x39 from h1)]
  rw [if_neg h1, if_neg (show ¬ (b.toNat ≥ 0x30 ∧ b.toNat ≤ 0x39) from h1)]
  by_cases h2 : 65 ≤ b.toNat ∧ b.toNat ≤ 90
  · rw [if_pos h2, if_pos (show b.toNat ≥ 0x41 ∧ b.toNat ≤ 0x5a from h2)]; exact congrArg some (by omega)
  rw [if_neg h2, if_neg (show ¬ (b.toNat ≥ 0x41 ∧ b.toNat ≤ 0x5a) from h2)]
  by_cases h3 : 97 ≤ b.toNat ∧ b.toNat ≤ 122
  · rw [if_pos h3, if_pos (show b.toNat ≥ 0x61 ∧ b.toNat ≤ 0x7a from h3)]; exact congrArg some (by omega)
  rw [if_neg h3, if_neg (show ¬ (b.toNat ≥ 0x61 ∧ b.toNat ≤ 0x7a) from h3)]

theorem Loose.mem {ds : List Byte} {v : Nat} (h : Loose ds v) : ∀ d ∈ ds, looseVal d ≠ none := by
  induction h with
  | nil => simp
  | cons h1 _ ih =>
    intro d hd
    rcases List.mem_cons.1 hd with rfl | hd
    · rw [h1]; simp
    · exact ih d hd

theorem loose_of {ds : List Byte} (h : ∀ d ∈ ds, looseVal d ≠ none) : ∃ v, Loose ds v := by
  induction ds with
  | nil => exact ⟨0, .nil⟩
  | cons d ds ih =>
    obtain ⟨w, hw⟩ := ih fun d hd => h d (by simp [hd])
    obtain ⟨v, hv⟩ := Option.ne_none_iff_exists'.1 (h d (by simp))
    exact ⟨_, .cons hv hw⟩

theorem looseVal_alnum {b : Byte} : looseVal b = none ↔ ¬ Alnum b := by
  rw [looseVal_eq]; exact escDigit_alnum

/-- The ways `k` digits can be missing or not. -/
inductive Scan (k : Nat) (t : List Byte) : Prop
  | full (ds v s) : Digits k ds v → t = ds ++ s → Scan k t
  | stop (p b s) : (∀ d ∈ p, Alnum d) → ¬ Alnum b → p.length < k → t = p ++ b :: s → Scan k t
  | short : t.length < k → (∀ d ∈ t, Alnum d) → Scan k t

theorem scan (k : Nat) (t : List Byte) : Scan k t := by
  induction k generalizing t with
  | zero => exact .full [] 0 t ⟨rfl, .nil⟩ rfl
  | succ k ih =>
    cases t with
    | nil => exact .short (by simp) (by simp)
    | cons b t =>
      by_cases hb : Alnum b
      · obtain ⟨v, hv⟩ := Option.ne_none_iff_exists'.1 (fun h => looseVal_alnum.1 h hb)
        rcases ih t with ⟨ds, w, s, h1, rfl⟩ | ⟨p, c, s, h1, h2, h3, rfl⟩ | ⟨h1, h2⟩
        · exact .full (b :: ds) _ s ⟨by simp [h1.1], .cons hv h1.2⟩ rfl
        · refine .stop (b :: p) c s ?_ h2 (by simp; omega) rfl
          intro d hd
          rcases List.mem_cons.1 hd with rfl | hd
          · exact hb
          · exact h1 d hd
        · refine .short (by simp; omega) ?_
          intro d hd
          rcases List.mem_cons.1 hd with rfl | hd
          · exact hb
          · exact h2 d hd
      · exact .stop [] b t (by simp) hb (by simp) rfl

theorem escLoop_full {f : Nat → M MbRet} {bs : M MbRet} {ds : List Byte} {v : Nat} (h : Loose ds v) :
    ∀ (pre t : List Byte) (a : Nat),
      (escLoop f bs pre.length ds.length a).run (pre ++ (ds ++ t)) = (f (a ||| v)).run (pre ++ (ds ++ t)) := by
  induction h with
  | nil => intro pre t a; simp [escLoop]
  | @cons d ds v w hd hh ih =>
    intro pre t a
    rw [looseVal_eq] at hd
    simp only [List.length_cons, escLoop, M.run, List.cons_append]
    rw [if_pos (by simp), List.getElem?_append_right (Nat.le_refl _), Nat.sub_self]
    simp only [List.getElem?_cons_zero, hd]
    have hp : (2 : Nat) ^ (4 * ds.length) = 16 ^ ds.length := by rw [Nat.pow_mul]
    have := ih (pre ++ [d]) t (a ||| v * 16 ^ ds.length % 2 ^ 32)
    simp only [List.length_append, List.length_cons, List.length_nil, List.append_assoc,
      List.cons_append, List.nil_append] at this
    rw [Nat.shiftLeft_eq, hp, show (4294967296 : Nat) = 2 ^ 32 from rfl, this, Nat.or_assoc]

theorem escLoop_short {f : Nat → M MbRet} {bs : M MbRet} {ds : List Byte} (h : ∀ d ∈ ds, Alnum d) :
    ∀ (pre : List Byte) (k a : Nat), ds.length < k →
      (escLoop f bs pre.length k a).run (pre ++ ds) = .ok none := by
  induction ds with
  | nil =>
    intro pre k a hk
    obtain ⟨k, rfl⟩ : ∃ j, k = j + 1 := ⟨k - 1, by simp at hk; omega⟩
    simp only [escLoop, M.run, List.append_nil]
    rw [if_neg (by omega)]
  | cons d ds ih =>
    intro pre k a hk
    obtain ⟨k, rfl⟩ : ∃ j, k = j + 1 := ⟨k - 1, by simp at hk; omega⟩
    simp only [escLoop, M.run]
    rw [if_pos (by simp), List.getElem?_append_right (Nat.le_refl _), Nat.sub_self]
    have hd : escDigit d.toNat ≠ none := fun hh => escDigit_alnum.1 hh (h d (by simp))
    obtain ⟨v, hv⟩ := Option.ne_none_iff_exists'.1 hd
    simp only [List.getElem?_cons_zero, hv]
    have := ih (fun d hd => h d (by simp [hd])) (pre ++ [d]) k (a ||| v <<< (4 * k) % 4294967296)
      (by simp at hk; omega)
    simpa only [List.length_append, List.length_cons, List.length_nil, List.append_assoc,
      List.cons_append, List.nil_append] using this

/-- Nothing that begins with `pre` and `k` digits can follow where a digit is missing. -/
theorem never_stop {k : Nat} {pre p s : List Byte} {b : Byte} (hb : ¬ Alnum b) (hk : p.length < k) {t ds v}
    (hd : Digits k ds v) : ¬ (pre ++ ds) <+: (pre ++ (p ++ b :: s)) ++ t := by
  rintro ⟨r, e⟩
  simp only [List.append_assoc, List.append_cancel_left_eq] at e
  have h1 := congrArg (fun l => l[p.length]?) e
  rw [List.getElem?_append_left (by rw [hd.1]; exact hk), List.getElem?_append_right (Nat.le_refl _), Nat.sub_self] at h1
  simp only [List.cons_append, List.getElem?_cons_zero] at h1
  exact hd.2.mem b (List.mem_of_getElem? h1) (looseVal_alnum.2 hb)

theorem alnum_zero : Alnum 0x30 := .inl (by decide)

/-- Digits that are cut off can be completed. -/
theorem short_complete {k : Nat} {p : List Byte} (h : ∀ d ∈ p, Alnum d) (hk : p.length < k) :
    ∃ v, Digits k (p ++ List.replicate (k - p.length) 0x30) v := by
  obtain ⟨v, hv⟩ := loose_of (ds := p ++ List.replicate (k - p.length) 0x30) (by
    intro d hd hc
    rw [looseVal_alnum] at hc
    rcases List.mem_append.1 hd with hd | hd
    · exact hc (h d hd)
    · rw [(List.mem_replicate.1 hd).2] at hc; exact hc alnum_zero)
  exact ⟨v, by simp; omega, hv⟩

/-! ## Items -/

/-- The items of a converter are those of a grammar. -/
theorem items_text {idx : Nat} {hu : unitOf idx = 1} {m : M MbRet} {hg : M.Good M.RetOK 1 m} {E : Encoder}
    {e : SimpleEnc E} {R : List Byte → List Byte → Nat → Prop} (h1 : ∀ a s c, R a s c → a ≠ [] ∧ m.run (a ++ s) = .ok (some (.char c a.length)))
    (h2 : ∀ s c n, s ≠ [] → m.run s = .ok (some (.char c n)) → R (s.take n) (s.drop n) c) (inp : List Byte) (w : List Nat) :
    (simpleEntry idx 1 hu (M.simple m hg) e).Text inp w ↔ Items R inp w := by
  have key : ∀ is inp w is', Chars (atomOf m.val) is inp w is' → Items R inp w := by
    intro is inp w is' h
    induction h with
    | nil is => exact .nil
    | @char is inp wc n is' cs is'' hne ha _ ih =>
      unfold atomOf at ha
      have hv : m.val inp = .char wc n := by
        split at ha
        · next hh => cases ha; exact hh
        · cases ha
        · cases ha
      have hr : m.run inp = .ok (some (.char wc n)) := by
        unfold M.val at hv
        split at hv
        · next hh => rw [hh, hv]
        · cases hv
      have := Items.cons (h2 inp wc n hne hr) ih
      rwa [List.take_append_drop] at this
    | shift _ ha _ _ => exact absurd ha atomOf_shift
  constructor
  · intro h
    rw [simple_text] at h
    exact key _ _ _ _ h
  · intro h
    induction h with
    | nil => exact text_empty
    | @cons a s c w hr _ ih => exact text_item (h1 a s c hr).1 (h1 a s c hr).2 ih

/-- `k` digits after two bytes. -/
theorem loop_full {f : Nat → M MbRet} {bs : M MbRet} {k : Nat} {ds : List Byte} {v : Nat} (h : Digits k ds v) (a b : Byte) (t : List Byte) :
    (escLoop f bs 2 k 0).run (a :: b :: (ds ++ t)) = (f v).run (a :: b :: (ds ++ t)) := by
  have := escLoop_full (f := f) (bs := bs) h.2 [a, b] t 0
  rw [h.1, Nat.zero_or] at this
  exact this

theorem loop_stop {f : Nat → M MbRet} {k : Nat} {p : List Byte} {c : Byte} (t : List Byte) (h : ∀ d ∈ p, Alnum d)
    (hc : ¬ Alnum c) (hk : p.length < k) (a b : Byte) :
    (escLoop f simplyBackslash 2 k 0).run (a :: b :: (p ++ c :: t)) = .ok (some (.char 0x5c 1)) :=
  escLoop_stop (f := f) (bs := simplyBackslash) c t h hc [a, b] k 0 hk

theorem loop_short {f : Nat → M MbRet} {bs : M MbRet} {k : Nat} {p : List Byte} (h : ∀ d ∈ p, Alnum d)
    (hk : p.length < k) (a b : Byte) : (escLoop f bs 2 k 0).run (a :: b :: p) = .ok none :=
  escLoop_short (f := f) (bs := bs) h [a, b] k 0 hk

theorem toNat_ne {b c : Byte} (h : b ≠ c) : b.toNat ≠ c.toNat := fun hh => h (UInt8.toNat_inj.1 hh)

/-- What `java_mbtowc` does with the second escape of a pair (`lib/converters/java.h:99-102`); a name for a part of the model. -/
def javaSecond (wc wc2 : Nat) : M MbRet :=
  if ¬ (wc2 ≥ 0xdc00 ∧ wc2 < 0xe000) then simplyBackslash
  else .ret (.char (0x10000 + ((wc - 0xd800) <<< 10) + (wc2 - 0xdc00)) 12)

/-- What `java_mbtowc` does after the first escape (`lib/converters/java.h:68-102`); a name for a part of the model. -/
def javaFirst (wc : Nat) : M MbRet :=
  if ¬ (wc ≥ 0xd800 ∧ wc < 0xe000) then .ret (.char wc 6)
  else if wc ≥ 0xdc00 then simplyBackslash
  else .need 7 <| .byte 6 fun c =>
    if c ≠ 0x5c then simplyBackslash
    else .need 8 <| .byte 7 fun c =>
      if c ≠ 0x75 then simplyBackslash
      else escLoop (javaSecond wc) simplyBackslash 8 4 0

theorem java_one : java_mbtowc.run [0x5c] = .ok none := by
  simp only [java_mbtowc, M.run, List.getElem?_cons_zero]
  rw [if_neg (by decide)]
  rfl

theorem java_u (t : List Byte) :
    java_mbtowc.run (0x5c :: 0x75 :: t) = (escLoop javaFirst simplyBackslash 2 4 0).run (0x5c :: 0x75 :: t) := by
  simp only [java_mbtowc, M.run, List.getElem?_cons_zero]
  rw [if_neg (by decide)]
  simp only [M.run, List.getElem?_cons_zero, List.getElem?_cons_succ, List.length_cons]
  rw [if_pos (by omega), if_neg (by decide)]
  rfl

theorem java_first_full {ds : List Byte} {v : Nat} (h : Digits 4 ds v) (t : List Byte) :
    java_mbtowc.run (0x5c :: 0x75 :: (ds ++ t)) = (javaFirst v).run (0x5c :: 0x75 :: (ds ++ t)) := by
  rw [java_u, loop_full h]

theorem idx6 {ds : List Byte} (h : ds.length = 4) (t : List Byte) (i : Nat) :
    (0x5c :: 0x75 :: (ds ++ t) : List Byte)[6 + i]? = t[i]? := by
  rw [show 6 + i = (4 + i) + 1 + 1 by omega]
  simp only [List.getElem?_cons_succ]
  rw [List.getElem?_append_right (by omega), h, show 4 + i - 4 = i by omega]

theorem java_high_end {ds : List Byte} {v : Nat} (h : Digits 4 ds v) (h1 : 0xd800 ≤ v) (h2 : v < 0xdc00) :
    java_mbtowc.run (0x5c :: 0x75 :: (ds ++ [])) = .ok none := by
  rw [java_first_full h, javaFirst, if_neg (by omega), if_neg (by omega)]
  simp only [M.run, List.length_cons, List.length_append, h.1, List.length_nil]
  rfl

theorem java_high {ds : List Byte} {v : Nat} (h : Digits 4 ds v) (h1 : 0xd800 ≤ v) (h2 : v < 0xdc00) (b : Byte) (t : List Byte) :
    java_mbtowc.run (0x5c :: 0x75 :: (ds ++ b :: t)) = if b ≠ 0x5c then .ok (some (.char 0x5c 1)) else
      match t with
      | [] => .ok none
      | c :: _ => if c ≠ 0x75 then .ok (some (.char 0x5c 1)) else
        (escLoop (javaSecond v) simplyBackslash 8 4 0).run (0x5c :: 0x75 :: (ds ++ b :: t)) := by
  rw [java_first_full h, javaFirst, if_neg (by omega), if_neg (by omega)]
  have e6 := idx6 h.1 (b :: t) 0
  have e7 : (0x5c :: 0x75 :: (ds ++ b :: t) : List Byte)[7]? = t[0]? := idx6 h.1 (b :: t) 1
  simp only [Nat.add_zero, List.getElem?_cons_zero] at e6
  have hl : (0x5c :: 0x75 :: (ds ++ b :: t) : List Byte).length = 7 + t.length := by
    simp only [List.length_cons, List.length_append, h.1]; omega
  simp only [M.run, hl]
  rw [if_pos (by omega), e6]
  dsimp only
  by_cases hb : b = 0x5c
  · subst hb
    rw [if_neg (by decide), if_neg (by decide)]
    simp only [M.run, hl]
    cases t with
    | nil => rfl
    | cons c t =>
      rw [if_pos (by simp; omega), e7]
      simp only [List.getElem?_cons_zero]
      by_cases hc : c = 0x75
      · subst hc; rw [if_neg (by decide), if_neg (by decide)]
      · rw [if_pos (show c.toNat ≠ 0x75 from toNat_ne hc), if_pos hc]; rfl
  · rw [if_pos (show b.toNat ≠ 0x5c from toNat_ne hb), if_pos hb]; rfl

/-- The second escape. -/
theorem java_second {ds t : List Byte} {v : Nat} (h : Digits 4 ds v) (h1 : 0xd800 ≤ v) (h2 : v < 0xdc00) :
    java_mbtowc.run (0x5c :: 0x75 :: (ds ++ 0x5c :: 0x75 :: t)) =
      (escLoop (javaSecond v) simplyBackslash 8 4 0).run ((0x5c :: 0x75 :: (ds ++ [0x5c, 0x75])) ++ t) := by
  rw [java_high h h1 h2, if_neg (by decide)]
  dsimp only
  rw [if_neg (by decide)]
  simp

theorem pre8 {ds : List Byte} (h : ds.length = 4) : (0x5c :: 0x75 :: (ds ++ [0x5c, 0x75]) : List Byte).length = 8 := by
  simp [h]

theorem java_second_full {d1 d2 : List Byte} {hi lo : Nat} (h : Digits 4 d1 hi) (h1 : 0xd800 ≤ hi) (h2 : hi < 0xdc00)
    (h' : Digits 4 d2 lo) (t : List Byte) :
    java_mbtowc.run (0x5c :: 0x75 :: (d1 ++ 0x5c :: 0x75 :: (d2 ++ t))) =
      if 0xdc00 ≤ lo ∧ lo < 0xe000 then .ok (some (.char (0x10000 + (hi - 0xd800) * 1024 + (lo - 0xdc00)) 12))
      else .ok (some (.char 0x5c 1)) := by
  have := escLoop_full (f := javaSecond hi) (bs := simplyBackslash) h'.2 (0x5c :: 0x75 :: (d1 ++ [0x5c, 0x75])) t 0
  rw [pre8 h.1, h'.1, Nat.zero_or] at this
  rw [java_second h h1 h2, this, javaSecond]
  by_cases hl : 0xdc00 ≤ lo ∧ lo < 0xe000
  · rw [if_neg (by omega), if_pos hl]; simp only [M.run, Nat.shiftLeft_eq]
  · rw [if_pos (by omega), if_neg hl]; rfl

theorem java_second_stop {d1 p : List Byte} {hi : Nat} {c : Byte} (h : Digits 4 d1 hi) (h1 : 0xd800 ≤ hi) (h2 : hi < 0xdc00)
    (hp : ∀ d ∈ p, Alnum d) (hc : ¬ Alnum c) (hk : p.length < 4) (t : List Byte) :
    java_mbtowc.run (0x5c :: 0x75 :: (d1 ++ 0x5c :: 0x75 :: (p ++ c :: t))) = .ok (some (.char 0x5c 1)) := by
  have := escLoop_stop (f := javaSecond hi) (bs := simplyBackslash) c t hp hc (0x5c :: 0x75 :: (d1 ++ [0x5c, 0x75])) 4 0 hk
  rw [pre8 h.1] at this
  rw [java_second h h1 h2, this]; rfl

theorem java_second_short {d1 p : List Byte} {hi : Nat} (h : Digits 4 d1 hi) (h1 : 0xd800 ≤ hi) (h2 : hi < 0xdc00)
    (hp : ∀ d ∈ p, Alnum d) (hk : p.length < 4) :
    java_mbtowc.run (0x5c :: 0x75 :: (d1 ++ 0x5c :: 0x75 :: p)) = .ok none := by
  have := escLoop_short (f := javaSecond hi) (bs := simplyBackslash) hp (0x5c :: 0x75 :: (d1 ++ [0x5c, 0x75])) 4 0 hk
  rw [pre8 h.1] at this
  rw [java_second h h1 h2, this]

/-- If nothing can follow that makes `pre` and `k` digits, a digit is missing. -/
theorem never_cases {k : Nat} {pre : List Byte} {t : List Byte} (h : ∀ t' ds v, Digits k ds v → ¬ (pre ++ ds) <+: (pre ++ t) ++ t') :
    ∃ p b s, (∀ d ∈ p, Alnum d) ∧ ¬ Alnum b ∧ p.length < k ∧ t = p ++ b :: s := by
  rcases scan k t with ⟨ds, v, s, hd, rfl⟩ | ⟨p, b, s, h1, h2, h3, rfl⟩ | ⟨h1, h2⟩
  · exact absurd ⟨s, by simp⟩ (h [] ds v hd)
  · exact ⟨p, b, s, h1, h2, h3, rfl⟩
  · obtain ⟨v, hv⟩ := short_complete h2 h1
    exact absurd ⟨[], by simp⟩ (h (List.replicate (k - t.length) 0x30) _ v hv)

theorem zeros4 : ∃ v, Digits 4 [0x30, 0x30, 0x30, 0x30] v := by
  obtain ⟨v, h⟩ := loose_of (ds := [0x30, 0x30, 0x30, 0x30]) (by decide)
  exact ⟨v, rfl, h⟩

theorem java_item_run {a s : List Byte} {c : Nat} (h : JavaItem a s c) :
    a ≠ [] ∧ java_mbtowc.run (a ++ s) = .ok (some (.char c a.length)) := by
  cases h with
  | plain hb => exact ⟨by simp, java_run_plain hb _⟩
  | @bmp ds v _ hd hv =>
    refine ⟨by simp, ?_⟩
    rw [List.cons_append, List.cons_append, java_first_full hd, javaFirst, if_pos (by omega)]
    simp only [M.run, List.length_cons, hd.1]
  | @pair d1 d2 hi lo _ h1 h2 h3 h4 h5 h6 =>
    refine ⟨by simp, ?_⟩
    have := java_second_full h1 h3 h4 h2 s
    rw [if_pos ⟨h5, h6⟩] at this
    simp only [List.cons_append, List.append_assoc, List.length_cons, List.length_append, h1.1, h2.1]
    exact this
  | backslash hn =>
    refine ⟨by simp, ?_⟩
    cases s with
    | nil =>
      obtain ⟨v, hz⟩ := zeros4
      exact absurd ⟨[], rfl⟩ (hn [0x75, 0x30, 0x30, 0x30, 0x30] _ ⟨_, v, hz, rfl⟩)
    | cons b t =>
      by_cases hb : b = 0x75
      · subst hb
        obtain ⟨p, c, s, h1, h2, h3, rfl⟩ := never_cases (k := 4) (pre := [0x75]) (t := t)
          (fun t' ds v hd => hn t' _ ⟨ds, v, hd, rfl⟩)
        show java_mbtowc.run (0x5c :: 0x75 :: _) = _
        rw [java_u, loop_stop _ h1 h2 h3]; rfl
      · exact java_run_backslash hb t
  | @low ds v s hd h1 h2 =>
    refine ⟨by simp, ?_⟩
    show java_mbtowc.run (0x5c :: 0x75 :: (ds ++ s)) = _
    rw [java_first_full hd, javaFirst, if_neg (by omega), if_pos (by omega)]; rfl
  | @high ds v s hd h1 h2 hn =>
    refine ⟨by simp, ?_⟩
    show java_mbtowc.run (0x5c :: 0x75 :: (ds ++ s)) = _
    obtain ⟨z, hz⟩ := zeros4
    cases s with
    | nil => exact absurd ⟨[], rfl⟩ (hn [0x5c, 0x75, 0x30, 0x30, 0x30, 0x30] _ ⟨_, ⟨_, z, hz, rfl⟩, rfl⟩)
    | cons b t =>
      by_cases hb : b = 0x5c
      · subst hb
        cases t with
        | nil => exact absurd ⟨[], rfl⟩ (hn [0x75, 0x30, 0x30, 0x30, 0x30] _ ⟨_, ⟨_, z, hz, rfl⟩, rfl⟩)
        | cons c t =>
          by_cases hc : c = 0x75
          · subst hc
            obtain ⟨p, c, s, h3, h4, h5, rfl⟩ := never_cases (k := 4) (pre := [0x5c, 0x75]) (t := t)
              (fun t' ds v hd => hn t' _ ⟨_, ⟨ds, v, hd, rfl⟩, rfl⟩)
            exact java_second_stop hd h1 h2 h3 h4 h5 s
          · rw [java_high hd h1 h2, if_neg (by decide)]
            dsimp only
            rw [if_pos hc]; rfl
      · rw [java_high hd h1 h2, if_pos hb]; rfl
  | @unpaired d1 d2 hi v s h1 h2 h3 h4 h5 =>
    refine ⟨by simp, ?_⟩
    have := java_second_full h1 h2 h3 h4 s
    rw [if_neg h5] at this
    simp only [List.cons_append, List.append_assoc, List.nil_append, List.length_cons, List.length_nil]
    exact this

/-- Nothing that begins with another byte. -/
theorem never_other {x b : Byte} {t : List Byte} {E : List Byte → Prop} (hb : b ≠ x) (hE : ∀ e, E e → ∃ e', e = x :: e') :
    Never E (b :: t) := by
  rintro t' e he ⟨r, hr⟩
  obtain ⟨e', rfl⟩ := hE e he
  simp only [List.cons_append, List.cons.injEq] at hr
  exact hb hr.1.symm

theorem java_run_item {s : List Byte} {c n : Nat} (hs : s ≠ []) (h : java_mbtowc.run s = .ok (some (.char c n))) :
    JavaItem (s.take n) (s.drop n) c := by
  cases s with
  | nil => exact absurd rfl hs
  | cons b t =>
    by_cases hb : b = 0x5c
    · subst hb
      cases t with
      | nil => rw [java_one] at h; cases h
      | cons b t =>
        by_cases hb : b = 0x75
        · subst hb
          rcases scan 4 t with ⟨ds, v, s, hd, rfl⟩ | ⟨p, b, s, h1, h2, h3, rfl⟩ | ⟨h1, h2⟩
          · by_cases hv : 0xd800 ≤ v ∧ v < 0xe000
            · by_cases hl : 0xdc00 ≤ v
              · rw [java_first_full hd, javaFirst, if_neg (by omega), if_pos hl] at h
                cases h
                exact .low hd hl hv.2
              · cases s with
                | nil => rw [java_high_end hd hv.1 (by omega)] at h; cases h
                | cons b t =>
                  by_cases hb : b = 0x5c
                  · subst hb
                    cases t with
                    | nil =>
                      rw [java_high hd hv.1 (by omega), if_neg (by decide)] at h
                      cases h
                    | cons b t =>
                      by_cases hb : b = 0x75
                      · subst hb
                        rcases scan 4 t with ⟨d2, lo, s, hd2, rfl⟩ | ⟨p, b, s, h1, h2, h3, rfl⟩ | ⟨h1, h2⟩
                        · rw [java_second_full hd hv.1 (by omega) hd2] at h
                          by_cases hlo : 0xdc00 ≤ lo ∧ lo < 0xe000
                          · rw [if_pos hlo] at h
                            simp only [Outcome.ok.injEq, Option.some.injEq, MbRet.char.injEq] at h
                            obtain ⟨rfl, rfl⟩ := h
                            have e : (0x5c :: 0x75 :: (ds ++ 0x5c :: 0x75 :: (d2 ++ s)) : List Byte) =
                                (0x5c :: 0x75 :: ds ++ 0x5c :: 0x75 :: d2) ++ s := by simp
                            have hl : (0x5c :: 0x75 :: ds ++ 0x5c :: 0x75 :: d2 : List Byte).length = 12 := by
                              simp [hd.1, hd2.1]
                            rw [e, List.take_left' hl, List.drop_left' hl]
                            exact .pair hd hd2 hv.1 (by omega) hlo.1 hlo.2
                          · rw [if_neg hlo] at h
                            cases h
                            have := JavaItem.unpaired (s := s) hd hv.1 (by omega) hd2 hlo
                            simp only [List.cons_append, List.append_assoc] at this
                            exact this
                        · rw [java_second_stop hd hv.1 (by omega) h1 h2 h3] at h
                          cases h
                          refine .high (s := 0x5c :: 0x75 :: (p ++ b :: s)) hd hv.1 (by omega) ?_
                          rintro t' _ ⟨_, ⟨d2, w, hw, rfl⟩, rfl⟩
                          exact never_stop (pre := [0x5c, 0x75]) h2 h3 hw
                        · rw [java_second_short hd hv.1 (by omega) h2 h1] at h
                          cases h
                      · rw [java_high hd hv.1 (by omega), if_neg (by decide)] at h
                        dsimp only at h
                        rw [if_pos hb] at h
                        cases h
                        refine .high (s := 0x5c :: b :: t) hd hv.1 (by omega) ?_
                        rintro t' _ ⟨_, ⟨d2, w, hw, rfl⟩, rfl⟩ ⟨r, hr⟩
                        simp only [List.cons_append, List.cons.injEq] at hr
                        exact hb hr.2.1.symm
                  · rw [java_high hd hv.1 (by omega), if_pos hb] at h
                    cases h
                    exact .high (s := b :: t) hd hv.1 (by omega) (never_other hb fun e ⟨e', _, he⟩ => ⟨e', he⟩)
            · rw [java_first_full hd, javaFirst, if_pos (by omega)] at h
              cases h
              have e : (0x5c :: 0x75 :: (ds ++ s) : List Byte) = (0x5c :: 0x75 :: ds) ++ s := by simp
              have hl : (0x5c :: 0x75 :: ds : List Byte).length = 6 := by simp [hd.1]
              rw [e, List.take_left' hl, List.drop_left' hl]
              exact .bmp hd hv
          · rw [java_u, loop_stop s h1 h2 h3] at h
            cases h
            refine .backslash ?_
            rintro t' _ ⟨ds, v, hd, rfl⟩
            exact never_stop (pre := [0x75]) h2 h3 hd
          · rw [java_u, loop_short h2 h1] at h; cases h
        · rw [java_run_backslash hb] at h
          cases h
          exact .backslash (never_other hb fun e ⟨ds, _, _, he⟩ => ⟨ds, he⟩)
    · rw [java_run_plain hb] at h
      cases h
      exact .plain hb

/-- What `c99_mbtowc` does after an escape of `n` bytes (`lib/converters/c99.h:72-76`, `96-100`); a name for a part of the model. -/
def c99Esc (n wc : Nat) : M MbRet := if c99Allowed wc then .ret (.char wc n) else .ret (.ilseq 0)

theorem c99_one : c99_mbtowc.run [0x5c] = .ok none := by
  simp only [c99_mbtowc, M.run, List.getElem?_cons_zero]
  rw [if_pos (by decide), if_neg (by decide)]
  rfl

theorem c99_u (t : List Byte) :
    c99_mbtowc.run (0x5c :: 0x75 :: t) = (escLoop (c99Esc 6) simplyBackslash 2 4 0).run (0x5c :: 0x75 :: t) := by
  simp only [c99_mbtowc, M.run, List.getElem?_cons_zero]
  rw [if_pos (by decide), if_neg (by decide)]
  simp only [M.run, List.getElem?_cons_zero, List.getElem?_cons_succ, List.length_cons]
  rw [if_pos (by omega), if_pos (by decide)]
  rfl

theorem c99_U (t : List Byte) :
    c99_mbtowc.run (0x5c :: 0x55 :: t) = (escLoop (c99Esc 10) simplyBackslash 2 8 0).run (0x5c :: 0x55 :: t) := by
  simp only [c99_mbtowc, M.run, List.getElem?_cons_zero]
  rw [if_pos (by decide), if_neg (by decide)]
  simp only [M.run, List.getElem?_cons_zero, List.getElem?_cons_succ, List.length_cons]
  rw [if_pos (by omega), if_neg (by decide), if_pos (by decide)]
  rfl

theorem c99_high {b : Byte} (h : ¬ b < 0xa0) (t : List Byte) : c99_mbtowc.run (b :: t) = .ok (some (.ilseq 0)) := by
  have h2 : ¬ b.toNat < 0xa0 := h
  simp only [c99_mbtowc, M.run, List.getElem?_cons_zero, if_neg h2]

theorem c99Name_iff {v : Nat} : c99Allowed v ↔ C99Name v := by
  unfold C99Name c99Allowed; omega

theorem zeros8 : ∃ v, Digits 8 [0x30, 0x30, 0x30, 0x30, 0x30, 0x30, 0x30, 0x30] v := by
  obtain ⟨v, h⟩ := loose_of (ds := [0x30, 0x30, 0x30, 0x30, 0x30, 0x30, 0x30, 0x30]) (by decide)
  exact ⟨v, rfl, h⟩

theorem c99_item_run {a s : List Byte} {c : Nat} (h : C99Item a s c) :
    a ≠ [] ∧ c99_mbtowc.run (a ++ s) = .ok (some (.char c a.length)) := by
  cases h with
  | plain h1 hb => exact ⟨by simp, c99_run_plain h1 hb _⟩
  | @short ds v _ hd hv =>
    refine ⟨by simp, ?_⟩
    rw [List.cons_append, List.cons_append, c99_u, loop_full hd, c99Esc, if_pos (c99Name_iff.2 hv)]
    simp only [M.run, List.length_cons, hd.1]
  | @long ds v _ hd hv =>
    refine ⟨by simp, ?_⟩
    rw [List.cons_append, List.cons_append, c99_U, loop_full hd, c99Esc, if_pos (c99Name_iff.2 hv)]
    simp only [M.run, List.length_cons, hd.1]
  | backslash hn hN =>
    refine ⟨by simp, ?_⟩
    cases s with
    | nil =>
      obtain ⟨v, hz⟩ := zeros4
      exact absurd ⟨[], rfl⟩ (hn [0x75, 0x30, 0x30, 0x30, 0x30] _ ⟨_, v, hz, rfl⟩)
    | cons b t =>
      by_cases hb : b = 0x75
      · subst hb
        obtain ⟨p, c, s, h1, h2, h3, rfl⟩ := never_cases (k := 4) (pre := [0x75]) (t := t)
          (fun t' ds v hd => hn t' _ ⟨ds, v, hd, rfl⟩)
        show c99_mbtowc.run (0x5c :: 0x75 :: _) = _
        rw [c99_u, loop_stop _ h1 h2 h3]; rfl
      by_cases hb' : b = 0x55
      · subst hb'
        obtain ⟨p, c, s, h1, h2, h3, rfl⟩ := never_cases (k := 8) (pre := [0x55]) (t := t)
          (fun t' ds v hd => hN t' _ ⟨ds, v, hd, rfl⟩)
        show c99_mbtowc.run (0x5c :: 0x55 :: _) = _
        rw [c99_U, loop_stop _ h1 h2 h3]; rfl
      · exact c99_run_backslash hb hb' t

theorem c99_run_item {s : List Byte} {c n : Nat} (hs : s ≠ []) (h : c99_mbtowc.run s = .ok (some (.char c n))) :
    C99Item (s.take n) (s.drop n) c := by
  have hu : ∀ e, ShortEscape e → ∃ e', e = 0x75 :: e' := fun e ⟨ds, _, _, he⟩ => ⟨ds, he⟩
  have hU : ∀ e, LongEscape e → ∃ e', e = 0x55 :: e' := fun e ⟨ds, _, _, he⟩ => ⟨ds, he⟩
  cases s with
  | nil => exact absurd rfl hs
  | cons b t =>
    by_cases hb : b = 0x5c
    · subst hb
      cases t with
      | nil => rw [c99_one] at h; cases h
      | cons b t =>
        by_cases hb : b = 0x75
        · subst hb
          rcases scan 4 t with ⟨ds, v, s, hd, rfl⟩ | ⟨p, b, s, h1, h2, h3, rfl⟩ | ⟨h1, h2⟩
          · rw [c99_u, loop_full hd, c99Esc] at h
            by_cases hv : c99Allowed v
            · rw [if_pos hv] at h
              cases h
              have e : (0x5c :: 0x75 :: (ds ++ s) : List Byte) = (0x5c :: 0x75 :: ds) ++ s := by simp
              have hl : (0x5c :: 0x75 :: ds : List Byte).length = 6 := by simp [hd.1]
              rw [e, List.take_left' hl, List.drop_left' hl]
              exact .short hd (c99Name_iff.1 hv)
            · rw [if_neg hv] at h; cases h
          · rw [c99_u, loop_stop s h1 h2 h3] at h
            cases h
            refine .backslash ?_ (never_other (by decide) hU)
            rintro t' _ ⟨ds, v, hd, rfl⟩
            exact never_stop (pre := [0x75]) h2 h3 hd
          · rw [c99_u, loop_short h2 h1] at h; cases h
        by_cases hb' : b = 0x55
        · subst hb'
          rcases scan 8 t with ⟨ds, v, s, hd, rfl⟩ | ⟨p, b, s, h1, h2, h3, rfl⟩ | ⟨h1, h2⟩
          · rw [c99_U, loop_full hd, c99Esc] at h
            by_cases hv : c99Allowed v
            · rw [if_pos hv] at h
              cases h
              have e : (0x5c :: 0x55 :: (ds ++ s) : List Byte) = (0x5c :: 0x55 :: ds) ++ s := by simp
              have hl : (0x5c :: 0x55 :: ds : List Byte).length = 10 := by simp [hd.1]
              rw [e, List.take_left' hl, List.drop_left' hl]
              exact .long hd (c99Name_iff.1 hv)
            · rw [if_neg hv] at h; cases h
          · rw [c99_U, loop_stop s h1 h2 h3] at h
            cases h
            refine .backslash (never_other (by decide) hu) ?_
            rintro t' _ ⟨ds, v, hd, rfl⟩
            exact never_stop (pre := [0x55]) h2 h3 hd
          · rw [c99_U, loop_short h2 h1] at h; cases h
        · rw [c99_run_backslash hb hb'] at h
          cases h
          exact .backslash (never_other hb hu) (never_other hb' hU)
    · by_cases hl : b < 0xa0
      · rw [c99_run_plain hl hb] at h
        cases h
        exact .plain hl hb
      · rw [c99_high hl] at h; cases h

/-! ## C57 -/

/-- C57, JAVA: exactly these texts are read. -/
theorem C57_java_reads (s : List Byte) (w : List Nat) : java_entry.Text s w ↔ Items JavaItem s w :=
  items_text (fun _ _ _ h => java_item_run h) (fun _ _ _ => java_run_item) s w

/-- C57, C99: exactly these texts are read. -/
theorem C57_c99_reads (s : List Byte) (w : List Nat) : c99_entry.Text s w ↔ Items C99Item s w :=
  items_text (fun _ _ _ h => c99_item_run h) (fun _ _ _ => c99_run_item) s w

/-- C57 at the API: such a text is converted to UCS-4BE as it should be, and other input makes every conversion fail
with `EILSEQ`. -/
theorem C57_convert (inp : List Byte) (alloc : Nat → List Byte) (hal : ∀ n, (alloc n).length = n) :
    ∀ p ∈ [(java_entry, JavaItem), (c99_entry, C99Item)],
    (∀ w, Items p.2 inp w → ∃ y, convert (p.1.conv ucs4be_entry false) St.init inp true true
      (fun n => some (alloc n)) = .ok y ∧ y.ret = .ok () ∧ y.data = some (w.flatMap b32)) ∧
    ((¬ ∃ w, Items p.2 inp w) → ∀ B : Entry,
      ∃ s1, resultSize (p.1.conv B false) St.init inp = .ok (.error .EILSEQ, s1) ∧
        convert (p.1.conv B false) St.init inp true true (fun n => some (alloc n)) = .ok ⟨.error .EILSEQ, s1, none, none⟩) := by
  simp only [List.forall_mem_cons, List.not_mem_nil, false_implies, implies_true, and_true]
  constructor
  · obtain ⟨h1, h2⟩ := decode_api (A := java_entry) simple_fixed inp alloc hal
    refine ⟨fun w hw => h1 w ((C57_java_reads inp w).2 hw), fun hn => h2 ?_⟩
    rintro ⟨w, hw⟩
    exact hn ⟨w, (C57_java_reads inp w).1 hw⟩
  · obtain ⟨h1, h2⟩ := decode_api (A := c99_entry) simple_fixed inp alloc hal
    refine ⟨fun w hw => h1 w ((C57_c99_reads inp w).2 hw), fun hn => h2 ?_⟩
    rintro ⟨w, hw⟩
    exact hn ⟨w, (C57_c99_reads inp w).1 hw⟩

/-! ### Which of these texts are those of the languages -/

theorem hexVal_loose {b : Byte} {v : Nat} (h : hexVal b = some v) : looseVal b = some v := by
  rw [looseVal_eq]; exact (hexVal_escDigit h).1

/-- Up to eight hexadecimal digits are read as the number they denote. -/
theorem Hex.loose {ds : List Byte} {v : Nat} (h : Hex ds v) : ds.length ≤ 8 → Loose ds v := by
  induction h with
  | nil => intro _; exact .nil
  | @cons d ds v w hd hh ih =>
    intro hl
    have hl : ds.length + 1 ≤ 8 := hl
    have h1 := (hexVal_escDigit hd).2
    have hw := hh.lt
    have := Loose.cons (hexVal_loose hd) (ih (by omega))
    have hb : v * 16 ^ ds.length < 2 ^ 32 := by
      have h2 : v * 16 ^ ds.length ≤ 15 * 16 ^ ds.length := Nat.mul_le_mul_right _ (by omega)
      have h3 : (16 : Nat) ^ ds.length ≤ 16 ^ 7 := Nat.pow_le_pow_right (by omega) (by omega)
      omega
    have hp : (16 : Nat) ^ ds.length = 2 ^ (4 * ds.length) := by rw [Nat.pow_mul]
    rw [Nat.mod_eq_of_lt hb, Nat.mul_comm, hp, ← Nat.two_pow_add_eq_or_of_lt (by rw [← hp]; exact hw), ← hp,
      Nat.mul_comm] at this
    exact this

/-- No letter beyond F. -/
def NoLetters (s : List Byte) : Prop := ∀ b ∈ s, looseVal b = hexVal b

theorem Loose.hex {ds : List Byte} {v : Nat} (h : Loose ds v) : ds.length ≤ 8 → NoLetters ds → Hex ds v := by
  intro hl hn
  have : ∃ u, Hex ds u := by
    clear hl
    induction h with
    | nil => exact ⟨0, .nil⟩
    | @cons d ds v w hd _ ih =>
      obtain ⟨u, hu⟩ := ih fun b hb => hn b (by simp [hb])
      rw [hn d (by simp)] at hd
      exact ⟨_, .cons hd hu⟩
  obtain ⟨u, hu⟩ := this
  have det : ∀ {ds a}, Loose ds a → ∀ {b}, Loose ds b → a = b := by
    intro ds a h
    induction h with
    | nil => rintro b ⟨⟩; rfl
    | cons h1 _ ih =>
      intro b h
      cases h with
      | cons h2 h3 => rw [h1] at h2; cases h2; rw [ih h3]
  rw [det h (hu.loose hl)]
  exact hu

/-- C57: an escape that is read is one of the language if its digits are hexadecimal: with the letters G to Z
excluded the digits have the value the language gives them. -/
theorem C57_digits (k : Nat) (hk : k ≤ 8) (ds : List Byte) (v : Nat) (h : NoLetters ds) : Digits k ds v ↔ ds.length = k ∧ Hex ds v := by
  constructor
  · rintro ⟨h1, h2⟩; exact ⟨h1, h2.hex (by omega) h⟩
  · rintro ⟨h1, h2⟩; exact ⟨h1, h2.loose (by omega)⟩

/-- A cut escape in the middle of a text: `\u12` and a space, in JAVA and in C99, and `\ud800` before `x` in JAVA. -/
example : Items JavaItem [0x5c, 0x75, 0x31, 0x32, 0x20] [0x5c, 0x75, 0x31, 0x32, 0x20] ∧
    Items C99Item [0x5c, 0x75, 0x31, 0x32, 0x20] [0x5c, 0x75, 0x31, 0x32, 0x20] ∧
    Items JavaItem [0x5c, 0x75, 0x64, 0x38, 0x30, 0x30, 0x78] [0x5c, 0x75, 0x64, 0x38, 0x30, 0x30, 0x78] := by
  refine ⟨?_, ?_, ?_⟩
  · refine (C57_java_reads _ _).1 ((C26_not_an_escape_partial [0x31, 0x32] 0x20 [] _ ?_ ?_).1 (by decide) |>.2 ⟨_, rfl, ?_⟩)
    · intro d hd; simp only [List.mem_cons, List.not_mem_nil, or_false] at hd; rcases hd with rfl | rfl <;> exact .inl (by decide)
    · unfold Alnum; decide
    · exact java_text (.plain (by decide) (.plain (by decide) (.plain (by decide) (.plain (by decide) .nil))))
  · refine .cons (a := [0x5c]) (c99_run_item (s := [0x5c, 0x75, 0x31, 0x32, 0x20]) (n := 1) (by simp) (by decide +kernel)) ?_
    exact (C57_c99_reads _ _).1 (c99_text (.plain (by decide) (by decide) (.plain (by decide) (by decide)
      (.plain (by decide) (by decide) (.plain (by decide) (by decide) .nil)))))
  · refine .cons (a := [0x5c]) (java_run_item (s := [0x5c, 0x75, 0x64, 0x38, 0x30, 0x30, 0x78]) (n := 1) (by simp) (by decide +kernel)) ?_
    exact (C57_java_reads _ _).1 (java_text (.plain (by decide) (.plain (by decide) (.plain (by decide) (.plain (by decide)
      (.plain (by decide) (.plain (by decide) .nil)))))))

theorem items_none {R : List Byte → List Byte → Nat → Prop} {m : M MbRet} (h1 : ∀ a s c, R a s c → a ≠ [] ∧ m.run (a ++ s) = .ok (some (.char c a.length)))
    {s : List Byte} (hs : s ≠ []) (h : m.run s = .ok none) : ¬ ∃ w, Items R s w := by
  rintro ⟨w, hw⟩
  cases hw with
  | nil => exact hs rfl
  | cons hr _ => rw [(h1 _ _ _ hr).2] at h; cases h

/-- Input that ends in the middle of an escape is no text. -/
theorem C57_cut (p : List Byte) (hp : ∀ d ∈ p, Alnum d) :
    (p.length < 4 → (¬ ∃ w, Items JavaItem (0x5c :: 0x75 :: p) w) ∧ ¬ ∃ w, Items C99Item (0x5c :: 0x75 :: p) w) ∧
    (p.length < 8 → ¬ ∃ w, Items C99Item (0x5c :: 0x55 :: p) w) :=
  ⟨fun hk => ⟨items_none (fun _ _ _ h => java_item_run h) (by simp) (by rw [java_u, loop_short hp hk]),
    items_none (fun _ _ _ h => c99_item_run h) (by simp) (by rw [c99_u, loop_short hp hk])⟩,
    fun hk => items_none (fun _ _ _ h => c99_item_run h) (by simp) (by rw [c99_U, loop_short hp hk])⟩

end Reiconv
