import Verif.Codec.Sim
import Verif.Codec.Utf8

/-!
# UTF-7 (`lib/converters/utf7.h`)
-/

namespace Reiconv

/-! ## Tables -/

/-- `direct_tab` (`lib/converters/utf7.h:38-41`). -/
def u7_direct_tab : List Nat :=
  [0x00, 0x26, 0x00, 0x00, 0x81, 0xf3, 0xff, 0x87, 0xfe, 0xff, 0xff, 0x07, 0xfe, 0xff, 0xff, 0x07]

/-- `xdirect_tab` (`lib/converters/utf7.h:48-51`). -/
def u7_xdirect_tab : List Nat :=
  [0x00, 0x26, 0x00, 0x00, 0xff, 0xf7, 0xff, 0xff, 0xff, 0xff, 0xff, 0xef, 0xff, 0xff, 0xff, 0x3f]

/-- `xbase64_tab` (`lib/converters/utf7.h:57-60`). -/
def u7_xbase64_tab : List Nat :=
  [0x00, 0x00, 0x00, 0x00, 0x00, 0xa8, 0xff, 0x03, 0xfe, 0xff, 0xff, 0x07, 0xfe, 0xff, 0xff, 0x07]

/-- `((ch) < 128 && ((tab[(ch)>>3] >> (ch & 7)) & 1))` (`lib/converters/utf7.h:42,52,61`). -/
def u7bit (tab : List Nat) (ch : Nat) : Bool :=
  decide (ch < 128) && decide (tab.getD (ch / 8) 0 / 2 ^ (ch % 8) % 2 = 1)

/-- `isdirect` (`lib/converters/utf7.h:42`). -/
def u7_isdirect (ch : Nat) : Bool := u7bit u7_direct_tab ch
/-- `isxdirect` (`lib/converters/utf7.h:52`). -/
def u7_isxdirect (ch : Nat) : Bool := u7bit u7_xdirect_tab ch
/-- `isxbase64` (`lib/converters/utf7.h:61`). -/
def u7_isxbase64 (ch : Nat) : Bool := u7bit u7_xbase64_tab ch

/-! ## Decoder -/

/-- The value of a base64 character (`lib/converters/utf7.h:124-134`); `none`: any other byte. -/
def u7val (c : Nat) : Option Nat :=
  if c ≥ 0x41 ∧ c ≤ 0x5a then some (c - 0x41)
  else if c ≥ 0x61 ∧ c ≤ 0x7a then some (c - 0x61 + 26)
  else if c ≥ 0x30 ∧ c ≤ 0x39 then some (c - 0x30 + 52)
  else if c = 0x2b then some 62
  else if c = 0x2f then some 63
  else none

/-- New `wc`, `k`, `base64state` after 6 more bits `i` (`lib/converters/utf7.h:148-160`). `x & -4` is
`x / 4 * 4`; the parts combined with `|` have no common bits. `wc` does not exceed 32 bits because at most
four bytes are read. -/
def u7push (wc k bst i : Nat) : Nat × Nat × Nat :=
  if bst % 4 = 1 then (wc, k, i * 4)
  else if bst % 4 = 0 then (wc * 256 + bst / 4 * 4 + i / 16, k + 1, i % 16 * 16 + 2)
  else if bst % 4 = 2 then (wc * 256 + bst / 4 * 4 + i / 4, k + 1, i % 4 * 64 + 3)
  else (wc * 256 + bst / 4 * 4 + i, k + 1, 1)

/-- After the loop (`lib/converters/utf7.h:172-185`); `n` is `base64count`. -/
def u7fin (n wc kmax bst : Nat) : M SItem :=
  if bst % 4 = 0 then .abort
  else if kmax = 4 then
    if ¬ (wc / 65536 ≥ 0xd800 ∧ wc / 65536 < 0xdc00) then .abort
    else if ¬ (wc % 65536 ≥ 0xdc00 ∧ wc % 65536 < 0xe000) then .ret .ilseq
    else .ret (.char (0x10000 + (wc / 65536 - 0xd800) * 1024 + (wc % 65536 - 0xdc00)) n bst)
  else .ret (.char wc n bst)

/-- The loop of the active state (`lib/converters/utf7.h:121-171`); `j` is `base64count`. `fuel` bounds the
number of passes, of which there are at most six; the model would `abort` in a seventh. -/
def u7loop : Nat → Nat → Nat → Nat → Nat → Nat → M SItem
  | 0, _, _, _, _, _ => .abort
  | fuel + 1, j, wc, k, kmax, bst =>
    .byte j fun c =>
      match u7val c with
      | none =>
        if bst / 4 * 4 ≠ 0 then .ret .ilseq
        else if j ≠ 0 then .ret .ilseq
        else if c = 0x2d then .ret (.shift 1 0)
        else .ret (.shift 0 0)
      | some i =>
        let (wc', k', bst') := u7push wc k bst i
        if k' = kmax then
          if kmax = 2 ∧ wc' ≥ 0xd800 ∧ wc' < 0xdc00 then .need (j + 2) (u7loop fuel (j + 1) wc' k' 4 bst')
          else u7fin (j + 1) wc' kmax bst'
        else .need (j + 2) (u7loop fuel (j + 1) wc' k' kmax bst')

/-- `utf7_mbtowc` (`lib/converters/utf7.h:75-194`) from a label `inactive` or `active` to the next or to a
`return`. -/
def utf7_item (st : Nat) : M SItem :=
  if st % 4 ≠ 0 then u7loop 6 0 0 0 2 st
  else .byte 0 fun c =>
    if u7_isxdirect c then .ret (.char c 1 st)
    else if c = 0x2b then
      .need 2 <| .byte 1 fun d => if d = 0x2d then .ret (.char 0x2b 2 st) else .ret (.shift 1 1)
    else .ret .ilseq

/-- The functions `utf7_mbtowc` (`lib/converters/utf7.h:76-194`). -/
def utf7_decoder : Decoder := ⟨sdecode utf7_item, none⟩

/-- The decoder states: not in base64; in base64 with 0, 4 or 2 bits left. -/
def u7I (st : Nat) : Prop := st = 0 ∨ st = 1 ∨ (st < 256 ∧ st % 16 = 2) ∨ (st < 256 ∧ st % 64 = 3)

/-- Bits left over. -/
def u7pb (bst : Nat) : Nat :=
  if bst % 4 = 0 then 6 else if bst % 4 = 1 then 0 else if bst % 4 = 2 then 4 else 2

theorem u7val_lt {c i : Nat} (h : u7val c = some i) : i < 64 := by
  unfold u7val at h
  repeat' split at h
  all_goals first | cases h; omega | cases h

/-- What holds in the loop before each pass. -/
structure U7Inv (fuel j wc k kmax bst : Nat) : Prop where
  cnt : fuel + j = 6
  bits : ∃ p, p ≤ 4 ∧ 8 * k + u7pb bst = 6 * j + p
  lt : k < kmax
  sur : kmax = 2 ∨ (kmax = 4 ∧ (k = 2 ∧ wc ≥ 0xd800 ∧ wc < 0xdc00 ∨ k = 3 ∧ wc / 256 ≥ 0xd800 ∧ wc / 256 < 0xdc00))
  st : bst = 1 ∨ (bst < 256 ∧ (bst % 4 = 0 ∨ bst % 16 = 2 ∨ bst % 64 = 3))

theorem u7push_inv {fuel j wc k kmax bst i : Nat} (h : U7Inv (fuel + 1) j wc k kmax bst) (hi : i < 64)
    {wc' k' bst' : Nat} (e : u7push wc k bst i = (wc', k', bst')) :
    (∃ p, p ≤ 4 ∧ 8 * k' + u7pb bst' = 6 * (j + 1) + p) ∧ (bst' = 1 ∨ (bst' < 256 ∧ (bst' % 4 = 0 ∨ bst' % 16 = 2 ∨ bst' % 64 = 3))) ∧
    (k' = k ∧ wc' = wc ∧ bst % 4 = 1 ∨ k' = k + 1 ∧ wc' / 256 = wc ∧ bst' % 4 ≠ 0 ∧ u7I bst') := by
  obtain ⟨p, hp, hb⟩ := h.bits
  have hst := h.st
  unfold u7push at e
  unfold u7pb at hb
  unfold u7pb u7I
  by_cases h1 : bst % 4 = 1
  · rw [if_pos h1] at e
    cases e
    rw [if_neg (by omega), if_pos h1] at hb
    rw [if_pos (by omega)]
    exact ⟨⟨p, hp, by omega⟩, by omega, .inl ⟨rfl, rfl, h1⟩⟩
  rw [if_neg h1] at e
  by_cases h0 : bst % 4 = 0
  · rw [if_pos h0] at e
    cases e
    rw [if_pos h0] at hb
    rw [if_neg (by omega), if_neg (by omega), if_pos (by omega)]
    exact ⟨⟨p, hp, by omega⟩, by omega, .inr ⟨rfl, by omega, by omega, by omega⟩⟩
  rw [if_neg h0] at e
  by_cases h2 : bst % 4 = 2
  · rw [if_pos h2] at e
    cases e
    rw [if_neg h0, if_neg h1, if_pos h2] at hb
    rw [if_neg (by omega), if_neg (by omega), if_neg (by omega)]
    exact ⟨⟨p, hp, by omega⟩, by omega, .inr ⟨rfl, by omega, by omega, by omega⟩⟩
  rw [if_neg h2] at e
  cases e
  rw [if_neg h0, if_neg h1, if_neg h2] at hb
  rw [if_neg (by omega), if_pos (by omega)]
  exact ⟨⟨p, hp, by omega⟩, by omega, .inr ⟨rfl, by omega, by omega, by omega⟩⟩

def u7pend (st : Nat) : Bool := decide (st % 4 ≠ 0)

theorem u7loop_good {st : Nat} (hst : st % 4 ≠ 0) : ∀ (fuel j wc k kmax bst : Nat), U7Inv fuel j wc k kmax bst →
    M.Good (ItemOK u7I u7pend st) (j + 1) (u7loop fuel j wc k kmax bst) := by
  intro fuel
  induction fuel with
  | zero =>
    intro j wc k kmax bst h
    exfalso
    obtain ⟨p, hp, hb⟩ := h.bits
    have h1 := h.cnt
    have h2 := h.lt
    have h3 : u7pb bst ≤ 6 := by
      unfold u7pb
      repeat' split
      all_goals omega
    rcases h.sur with h4 | ⟨h4, _⟩ <;> omega
  | succ fuel ih =>
    intro j wc k kmax bst h
    refine ⟨by omega, fun c hc => ?_⟩
    cases hv : u7val c with
    | none =>
      simp only [hv]
      refine M.good_ite (fun _ => ?_) fun _ => M.good_ite (fun _ => ?_) fun _ => M.good_ite (fun _ => ?_) fun _ => ?_
      · show 1 ≤ j + 1; omega
      · show 1 ≤ j + 1; omega
      · exact ⟨.inl rfl, by omega, by omega⟩
      · exact ⟨.inl rfl, by omega, fun _ => ⟨by simp [u7pend, hst], rfl⟩⟩
    | some i =>
      simp only [hv]
      have hi := u7val_lt hv
      generalize hx : u7push wc k bst i = x
      obtain ⟨wc', k', bst'⟩ := x
      obtain ⟨g1, g2, g3⟩ := u7push_inv h hi hx
      have hc := h.cnt
      have hl := h.lt
      have hs := h.sur
      simp only
      refine M.good_ite (fun hk => M.good_ite (fun hsu => ?_) fun hsu => ?_) fun hk => ?_
      · show M.Good _ (max (j + 1) (j + 2)) _
        rw [show max (j + 1) (j + 2) = (j + 1) + 1 by omega]
        exact ih _ _ _ _ _ ⟨by omega, g1, by omega, .inr ⟨rfl, .inl ⟨by omega, hsu.2⟩⟩, g2⟩
      · rcases g3 with ⟨g3, _, _⟩ | ⟨g3, g4, g5, g6⟩
        · omega
        unfold u7fin
        rw [if_neg g5]
        by_cases h4 : kmax = 4
        · rw [if_pos h4, if_neg (by omega)]
          refine M.good_ite (fun _ => ?_) fun _ => ?_
          · show 1 ≤ j + 1; omega
          · exact ⟨g6, by omega, by omega⟩
        · rw [if_neg h4]
          exact ⟨g6, by omega, by omega⟩
      · show M.Good _ (max (j + 1) (j + 2)) _
        rw [show max (j + 1) (j + 2) = (j + 1) + 1 by omega]
        refine ih _ _ _ _ _ ⟨by omega, g1, by omega, ?_, g2⟩
        omega

/-- Proof that `utf7_decoder` satisfies the contract `StDec`. -/
def utf7_dec : StDec utf7_decoder where
  item := utf7_item
  I := u7I
  pend := u7pend
  eq := rfl
  init := .inl rfl
  good := by
    intro st hI
    unfold utf7_item
    refine M.good_ite (fun h => ?_) fun h => ⟨by omega, fun c hc => ?_⟩
    · refine u7loop_good h 6 0 0 0 2 st ⟨by omega, ?_, by omega, .inl rfl, ?_⟩
      · exact ⟨u7pb st, by
          unfold u7pb
          repeat' split
          all_goals omega, by omega⟩
      · unfold u7I at hI; omega
    · dsimp only
      refine M.good_ite (fun _ => ⟨hI, by omega, by omega⟩) fun _ => M.good_ite (fun _ => ?_) fun _ => Nat.le_refl 1
      refine ⟨by omega, fun d hd => M.good_ite (fun _ => ⟨hI, by omega, by omega⟩) fun _ => ⟨.inr (.inl rfl), by omega, by omega⟩⟩
  flush_ok := by intro f hf; cases hf

/-! ## Encoder -/

/-- The base64 character of a value (`lib/converters/utf7.h:257-268,309-320,343-354`); `none`: `abort()`. -/
def u7chr (i : Nat) : Option Nat :=
  if i < 26 then some (i + 0x41)
  else if i < 52 then some (i - 26 + 0x61)
  else if i < 62 then some (i - 52 + 0x30)
  else if i = 62 then some 0x2b
  else if i = 63 then some 0x2f
  else none

/-- The loop that writes `k` bytes of `wc` (`lib/converters/utf7.h:292-324`): the characters and the state at
the end. `fuel` bounds the number of passes. -/
def u7write : Nat → Nat → Nat → Nat → Outcome (List Nat × Nat)
  | 0, _, _, _ => .diverge
  | fuel + 1, wc, k, state =>
    let i := wc / 256 ^ (k - 1) % 256
    let (c, state', k') :=
      if state % 4 = 0 then (state / 4, 1, k)
      else if state % 4 = 1 then (i / 4, i % 4 * 16 + 2, k - 1)
      else if state % 4 = 2 then (state / 4 * 4 + i / 16, i % 16 * 4 + 3, k - 1)
      else (state / 4 * 4 + i / 64, i % 64 * 4, k - 1)
    match u7chr c with
    | none => .abort
    | some b =>
      if state' % 4 ≠ 0 ∧ k' = 0 then .ok ([b], state')
      else match u7write fuel wc k' state' with
        | .ok (bs, st) => .ok (b :: bs, st)
        | .ub => .ub
        | .abort => .abort
        | .diverge => .diverge

/-- The surrogate pair of a character from U+10000 on as a 32-bit number (`lib/converters/utf7.h:283-285`). -/
def u7pair (wc : Nat) : Nat := (0xd800 + (wc - 0x10000) / 1024) * 65536 + (0xdc00 + (wc - 0x10000) % 1024)

/-- The part from the label `active` on (`lib/converters/utf7.h:246-328`). `pre` has been stored before, `os`
is `conv->ostate`. -/
def u7active (os : Nat) (pre : List Nat) (state wc n : Nat) : Outcome WcRes :=
  if u7_isdirect wc then
    let count := pre.length + (if state % 4 ≥ 2 then 1 else 0) + (if u7_isxbase64 wc then 1 else 0) + 1
    if n < count then .ok ⟨.toosmall, pre.map u8, os⟩
    else if state % 4 ≥ 2 then
      match u7chr (state / 4 * 4) with
      | none => .abort
      | some c => .ok (.put ((pre ++ [c] ++ (if u7_isxbase64 wc then [0x2d] else []) ++ [wc]).map u8) 0)
    else .ok (.put ((pre ++ (if u7_isxbase64 wc then [0x2d] else []) ++ [wc]).map u8) 0)
  else if wc < 0x10000 then
    let count := pre.length + (if state % 4 ≥ 2 then 3 else 2)
    if n < count then .ok ⟨.toosmall, pre.map u8, os⟩
    else match u7write 8 wc 2 state with
      | .ok (bs, st) => .ok (.put ((pre ++ bs).map u8) st)
      | .ub => .ub
      | .abort => .abort
      | .diverge => .diverge
  else if wc < 0x110000 then
    let count := pre.length + (if state % 4 ≥ 3 then 6 else 5)
    if n < count then .ok ⟨.toosmall, pre.map u8, os⟩
    else match u7write 8 (u7pair wc) 4 state with
      | .ok (bs, st) => .ok (.put ((pre ++ bs).map u8) st)
      | .ub => .ub
      | .abort => .abort
      | .diverge => .diverge
  else .ok ⟨.iluni, pre.map u8, os⟩

/-- `utf7_wctomb` (`lib/converters/utf7.h:216-329`), with `UTF7_ENCODE_OPTIONAL_CHARS` = 1 (line 214). -/
def utf7_wctomb (os wc n : Nat) : Outcome WcRes :=
  if os % 4 ≠ 0 then u7active os [] os wc n
  else if u7_isdirect wc then .ok (.put [u8 wc] os)
  else if wc = 0x2b then
    if n < 2 then .ok ⟨.toosmall, [u8 0x2b], os⟩ else .ok (.put [u8 0x2b, u8 0x2d] os)
  else u7active os [0x2b] 1 wc n

/-- `utf7_reset` (`lib/converters/utf7.h:331-362`). -/
def utf7_reset (os n : Nat) : Outcome WcRes :=
  if os % 4 ≠ 0 then
    let count := (if os % 4 ≥ 2 then 1 else 0) + 1
    if n < count then .ok (.small os)
    else if os % 4 ≥ 2 then
      match u7chr (os / 4 * 4) with
      | none => .abort
      | some c => .ok (.put ([c, 0x2d].map u8) os)
    else .ok (.put ([0x2d].map u8) os)
  else .ok (.put [] os)

/-- The functions `utf7_wctomb` (`lib/converters/utf7.h:217-329`), `utf7_reset` (`lib/converters/utf7.h:332-362`). -/
def utf7_encoder : Encoder := ⟨utf7_wctomb, some utf7_reset⟩

/-- The encoder states: not in base64; in base64 with 0, 2 or 4 bits not yet written. -/
def u7J (os : Nat) : Prop := os = 0 ∨ os = 1 ∨ (os < 64 ∧ os % 16 = 2) ∨ (os < 64 ∧ os % 4 = 3)

/-- The base64 character of a value below 64. -/
def u7c (i : Nat) : Nat := (u7chr i).getD 0

theorem u7chr_lt {i : Nat} (h : i < 64) : u7chr i = some (u7c i) := by
  have : ∀ i, i < 64 → (u7chr i).isSome = true := by decide
  have := this i h
  unfold u7c
  cases hc : u7chr i with
  | none => rw [hc] at this; cases this
  | some c => rfl

theorem u7c_val : ∀ i, i < 64 → u7val (u7c i) = some i ∧ u7c i < 128 := by decide

theorem u7write_last {fuel wc k state : Nat} {c state' k' : Nat}
    (h : (if state % 4 = 0 then (state / 4, 1, k)
      else if state % 4 = 1 then (wc / 256 ^ (k - 1) % 256 / 4, wc / 256 ^ (k - 1) % 256 % 4 * 16 + 2, k - 1)
      else if state % 4 = 2 then (state / 4 * 4 + wc / 256 ^ (k - 1) % 256 / 16, wc / 256 ^ (k - 1) % 256 % 16 * 4 + 3, k - 1)
      else (state / 4 * 4 + wc / 256 ^ (k - 1) % 256 / 64, wc / 256 ^ (k - 1) % 256 % 64 * 4, k - 1)) = (c, state', k'))
    (hc : c < 64) (h1 : state' % 4 ≠ 0 ∧ k' = 0) : u7write (fuel + 1) wc k state = .ok ([u7c c], state') := by
  unfold u7write
  simp only
  rw [h]
  simp only
  rw [u7chr_lt hc]
  simp only
  rw [if_pos h1]

theorem u7write_more {fuel wc k state : Nat} {c state' k' st : Nat} {bs : List Nat}
    (h : (if state % 4 = 0 then (state / 4, 1, k)
      else if state % 4 = 1 then (wc / 256 ^ (k - 1) % 256 / 4, wc / 256 ^ (k - 1) % 256 % 4 * 16 + 2, k - 1)
      else if state % 4 = 2 then (state / 4 * 4 + wc / 256 ^ (k - 1) % 256 / 16, wc / 256 ^ (k - 1) % 256 % 16 * 4 + 3, k - 1)
      else (state / 4 * 4 + wc / 256 ^ (k - 1) % 256 / 64, wc / 256 ^ (k - 1) % 256 % 64 * 4, k - 1)) = (c, state', k'))
    (hc : c < 64) (h1 : ¬ (state' % 4 ≠ 0 ∧ k' = 0)) (h2 : u7write fuel wc k' state' = .ok (bs, st)) :
    u7write (fuel + 1) wc k state = .ok (u7c c :: bs, st) := by
  rw [u7write]
  simp only
  rw [h]
  simp only
  rw [u7chr_lt hc]
  simp only
  rw [if_neg h1, h2]

/-! One pass in each state. -/

theorem u7w1 {fuel wc k i st : Nat} {bs : List Nat} (hi : wc / 256 ^ k % 256 = i) (hk : k ≠ 0)
    (h : u7write fuel wc k (i % 4 * 16 + 2) = .ok (bs, st)) :
    u7write (fuel + 1) wc (k + 1) 1 = .ok (u7c (i / 4) :: bs, st) := by
  refine u7write_more (c := i / 4) (state' := i % 4 * 16 + 2) (k' := k) ?_ (by omega) (by omega) h
  rw [if_neg (by omega), if_pos (by omega), show k + 1 - 1 = k from rfl, hi]

theorem u7w2 {fuel wc k i d st : Nat} {bs : List Nat} (hd : d < 4) (hi : wc / 256 ^ k % 256 = i) (hk : k ≠ 0)
    (h : u7write fuel wc k (i % 16 * 4 + 3) = .ok (bs, st)) :
    u7write (fuel + 1) wc (k + 1) (d * 16 + 2) = .ok (u7c (d * 16 + i / 16) :: bs, st) := by
  refine u7write_more (c := d * 16 + i / 16) (state' := i % 16 * 4 + 3) (k' := k) ?_ (by omega) (by omega) h
  rw [if_neg (by omega), if_neg (by omega), if_pos (by omega), show k + 1 - 1 = k from rfl, hi,
    show (d * 16 + 2) / 4 * 4 = d * 16 by omega]

theorem u7w2_last {fuel wc i d : Nat} (hd : d < 4) (hi : wc / 256 ^ 0 % 256 = i) :
    u7write (fuel + 1) wc 1 (d * 16 + 2) = .ok ([u7c (d * 16 + i / 16)], i % 16 * 4 + 3) := by
  refine u7write_last (c := d * 16 + i / 16) (state' := i % 16 * 4 + 3) (k' := 0) ?_ (by omega) (by omega)
  rw [if_neg (by omega), if_neg (by omega), if_pos (by omega), show 1 - 1 = 0 from rfl, hi,
    show (d * 16 + 2) / 4 * 4 = d * 16 by omega]

theorem u7w1_last {fuel wc i : Nat} (hi : wc / 256 ^ 0 % 256 = i) :
    u7write (fuel + 1) wc 1 1 = .ok ([u7c (i / 4)], i % 4 * 16 + 2) := by
  refine u7write_last (c := i / 4) (state' := i % 4 * 16 + 2) (k' := 0) ?_ (by omega) (by omega)
  rw [if_neg (by omega), if_pos (by omega), show 1 - 1 = 0 from rfl, hi]

/-- In state 3 two characters are written, the second with the six bits left. -/
theorem u7w3 {fuel wc k i d st : Nat} {bs : List Nat} (hd : d < 16) (hi : wc / 256 ^ k % 256 = i) (hk : k ≠ 0)
    (h : u7write fuel wc k 1 = .ok (bs, st)) :
    u7write (fuel + 2) wc (k + 1) (d * 4 + 3) = .ok (u7c (d * 4 + i / 64) :: u7c (i % 64) :: bs, st) := by
  refine u7write_more (c := d * 4 + i / 64) (state' := i % 64 * 4) (k' := k) ?_ (by omega) (by omega) ?_
  · rw [if_neg (by omega), if_neg (by omega), if_neg (by omega), show k + 1 - 1 = k from rfl, hi,
      show (d * 4 + 3) / 4 * 4 = d * 4 by omega]
  · refine u7write_more (c := i % 64) (state' := 1) (k' := k) ?_ (by omega) (by omega) h
    rw [if_pos (by omega), show i % 64 * 4 / 4 = i % 64 by omega]

theorem u7w3_last {fuel wc i d : Nat} (hd : d < 16) (hi : wc / 256 ^ 0 % 256 = i) :
    u7write (fuel + 2) wc 1 (d * 4 + 3) = .ok ([u7c (d * 4 + i / 64), u7c (i % 64)], 1) := by
  refine u7write_more (c := d * 4 + i / 64) (state' := i % 64 * 4) (k' := 0) ?_ (by omega) (by omega) ?_
  · rw [if_neg (by omega), if_neg (by omega), if_neg (by omega), show 1 - 1 = 0 from rfl, hi,
      show (d * 4 + 3) / 4 * 4 = d * 4 by omega]
  · refine u7write_last (c := i % 64) (state' := 1) (k' := 0) ?_ (by omega) (by omega)
    rw [if_pos (by omega), show i % 64 * 4 / 4 = i % 64 by omega]

/-- The base64 values of two bytes and the next state. -/
def u7two (os b0 b1 : Nat) : List Nat × Nat :=
  if os % 4 = 1 then ([b0 / 4, b0 % 4 * 16 + b1 / 16], b1 % 16 * 4 + 3)
  else if os % 4 = 2 then ([os / 16 * 16 + b0 / 16, b0 % 16 * 4 + b1 / 64, b1 % 64], 1)
  else ([os / 4 * 4 + b0 / 64, b0 % 64, b1 / 4], b1 % 4 * 16 + 2)

/-- The base64 values of four bytes and the next state. -/
def u7four (os b0 b1 b2 b3 : Nat) : List Nat × Nat :=
  if os % 4 = 1 then ([b0 / 4, b0 % 4 * 16 + b1 / 16, b1 % 16 * 4 + b2 / 64, b2 % 64, b3 / 4], b3 % 4 * 16 + 2)
  else if os % 4 = 2 then
    ([os / 16 * 16 + b0 / 16, b0 % 16 * 4 + b1 / 64, b1 % 64, b2 / 4, b2 % 4 * 16 + b3 / 16], b3 % 16 * 4 + 3)
  else ([os / 4 * 4 + b0 / 64, b0 % 64, b1 / 4, b1 % 4 * 16 + b2 / 16, b2 % 16 * 4 + b3 / 64, b3 % 64], 1)

theorem u7write_two {os wc : Nat} (hJ : u7J os) (h0 : os % 4 ≠ 0) (hw : wc < 65536) :
    u7write 8 wc 2 os = .ok ((u7two os (wc / 256) (wc % 256)).1.map u7c, (u7two os (wc / 256) (wc % 256)).2) := by
  have e1 : wc / 256 ^ 1 % 256 = wc / 256 := by omega
  have e0 : wc / 256 ^ 0 % 256 = wc % 256 := by omega
  unfold u7J at hJ
  unfold u7two
  by_cases h1 : os % 4 = 1
  · rw [if_pos h1]
    have : os = 1 := by omega
    subst this
    exact u7w1 (k := 1) e1 (by omega) (u7w2_last (by omega) e0)
  rw [if_neg h1]
  by_cases h2 : os % 4 = 2
  · rw [if_pos h2]
    obtain ⟨d, rfl⟩ : ∃ d, os = d * 16 + 2 := ⟨os / 16, by omega⟩
    rw [show (d * 16 + 2) / 16 = d by omega]
    exact u7w2 (k := 1) (by omega) e1 (by omega) (u7w3_last (by omega) e0)
  · rw [if_neg h2]
    obtain ⟨d, rfl⟩ : ∃ d, os = d * 4 + 3 := ⟨os / 4, by omega⟩
    rw [show (d * 4 + 3) / 4 = d by omega]
    exact u7w3 (k := 1) (by omega) e1 (by omega) (u7w1_last e0)

theorem u7write_four {os w : Nat} (hJ : u7J os) (h0 : os % 4 ≠ 0) (hw : w < 4294967296) :
    u7write 8 w 4 os =
      .ok ((u7four os (w / 16777216) (w / 65536 % 256) (w / 256 % 256) (w % 256)).1.map u7c,
        (u7four os (w / 16777216) (w / 65536 % 256) (w / 256 % 256) (w % 256)).2) := by
  have e3 : w / 256 ^ 3 % 256 = w / 16777216 := by omega
  have e2 : w / 256 ^ 2 % 256 = w / 65536 % 256 := by omega
  have e1 : w / 256 ^ 1 % 256 = w / 256 % 256 := by omega
  have e0 : w / 256 ^ 0 % 256 = w % 256 := by omega
  unfold u7J at hJ
  unfold u7four
  by_cases h1 : os % 4 = 1
  · rw [if_pos h1]
    have : os = 1 := by omega
    subst this
    exact u7w1 (k := 3) e3 (by omega) (u7w2 (k := 2) (by omega) e2 (by omega)
      (u7w3 (k := 1) (by omega) e1 (by omega) (u7w1_last e0)))
  rw [if_neg h1]
  by_cases h2 : os % 4 = 2
  · rw [if_pos h2]
    obtain ⟨d, rfl⟩ : ∃ d, os = d * 16 + 2 := ⟨os / 16, by omega⟩
    rw [show (d * 16 + 2) / 16 = d by omega]
    exact u7w2 (k := 3) (by omega) e3 (by omega) (u7w3 (k := 2) (by omega) e2 (by omega)
      (u7w1 (k := 1) e1 (by omega) (u7w2_last (by omega) e0)))
  · rw [if_neg h2]
    obtain ⟨d, rfl⟩ : ∃ d, os = d * 4 + 3 := ⟨os / 4, by omega⟩
    rw [show (d * 4 + 3) / 4 = d by omega]
    exact u7w3 (k := 3) (by omega) e3 (by omega) (u7w1 (k := 2) e2 (by omega)
      (u7w2 (k := 1) (by omega) e1 (by omega) (u7w3_last (by omega) e0)))

/-- The base64 values of a character. -/
def u7body (state wc : Nat) : List Nat × Nat :=
  if wc < 0x10000 then u7two state (wc / 256) (wc % 256)
  else u7four state (u7pair wc / 16777216) (u7pair wc / 65536 % 256) (u7pair wc / 256 % 256) (u7pair wc % 256)

/-- The characters that end base64: the bits left, and a `-` if `minus`. -/
def u7leave (os : Nat) (minus : Bool) : List Nat :=
  (if os % 4 ≥ 2 then [u7c (os / 4 * 4)] else []) ++ (if minus then [0x2d] else [])

/-- What the encoder writes, and its next state. -/
def u7enc (os wc : Nat) : Option (List Nat × Nat) :=
  if u7_isdirect wc then
    some ((if os % 4 = 0 then [] else u7leave os (u7_isxbase64 wc)) ++ [wc], 0)
  else if os % 4 = 0 ∧ wc = 0x2b then some ([0x2b, 0x2d], 0)
  else if wc < 0x110000 then
    if os % 4 = 0 then some (0x2b :: (u7body 1 wc).1.map u7c, (u7body 1 wc).2)
    else some ((u7body os wc).1.map u7c, (u7body os wc).2)
  else none

theorem u7body_len {os wc : Nat} : (u7body os wc).1.length =
    if wc < 0x10000 then (if os % 4 = 1 then 2 else 3) else (if os % 4 = 1 ∨ os % 4 = 2 then 5 else 6) := by
  unfold u7body u7two u7four
  by_cases h : wc < 0x10000 <;> by_cases h1 : os % 4 = 1 <;> by_cases h2 : os % 4 = 2 <;> simp [h, h1, h2]

theorem u7body_st {os wc : Nat} : u7J (u7body os wc).2 := by
  unfold u7body u7two u7four u7J
  repeat' split
  all_goals (dsimp only; omega)

theorem u7pair_lt {wc : Nat} (h : wc < 0x110000) : u7pair wc < 4294967296 := by unfold u7pair; omega

theorem u7active_eq {os state wc n : Nat} {pre : List Nat} (hJ : u7J state) (h0 : state % 4 ≠ 0)
    (hd : u7_isdirect wc = false) : u7active os pre state wc n =
    .ok (if wc < 0x110000 then
      (if pre.length + (u7body state wc).1.length ≤ n then
        .put ((pre ++ (u7body state wc).1.map u7c).map u8) (u7body state wc).2
      else ⟨.toosmall, pre.map u8, os⟩) else ⟨.iluni, pre.map u8, os⟩) := by
  unfold u7active
  rw [hd, if_neg (by simp), u7body_len]
  unfold u7J at hJ
  by_cases h1 : wc < 0x10000
  · rw [if_pos h1, if_pos (show wc < 0x110000 by omega), if_pos h1]
    have e : (if state % 4 ≥ 2 then 3 else 2) = (if state % 4 = 1 then 2 else 3) := by
      by_cases hs : state % 4 = 1
      · rw [if_pos hs, if_neg (by omega)]
      · rw [if_neg hs, if_pos (by omega)]
    simp only
    rw [e]
    by_cases hn : n < pre.length + (if state % 4 = 1 then 2 else 3)
    · rw [if_pos hn, if_neg (by omega)]
    · rw [if_neg hn, if_pos (by omega), u7write_two hJ h0 h1]
      unfold u7body
      rw [if_pos h1]
  · rw [if_neg h1]
    by_cases h2 : wc < 0x110000
    · rw [if_pos h2, if_pos h2, if_neg h1]
      have e : (if state % 4 ≥ 3 then 6 else 5) = (if state % 4 = 1 ∨ state % 4 = 2 then 5 else 6) := by
        by_cases hs : state % 4 = 1 ∨ state % 4 = 2
        · rw [if_pos hs, if_neg (by omega)]
        · rw [if_neg hs, if_pos (by omega)]
      simp only
      rw [e]
      by_cases hn : n < pre.length + (if state % 4 = 1 ∨ state % 4 = 2 then 5 else 6)
      · rw [if_pos hn, if_neg (by omega)]
      · rw [if_neg hn, if_pos (by omega), u7write_four hJ h0 (u7pair_lt h2)]
        unfold u7body
        rw [if_neg h1]
    · rw [if_neg h2, if_neg h2]

theorem u7leave_len {os : Nat} {m : Bool} : (u7leave os m).length = (if os % 4 ≥ 2 then 1 else 0) + (if m then 1 else 0) := by
  unfold u7leave
  by_cases h : os % 4 ≥ 2 <;> cases m <;> simp [h]

theorem u7active_direct {os wc n : Nat} (hJ : u7J os) (hd : u7_isdirect wc = true) : u7active os [] os wc n =
    .ok (if (u7leave os (u7_isxbase64 wc)).length + 1 ≤ n then
        .put ((u7leave os (u7_isxbase64 wc) ++ [wc]).map u8) 0
      else ⟨.toosmall, [], os⟩) := by
  unfold u7active
  rw [if_pos hd, u7leave_len]
  simp only [List.length_nil, Nat.zero_add]
  by_cases hn : n < (if os % 4 ≥ 2 then 1 else 0) + (if u7_isxbase64 wc = true then 1 else 0) + 1
  · rw [if_pos hn, if_neg (by omega)]
    rfl
  · rw [if_neg hn, if_pos (show (if os % 4 ≥ 2 then 1 else 0) + (if u7_isxbase64 wc = true then 1 else 0) + 1 ≤ n by omega)]
    unfold u7leave
    by_cases h2 : os % 4 ≥ 2
    · rw [if_pos h2, if_pos h2, u7chr_lt (by unfold u7J at hJ; omega)]
      simp
    · rw [if_neg h2, if_neg h2]

/-- The room that is asked for. -/
def u7need (os wc : Nat) : Nat :=
  if os % 4 = 0 ∧ u7_isdirect wc = true then 0
  else match u7enc os wc with
    | some (bs, _) => bs.length
    | none => 0

theorem u7enc_st {os wc os' : Nat} {bs : List Nat} (h : u7enc os wc = some (bs, os')) : u7J os' ∧ bs ≠ [] ∧ bs.length ≤ 64 := by
  unfold u7enc at h
  by_cases h1 : u7_isdirect wc = true
  · rw [if_pos h1] at h
    cases h
    refine ⟨.inl rfl, by simp, ?_⟩
    rw [List.length_append]
    by_cases h0 : os % 4 = 0
    · rw [if_pos h0]; simp
    · rw [if_neg h0, u7leave_len]
      have : (if os % 4 ≥ 2 then 1 else 0) ≤ 1 := by split <;> omega
      have : (if u7_isxbase64 wc = true then 1 else 0) ≤ 1 := by split <;> omega
      simp only [List.length_cons, List.length_nil]
      omega
  rw [if_neg h1] at h
  by_cases h2 : os % 4 = 0 ∧ wc = 0x2b
  · rw [if_pos h2] at h
    cases h
    exact ⟨.inl rfl, by simp, by simp⟩
  rw [if_neg h2] at h
  by_cases h3 : wc < 0x110000
  · rw [if_pos h3] at h
    have hl : ∀ os, 1 ≤ (u7body os wc).1.length ∧ (u7body os wc).1.length ≤ 6 := by
      intro os
      rw [u7body_len]
      repeat' split
      all_goals omega
    by_cases h0 : os % 4 = 0
    · rw [if_pos h0] at h
      cases h
      refine ⟨u7body_st, by simp, ?_⟩
      have := hl 1
      simp only [List.length_cons, List.length_map]
      omega
    · rw [if_neg h0] at h
      cases h
      have := hl os
      refine ⟨u7body_st, ?_, ?_⟩
      · intro h
        have : ((u7body os wc).1.map u7c).length = 0 := by rw [h]; rfl
        rw [List.length_map] at this
        omega
      · rw [List.length_map]; omega
  · rw [if_neg h3] at h
    cases h

theorem utf7_wctomb_eq {os wc n : Nat} (hJ : u7J os) : utf7_wctomb os wc n =
    .ok (if u7need os wc ≤ n then
      (match (u7enc os wc).map fun x => (x.1.map u8, x.2) with
        | some (bs, os') => .put bs os'
        | none => ⟨.iluni, if os % 4 = 0 then [u8 0x2b] else [], os⟩)
      else ⟨.toosmall, if os % 4 = 0 then [u8 0x2b] else [], os⟩) := by
  have hne : ∀ {b o}, ¬ (os % 4 = 0 ∧ u7_isdirect wc = true) → u7enc os wc = some (b, o) → u7need os wc = b.length := by
    intro b o h1 h2
    unfold u7need
    rw [if_neg h1, h2]
  have hn0 : u7enc os wc = none → u7need os wc ≤ n := by
    intro h2
    unfold u7need
    rw [h2]
    simp
  unfold utf7_wctomb
  by_cases h0 : os % 4 = 0
  · have hz : os = 0 := by unfold u7J at hJ; omega
    rw [if_neg (show ¬ os % 4 ≠ 0 by omega)]
    simp only [if_pos h0]
    by_cases h1 : u7_isdirect wc = true
    · have hn : u7need os wc = 0 := by unfold u7need; rw [if_pos ⟨h0, h1⟩]
      rw [if_pos h1, hn]
      have e : u7enc os wc = some ([wc], 0) := by
        unfold u7enc
        rw [if_pos h1, if_pos h0]
        rfl
      rw [e, hz]
      simp
    rw [if_neg h1]
    by_cases h2 : wc = 0x2b
    · have e : u7enc os wc = some ([0x2b, 0x2d], 0) := by
        unfold u7enc
        rw [if_neg h1, if_pos ⟨h0, h2⟩]
      rw [if_pos h2, hne (fun h => h1 h.2) e, e]
      simp only [List.length_cons, List.length_nil, Option.map_some]
      by_cases hn : n < 2
      · rw [if_pos hn, if_neg (show ¬ 0 + 1 + 1 ≤ n by omega)]
      · rw [if_neg hn, if_pos (show 0 + 1 + 1 ≤ n by omega), hz]
        rfl
    rw [if_neg h2, u7active_eq (.inr (.inl rfl)) (by omega) (by simpa using h1)]
    have e : u7enc os wc = if wc < 0x110000 then some (0x2b :: (u7body 1 wc).1.map u7c, (u7body 1 wc).2) else none := by
      unfold u7enc
      rw [if_neg h1, if_neg (fun h => h2 h.2), if_pos h0]
    by_cases h3 : wc < 0x110000
    · rw [if_pos h3] at e
      rw [if_pos h3, hne (fun h => h1 h.2) e, e]
      simp only [List.length_cons, List.length_nil, List.length_map, Option.map_some]
      by_cases hn : 0 + 1 + (u7body 1 wc).1.length ≤ n
      · rw [if_pos hn, if_pos (show (u7body 1 wc).1.length + 1 ≤ n by omega)]
        rfl
      · rw [if_neg hn, if_neg (show ¬ (u7body 1 wc).1.length + 1 ≤ n by omega)]
        rfl
    · rw [if_neg h3] at e
      rw [if_neg h3, if_pos (hn0 e), e]
      simp
  · rw [if_pos h0]
    simp only [if_neg h0]
    by_cases h1 : u7_isdirect wc = true
    · rw [u7active_direct hJ h1]
      have e : u7enc os wc = some (u7leave os (u7_isxbase64 wc) ++ [wc], 0) := by
        unfold u7enc
        rw [if_pos h1, if_neg h0]
      rw [hne (fun h => h0 h.1) e, e]
      simp only [List.length_append, List.length_cons, List.length_nil, Option.map_some]
    rw [u7active_eq hJ h0 (by simpa using h1)]
    have e : u7enc os wc = if wc < 0x110000 then some ((u7body os wc).1.map u7c, (u7body os wc).2) else none := by
      unfold u7enc
      rw [if_neg h1, if_neg (fun h => h0 h.1), if_neg h0]
    by_cases h3 : wc < 0x110000
    · rw [if_pos h3] at e
      rw [if_pos h3, hne (fun h => h0 h.1) e, e]
      simp
    · rw [if_neg h3] at e
      rw [if_neg h3, if_pos (hn0 e), e]
      simp

/-- Proof that `utf7_encoder` satisfies the contract `StEnc`. -/
def utf7_enc : StEnc utf7_encoder where
  I := u7J
  init := .inl rfl
  enc := fun os wc => (u7enc os wc).map fun (x : List Nat × Nat) => (x.1.map u8, x.2)
  need := u7need
  junk := fun os _ _ => if os % 4 = 0 then [u8 0x2b] else []
  eq := fun os wc n hI => utf7_wctomb_eq hI
  need_le := by
    intro os wc _
    unfold u7need
    by_cases h : os % 4 = 0 ∧ u7_isdirect wc = true
    · rw [if_pos h]; omega
    · rw [if_neg h]
      cases he : u7enc os wc with
      | none => simp
      | some x => exact (u7enc_st he).2.2
  len := by
    intro os wc bs os' _ h
    cases he : u7enc os wc with
    | none => rw [he] at h; cases h
    | some x =>
      obtain ⟨b, o⟩ := x
      rw [he] at h
      cases h
      obtain ⟨h1, h2, h3⟩ := u7enc_st he
      refine ⟨h1, ?_⟩
      unfold u7need
      rw [List.length_map]
      by_cases h : os % 4 = 0 ∧ u7_isdirect wc = true
      · rw [if_pos h]
        unfold u7enc at he
        rw [if_pos h.2, if_pos h.1] at he
        cases he
        simp
      · rw [if_neg h, he]
        simp only
        omega
  junk_len := by
    intro os wc n _ h
    have hn : 1 ≤ n := by
      rcases h with h | ⟨h1, h2⟩
      · exact h
      · unfold u7enc at h2
        repeat' split at h2
        all_goals first | cases h2 | omega
    by_cases h0 : os % 4 = 0
    · rw [if_pos h0]; exact hn
    · rw [if_neg h0]; exact Nat.zero_le _
  junk_mono := fun _ _ _ _ _ _ _ _ => rfl
  rtail := fun os => (if os % 4 = 0 then [] else u7leave os true).map u8
  rtail_len := by
    intro os _
    rw [List.length_map]
    by_cases h : os % 4 = 0
    · rw [if_pos h]; simp
    · rw [if_neg h, u7leave_len]
      have : (if os % 4 ≥ 2 then 1 else 0) ≤ 1 := by split <;> omega
      simp only [if_true]
      omega
  reset := by
    intro f hf os n hJ
    cases hf
    unfold utf7_reset
    rw [List.length_map]
    by_cases h : os % 4 = 0
    · rw [if_neg (by omega), if_pos h]
      simp
    · rw [if_pos h, if_neg h, u7leave_len]
      simp only [if_true]
      by_cases hn : n < (if os % 4 ≥ 2 then 1 else 0) + 1
      · rw [if_pos hn, if_neg (by omega)]
      · rw [if_neg hn, if_pos (show (if os % 4 ≥ 2 then 1 else 0) + 1 ≤ n by omega)]
        unfold u7leave
        by_cases h2 : os % 4 ≥ 2
        · rw [if_pos h2, if_pos h2, u7chr_lt (by unfold u7J at hJ; omega)]
          simp
        · rw [if_neg h2, if_neg h2]
          simp
  live := by
    intro os wc bs os' _ h
    cases he : u7enc os wc with
    | none => rw [he] at h; cases h
    | some x =>
      obtain ⟨b, o⟩ := x
      rw [he] at h
      cases h
      exact .inl (by simpa using (u7enc_st he).2.1)

/-- The registered encoding `utf7` (`lib/encodings.h.snippet:161-168`). -/
def utf7_entry : Entry := stEntry ei_utf7 rfl utf7_dec utf7_enc

end Reiconv
