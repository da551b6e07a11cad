import Verif.Codec.Jisx0213
import Verif.Codec.SimIso

/-!
# ISO-2022-JP-3

States: 0 ASCII, 1 JIS X 0201 Roman, 2 JIS X 0201 Katakana, 3 JIS X 0208, 4 JIS X 0213 plane 1, 5 plane 2.
The decoder's state holds a second character shifted by 3 bits; the encoder's state holds two bytes shifted by
3 bits and the state before them shifted by 19 bits.
-/

namespace Reiconv

/-- What is returned for a code of JIS X 0213 in state `st` (`lib/converters/iso2022_jp3.h:176-193`). -/
def jp3Code (st v : Nat) : SItem :=
  if v = 0 then .ilseq
  else if v < 0x80 then .char (jxPair v).1 2 (((jxPair v).2 <<< 3) ||| st)
  else .char v 2 st

/-- The loop body of `iso2022_jp3_mbtowc` with no pending character, and what follows the loop
(`lib/converters/iso2022_jp3.h:65-196`). -/
def iso2022_jp3_body (st : Nat) : M SItem :=
  .byte 0 fun c =>
    if c = 0x1b then
      .need 3 <| .byte 1 fun c1 => .byte 2 fun c2 =>
        if c1 = 0x28 then
          if c2 = 0x42 then .ret (.shift 3 0)
          else if c2 = 0x4a then .ret (.shift 3 1)
          else if c2 = 0x49 then .ret (.shift 3 2)
          else .ret .ilseq
        else if c1 = 0x24 then
          if c2 = 0x40 ∨ c2 = 0x42 then .ret (.shift 3 3)
          else if c2 = 0x28 then
            .need 4 <| .byte 3 fun c3 =>
              if c3 = 0x4f ∨ c3 = 0x51 then .ret (.shift 4 4)
              else if c3 = 0x50 then .ret (.shift 4 5)
              else .ret .ilseq
          else .ret .ilseq
        else .ret .ilseq
    else if st = 0 then
      if c < 0x80 then sOne ascii_m c fun wc => .ret (.char wc 1 st) else .ret .ilseq
    else if st = 1 then
      if c < 0x80 then sOne jisx0201_m c fun wc => .ret (.char wc 1 st) else .ret .ilseq
    else if st = 2 then
      if c < 0x80 then sOne jisx0201_m (c + 0x80) fun wc => .ret (.char wc 1 st) else .ret .ilseq
    else if st = 3 then sPair jisx0208_dec.mbtowc st
    else if st = 4 ∨ st = 5 then
      .need 2 <| .byte 0 fun c1 => .byte 1 fun c2 =>
        if c1 < 0x80 ∧ c2 < 0x80 then
          jxToM (((st - 4 + 1) <<< 8) + c1) c2 fun v => .ret (jp3Code st v)
        else .ret .ilseq
    else .abort

/-- With the pending character (`lib/converters/iso2022_jp3.h:56-61`). -/
def iso2022_jp3_item (st : Nat) : M SItem :=
  if st >>> 3 ≠ 0 then .ret (.char (st >>> 3) 0 (st &&& 7)) else iso2022_jp3_body st

/-- `iso2022_jp3_flushwc` (`lib/converters/iso2022_jp3.h:208-219`). -/
def iso2022_jp3_flushwc (is : IState) : Option Nat × IState :=
  if is.st >>> 3 ≠ 0 then (some (is.st >>> 3), { is with st := is.st &&& 7 }) else (none, is)

/-- `iso2022_jp3_mbtowc`, `iso2022_jp3_flushwc` (`lib/converters/iso2022_jp3.h:53-219`). -/
def iso2022_jp3_decoder : Decoder where
  mbtowc := sdecode iso2022_jp3_item
  flushwc := some iso2022_jp3_flushwc

/-- `SPLIT_STATE` (`lib/converters/iso2022_jp3.h:265-266`). -/
def jp3State (os : Nat) : Nat := os &&& 7
/-- The buffered bytes, low part of `lasttwo` (`lib/converters/iso2022_jp3.h:266-267`). -/
def jp3Last (os : Nat) : Nat := (os >>> 3) % 65536
/-- The previous designation, high part (`lib/converters/iso2022_jp3.h:266-267`). -/
def jp3Prev (os : Nat) : Nat := os >>> 19

/-- `COMBINE_STATE` (`lib/converters/iso2022_jp3.h:267-268`). -/
def jp3Join (st last prev : Nat) : Nat := st ||| ((prev <<< 19) ||| (last <<< 3))

/-- A character of one byte: `count += (state == k ? 1 : 4); …`, for example
`lib/converters/iso2022_jp3.h:353-367`. -/
def jp3One (count st k f b : Nat) : BW :=
  .room (count + if st = k then 1 else 4) <| .store ((if st ≠ k then [0x1b, 0x28, f] else []) ++ [b]) <| .done k

/-- A code of JIS X 0213 after the escape sequence (`lib/converters/iso2022_jp3.h:460-478`). -/
def jp3Put (count st jch : Nat) : BW :=
  if jch &&& 0x80 ≠ 0 then
    if jch &&& 0x8000 ≠ 0 then .abort else .done (jp3Join st (jch &&& 0x7f7f) st)
  else .room (count + 2) <| .store [jch >>> 8 &&& 0x7f, jch &&& 0x7f] <| .done st

/-- The escape sequence for a plane of JIS X 0213 and the code (`lib/converters/iso2022_jp3.h:432-459`). -/
def jp3Plane (count st k f jch : Nat) : BW :=
  if st ≠ k then .room (count + 4) <| .store [0x1b, 0x24, 0x28, f] <| jp3Put (count + 4) k jch
  else jp3Put count k jch

/-- `iso2022_jp3_wctomb` after the treatment of a buffered character, of which `count` bytes have been stored
(`lib/converters/iso2022_jp3.h:348-504`). -/
def jp3_base (count st wc : Nat) : BW :=
  .try1 (ascii_w wc) (fun b => b < 0x80) (jp3One count st 0 0x42) <|
  .try1 (jisx0201_w wc) (fun b => b < 0x80) (jp3One count st 1 0x4a) <|
  jxFromB wc fun jch =>
  .try2 (jisx0208_enc.wctomb wc) (fun a b => a < 0x80 ∧ b < 0x80) (fun b0 b1 =>
    if jch &&& 0x80 ≠ 0 then .done (jp3Join 3 (jch &&& 0x7f7f) st)
    else .room (count + if st = 3 then 2 else 5) <|
      .store ((if st ≠ 3 then [0x1b, 0x24, 0x42] else []) ++ [b0, b1]) <| .done 3) <|
  if jch ≠ 0 then
    if jch &&& 0x8000 ≠ 0 then jp3Plane count st 5 0x50 jch
    else jp3Plane count st 4 0x51 jch
  else .try1 (jisx0201_w wc) (fun b => 0x80 ≤ b) (fun b => jp3One count st 2 0x49 (b - 0x80)) .iluni

/-- `iso2022_jp3_wctomb` (`lib/converters/iso2022_jp3.h:273-505`). -/
def iso2022_jp3_wctomb (os wc : Nat) : BW :=
  if jp3Last os ≠ 0 then
    match jxCompose jp3Comp (jp3Last os) wc with
    | some bs =>
      .room ((if jp3State os ≠ 4 then 4 else 0) + 2) <|
        .store ((if jp3State os ≠ 4 then [0x1b, 0x24, 0x28, 0x51] else []) ++ bs) <| .done 4
    | none =>
      .room ((if jp3Prev os ≠ jp3State os then 3 else 0) + 2) <|
        if jp3Prev os ≠ jp3State os then
          if jp3State os ≠ 3 then .abort
          else .store [0x1b, 0x24, 0x42] <| .store (jxLast (jp3Last os)) <| jp3_base 5 (jp3State os) wc
        else .store (jxLast (jp3Last os)) <| jp3_base 2 (jp3State os) wc
  else jp3_base 0 (jp3State os) wc

/-- The bytes of `iso2022_jp3_reset`. -/
def iso2022_jp3_tail (os : Nat) : List Nat :=
  (if jp3Last os ≠ 0 then (if jp3Prev os ≠ jp3State os then [0x1b, 0x24, 0x42] else []) ++ jxLast (jp3Last os) else []) ++
    (if jp3State os ≠ 0 then [0x1b, 0x28, 0x42] else [])

/-- `iso2022_jp3_reset` (`lib/converters/iso2022_jp3.h:507-538`). -/
def iso2022_jp3_reset (os n : Nat) : Outcome WcRes :=
  if n < (iso2022_jp3_tail os).length then .ok (.small os)
  else if jp3Last os ≠ 0 ∧ jp3Prev os ≠ jp3State os ∧ jp3State os ≠ 3 then .abort
  else .ok (.put ((iso2022_jp3_tail os).map u8) os)

/-- The functions `iso2022_jp3_wctomb` (`lib/converters/iso2022_jp3.h:274-505`), `iso2022_jp3_reset`
(`lib/converters/iso2022_jp3.h:508-538`). -/
def iso2022_jp3_encoder : Encoder where
  wctomb := fun os wc n => (iso2022_jp3_wctomb os wc).run [] os n
  reset := some iso2022_jp3_reset

/-! ## No undefined behaviour -/

/-- The states of the decoder. -/
def jp3I (st : Nat) : Prop := st % 8 ≤ 5 ∧ st / 8 < 0x110000

theorem shr3 (n : Nat) : n >>> 3 = n / 8 := Nat.shiftRight_eq_div_pow n 3
theorem and7 (n : Nat) : n &&& 7 = n % 8 := Nat.and_two_pow_sub_one_eq_mod n 3

theorem or_low {a k s : Nat} (h : s < 2 ^ k) : (a <<< k) ||| s = 2 ^ k * a + s := by
  rw [Nat.shiftLeft_eq, Nat.mul_comm, Nat.two_pow_add_eq_or_of_lt h]

theorem jp3Code_state {w st : Nat} (h : st < 8) : (w <<< 3) ||| st = 8 * w + st := or_low (k := 3) h

theorem jp3Code_ok {st row col k : Nat} (hs : st ≤ 5) (hk : 2 ≤ k) :
    ItemOK jp3I (fun st => decide (8 ≤ st)) st k (jp3Code st (jx_toF row col)) := by
  have := jx_to_range row col
  unfold jp3Code
  split
  · show 1 ≤ k; omega
  · split
    · rename_i h1 h2
      have := (jxPair_lt (jx_toF row col) (by omega)).1
      rw [jp3Code_state (by omega)]
      exact ⟨⟨by omega, by omega⟩, hk, by omega⟩
    · exact ⟨⟨by omega, by omega⟩, hk, by omega⟩

/-- Proof that `iso2022_jp3_decoder` satisfies the contract `StDec`. -/
def iso2022_jp3_dec : StDec iso2022_jp3_decoder where
  item := iso2022_jp3_item
  I := jp3I
  pend := fun st => decide (8 ≤ st)
  eq := rfl
  init := by unfold jp3I; omega
  good := by
    intro st hI
    unfold iso2022_jp3_item
    rw [shr3, and7]
    by_cases hp : st / 8 = 0
    · rw [if_neg (by omega)]
      have h1 := ascii_one
      have h2 := jisx0201_m_one
      have h3 := jisx0208_m2
      have hs : st ≤ 5 := by have := hI.1; omega
      unfold iso2022_jp3_body
      simp only [jxToM_fast, forceN_eq]
      sgood
      all_goals first
        | (refine jp3Code_ok hs (by omega))
        | skip
      sitem jp3I
    · rw [if_pos hp]
      refine M.good_ret ⟨⟨?_, ?_⟩, Nat.zero_le _, fun _ => ⟨?_, ?_⟩⟩
      · have := hI.1; omega
      · omega
      · rw [decide_eq_true_eq]; omega
      · rw [decide_eq_false_iff_not]; omega
  flush_ok := by
    intro f hf is hI
    cases hf
    obtain ⟨h1, h2⟩ := hI
    unfold iso2022_jp3_flushwc
    simp only [shr3, and7]
    by_cases hs : is.st / 8 = 0
    · rw [if_neg (by omega)]
      exact ⟨⟨h1, h2⟩, rfl, by simp [hs], by rintro _ ⟨⟩⟩
    · rw [if_pos hs]
      refine ⟨⟨by show is.st % 8 % 8 ≤ 5; omega, by show is.st % 8 / 8 < _; omega⟩, rfl, ?_, ?_⟩
      · simp only
        rw [if_neg (by omega)]
      · rintro _ ⟨⟩
        exact h2

/-- The states of the encoder: nothing buffered, or a code in the set `st`, after `prev`. -/
structure Jp3Os (os st last prev : Nat) : Prop where
  eq : os = jp3Join st last prev
  st_le : st ≤ 5
  prev_le : prev ≤ 5
  last_lt : last < 65536
  zero : last = 0 → prev = 0
  held : last ≠ 0 → st = 3 ∨ st = 4 ∧ prev = 4

/-- The values of the state that occur. -/
def jp3EI (os : Nat) : Prop := ∃ st last prev, Jp3Os os st last prev

theorem jp3Join_eq {st last prev : Nat} (h : st < 8) (h1 : last < 65536) : jp3Join st last prev = 524288 * prev + 8 * last + st := by
  unfold jp3Join
  have e : (last <<< 3) = 8 * last := by rw [Nat.shiftLeft_eq]; omega
  rw [Nat.or_comm, Nat.or_assoc, e]
  have e2 : 8 * last ||| st = 8 * last + st := by
    have := jp3Code_state (w := last) h
    rwa [e] at this
  rw [e2, or_low (k := 19) (by omega)]
  omega

namespace Jp3Os

variable {os st last prev : Nat}

theorem num (h : Jp3Os os st last prev) : os = 524288 * prev + 8 * last + st := by
  rw [h.eq, jp3Join_eq (by have := h.st_le; omega) h.last_lt]

theorem state_eq (h : Jp3Os os st last prev) : jp3State os = st := by
  have := h.num
  have := h.st_le
  have := h.last_lt
  unfold jp3State
  rw [and7]
  omega

theorem last_eq (h : Jp3Os os st last prev) : jp3Last os = last := by
  have := h.num
  have := h.st_le
  have := h.last_lt
  unfold jp3Last
  rw [shr3]
  omega

theorem prev_eq (h : Jp3Os os st last prev) : jp3Prev os = prev := by
  have := h.num
  have := h.st_le
  have := h.last_lt
  unfold jp3Prev
  rw [Nat.shiftRight_eq_div_pow]
  omega

theorem plain {k : Nat} (h : k ≤ 5) : Jp3Os k k 0 0 :=
  ⟨by rw [jp3Join_eq (by omega) (by omega)]; omega, h, by omega, by omega, fun _ => rfl, fun h => absurd rfl h⟩

end Jp3Os

theorem jp3_tail_ne {os : Nat} (hl : jp3Last os ≠ 0) : iso2022_jp3_tail os ≠ [] := by
  unfold iso2022_jp3_tail
  rw [if_pos hl]
  simp [jxLast]

/-- The code of a held character. -/
theorem jch_held {d : Nat} (h : JchOK d) (h8 : d &&& 0x80 ≠ 0) : d &&& 0x7f7f ≠ 0 ∧ d &&& 0x7f7f < 65536 := by
  constructor
  · intro e
    have h1 := h.col
    have e2 : d &&& 0x7f = (d &&& 0x7f7f) &&& 0x7f := by rw [Nat.and_assoc]; rfl
    rw [e2, e] at h1
    simp at h1
  · have := Nat.and_le_right (n := d) (m := 0x7f7f); omega

theorem jp3Os_held {st last prev : Nat} (h1 : prev ≤ 5) (hl : last < 65536) (h0 : last ≠ 0)
    (h : st = 3 ∨ st = 4 ∧ prev = 4) : Jp3Os (jp3Join st last prev) st last prev :=
  ⟨rfl, by omega, h1, hl, fun h => absurd h h0, fun _ => h⟩

abbrev jp3L (st : Nat) : Prop := iso2022_jp3_tail st ≠ []

theorem jp3One_good {c st k f b : Nat} (hk : k ≤ 5) (hc : c ≤ 5) : BW.Good jp3EI jp3L c c (jp3One c st k f b) := by
  unfold jp3One
  have hE : jp3EI k := ⟨k, 0, 0, .plain hk⟩
  by_cases h : st = k
  · rw [if_pos h, if_neg (by omega)]
    exact BW.good_room (BW.good_store (by simp <;> omega) (BW.good_done hE (by simp <;> omega) (by omega) (.inl (by simp))))
  · rw [if_neg h, if_pos (by omega)]
    exact BW.good_room (BW.good_store (by simp <;> omega) (BW.good_done hE (by simp <;> omega) (by omega) (.inl (by simp))))

theorem jp3Join_good {c st last prev : Nat} (h1 : prev ≤ 5) (hl : last < 65536) (h0 : last ≠ 0)
    (h : st = 3 ∨ st = 4 ∧ prev = 4) (hc : c ≤ 64) : BW.Good jp3EI jp3L c c (.done (jp3Join st last prev)) := by
  have ho := jp3Os_held h1 hl h0 h
  exact BW.good_done ⟨_, _, _, ho⟩ rfl hc (.inr (jp3_tail_ne (by rw [ho.last_eq]; exact h0)))

theorem jp3Put_good {c k d : Nat} (hk : k = 4 ∧ d &&& 0x8000 = 0 ∨ k = 5 ∧ d &&& 0x8000 ≠ 0) (hd : JchOK d) (hc : c ≤ 9) :
    BW.Good jp3EI jp3L c c (jp3Put c k d) := by
  unfold jp3Put
  refine BW.good_ite (fun h8 => ?_) fun _ => ?_
  · have h5 := hd.plane.resolve_left h8
    rw [if_neg (not_not_intro h5)]
    have hk4 : k = 4 := hk.elim (·.1) fun h => absurd h5 h.2
    exact jp3Join_good (by omega) (jch_held hd h8).2 (jch_held hd h8).1 (.inr ⟨hk4, hk4⟩) (by omega)
  · exact BW.good_room (BW.good_store (by simp <;> omega)
      (BW.good_done ⟨k, 0, 0, .plain (by omega)⟩ (by simp <;> omega) (by omega) (.inl (by simp))))

theorem jp3Plane_good {c st k f d : Nat} (hk : k = 4 ∧ d &&& 0x8000 = 0 ∨ k = 5 ∧ d &&& 0x8000 ≠ 0) (hd : JchOK d) (hc : c ≤ 5) :
    BW.Good jp3EI jp3L c c (jp3Plane c st k f d) := by
  unfold jp3Plane
  refine BW.good_ite (fun _ => BW.good_room (BW.good_store (by simp <;> omega) ?_)) fun _ => jp3Put_good hk hd (by omega)
  have := jp3Put_good (c := c + 4) hk hd (by omega)
  have e : max c (c + 4) = c + 4 := by omega
  rw [e]
  exact this

theorem jp3_base_good {c st wc : Nat} (hs : st ≤ 5) (hc : c ≤ 5) : BW.Good jp3EI jp3L c c (jp3_base c st wc) := by
  unfold jp3_base
  refine BW.good_try1 (ascii_wOne wc) (fun _ _ _ => jp3One_good (by omega) hc) ?_
  refine BW.good_try1 (jisx0201_w_one wc) (fun _ _ _ => jp3One_good (by omega) hc) ?_
  rw [jxFromB_eq]
  have hj := jx_from_ok wc
  generalize jx_fromF wc = d at *
  refine BW.good_try2 (jisx0208_w2 wc) (fun x y _ _ hp => ?_) ?_
  · refine BW.good_ite (fun h8 => ?_) fun _ => ?_
    · have hj := hj.resolve_left (by rintro rfl; exact h8 rfl)
      exact jp3Join_good hs (jch_held hj h8).2 (jch_held hj h8).1 (.inl rfl) (by omega)
    · have hE : jp3EI 3 := ⟨3, 0, 0, .plain (by omega)⟩
      by_cases h : st = 3
      · rw [if_pos h, if_neg (by omega)]
        exact BW.good_room (BW.good_store (by simp <;> omega) (BW.good_done hE (by simp <;> omega) (by omega) (.inl (by simp))))
      · rw [if_neg h, if_pos (by omega)]
        exact BW.good_room (BW.good_store (by simp <;> omega) (BW.good_done hE (by simp <;> omega) (by omega) (.inl (by simp))))
  · refine BW.good_ite (fun h0 => ?_) fun _ => ?_
    · have hj := hj.resolve_left h0
      exact BW.good_ite (fun h => jp3Plane_good (.inr ⟨rfl, h⟩) hj hc)
        fun h => jp3Plane_good (.inl ⟨rfl, Decidable.of_not_not h⟩) hj hc
    · exact BW.good_try1 (jisx0201_w_one wc) (fun _ _ _ => jp3One_good (by omega) hc) (BW.good_iluni (by omega))

theorem iso2022_jp3_wctomb_good {os wc : Nat} (hI : jp3EI os) : BW.Good jp3EI jp3L 0 0 (iso2022_jp3_wctomb os wc) := by
  obtain ⟨st, last, prev, h⟩ := hI
  unfold iso2022_jp3_wctomb
  rw [h.state_eq, h.last_eq, h.prev_eq]
  have hs := h.st_le
  refine BW.good_ite (fun hl => ?_) fun _ => jp3_base_good hs (by omega)
  have hh := h.held hl
  have hE : jp3EI 4 := ⟨4, 0, 0, .plain (by omega)⟩
  cases hc : jxCompose jp3Comp last wc with
  | some bs =>
    have hb := jxCompose_len hc
    dsimp only
    by_cases h4 : st = 4
    · rw [if_neg (by omega), if_neg (by omega)]
      exact BW.good_room (BW.good_store (by simp <;> omega) (BW.good_done hE (by simp <;> omega) (by omega) (.inl (by simp [hb]))))
    · rw [if_pos h4, if_pos h4]
      exact BW.good_room (BW.good_store (by simp <;> omega) (BW.good_done hE (by simp <;> omega) (by omega) (.inl (by simp))))
  | none =>
    dsimp only
    by_cases hp : prev = st
    · rw [if_neg (not_not_intro hp), if_neg (not_not_intro hp)]
      refine BW.good_room (BW.good_store (by simp [jxLast]) ?_)
      exact jp3_base_good hs (by omega)
    · rw [if_pos hp, if_pos hp, if_neg (show ¬ st ≠ 3 by omega)]
      refine BW.good_room (BW.good_store (by simp) (BW.good_store (by simp [jxLast]) ?_))
      exact jp3_base_good hs (by omega)

/-- An encoder given by programs and a reset function. -/
def bwSt {E : Encoder} {w : Nat → Nat → BW} {rt : Nat → List Nat} {I : Nat → Prop} (h0 : I 0)
    (hE : E.wctomb = fun os wc n => (w os wc).run [] os n)
    (h : ∀ os wc, I os → BW.Good I (fun st => rt st ≠ []) 0 0 (w os wc)) (hr : ∀ os, I os → (rt os).length ≤ 64)
    (hn : E.reset ≠ none)
    (hR : ∀ f, E.reset = some f → ∀ os n, I os → f os n =
      .ok (if (rt os).length ≤ n then .put ((rt os).map u8) os else .small os)) :
    StEnc E where
  I := I
  init := h0
  enc := fun os wc => (w os wc).res []
  need := fun os wc => (w os wc).need
  junk := fun os wc n => (w os wc).junk [] n
  eq := fun os wc n hI => by rw [hE]; exact BW.good_eq (w os wc) [] 0 0 os n (h os wc hI)
  need_le := fun os wc hI => by have := BW.good_need _ 0 0 (h os wc hI); omega
  len := fun os wc bs os' hI he => by
    obtain ⟨h1, h2, _⟩ := BW.good_res _ [] 0 bs os' (h os wc hI) he
    exact ⟨h1, by omega, by omega⟩
  junk_len := fun os wc n hI _ => BW.good_junk _ [] 0 n (h os wc hI) (Nat.le_refl _) (Nat.zero_le _)
  junk_mono := fun os wc n m _ h1 h2 _ => BW.junk_mono _ [] n m h1 h2
  rtail := fun os => (rt os).map u8
  rtail_len := fun os hI => by rw [List.length_map]; exact hr os hI
  reset := by
    intro f hf os n hI
    rw [hR f hf os n hI, List.length_map]
  live := fun os wc bs os' hI he => (BW.good_res _ [] 0 bs os' (h os wc hI) he).2.2.imp id
    fun h => .inl ⟨hn, by simpa using h⟩

theorem iso2022_jp3_reset_eq {os n : Nat} (h : jp3EI os) : iso2022_jp3_reset os n =
    .ok (if (iso2022_jp3_tail os).length ≤ n then .put ((iso2022_jp3_tail os).map u8) os else .small os) := by
  unfold iso2022_jp3_reset
  have ha : ¬ (jp3Last os ≠ 0 ∧ jp3Prev os ≠ jp3State os ∧ jp3State os ≠ 3) := by
    obtain ⟨st, last, prev, h⟩ := h
    rw [h.state_eq, h.last_eq, h.prev_eq]
    rintro ⟨h1, h2, h3⟩
    have := h.held h1
    omega
  by_cases hn : n < (iso2022_jp3_tail os).length
  · rw [if_pos hn, if_neg (by omega)]
  · rw [if_neg hn, if_neg ha, if_pos (by omega)]

/-- Proof that `iso2022_jp3_encoder` satisfies the contract `StEnc`. -/
def iso2022_jp3_enc : StEnc iso2022_jp3_encoder :=
  bwSt (w := iso2022_jp3_wctomb) (rt := iso2022_jp3_tail) (I := jp3EI) ⟨0, 0, 0, .plain (by omega)⟩ rfl
    (fun _ _ hI => iso2022_jp3_wctomb_good hI)
    (by
      intro os _
      unfold iso2022_jp3_tail jxLast
      (repeat' split) <;> simp)
    (by simp [iso2022_jp3_encoder])
    (by
      intro f hf os n hI
      cases hf
      exact iso2022_jp3_reset_eq hI)

/-- ISO-2022-JP-3 (`lib/converters/iso2022_jp3.h`). -/
def iso2022_jp3_entry : Entry := stEntry ei_iso2022_jp3 rfl iso2022_jp3_dec iso2022_jp3_enc

end Reiconv
