import Verif.Codec.Big5
import Verif.Codec.PairText
import Verif.Codec.GbCheck

/-!
# BIG5-HKSCS in its versions of 1999, 2001, 2004, 2008

The four converters differ in the number of character sets that are tried after BIG5: `hkscs1999`,
`hkscs2001`, `hkscs2004`, `hkscs2008`. They are modelled by one definition with a list of these.
-/

namespace Reiconv

/-- The calls `ret = f(conv, pwc, s, n); if (ret != RET_ILSEQ) return ret;` one after the other
(`lib/converters/big5hkscs2008.h:96-119`). -/
def hkExt : List (M MbRet) → M MbRet
  | [] => .ret (.ilseq 0)
  | m :: l => m.andThen fun ret => if ret.code ≠ RET_ILSEQ then .ret ret else hkExt l

/-- The part of `big5hkscs*_mbtowc` for single characters, with no pending character
(`lib/converters/big5hkscs1999.h:68-96`, `big5hkscs2001.h:70-103`, `big5hkscs2004.h:72-110`,
`big5hkscs2008.h:72-119`). -/
def hk_mbtowc (l : List (M MbRet)) : M MbRet :=
  .byte 0 fun c =>
    if c < 0x80 then ascii_m
    else if c ≥ 0xa1 ∧ c < 0xff then
      .need 2 <| .byte 1 fun c2 =>
        if (c2 ≥ 0x40 ∧ c2 < 0x7f) ∨ (c2 ≥ 0xa1 ∧ c2 < 0xff) then
          if ¬ ((c = 0xc6 ∧ c2 ≥ 0xa1) ∨ c = 0xc7) then
            big5_mbtowc.on [c, c2] fun ret => if ret.code ≠ RET_ILSEQ then .ret ret else hkExt l
          else hkExt l
        else hkExt l
    else hkExt l

/-- The end of `big5hkscs*_mbtowc`: the four byte sequences for two characters
(`lib/converters/big5hkscs2008.h:120-136`). -/
def hk_tail : M SItem :=
  .byte 0 fun c =>
    if c = 0x88 then
      .need 2 <| .byte 1 fun c2 =>
        if c2 = 0x62 ∨ c2 = 0x64 ∨ c2 = 0xa3 ∨ c2 = 0xa5 then
          .ret (.char (((c2 >>> 3) <<< 2) + 0x9a) 2 (((c2 &&& 6) <<< 2) + 0x2fc))
        else .ret .ilseq
    else .ret .ilseq

/-- `big5hkscs*_mbtowc` with no pending character. -/
def hk_body (l : List (M MbRet)) : M SItem :=
  (hk_mbtowc l).andThen fun ret =>
    match ret with
    | .char wc n => .ret (.char wc n 0)
    | _ => hk_tail

/-- The bytes for a character of the character sets after `hkscs1999`
(`lib/converters/big5hkscs2008.h:215-266`). -/
def hkMore : List (Nat → W) → Nat → Nat → BW
  | [], _, _ => .iluni
  | f :: l, count, wc =>
    BW.try2 (f wc) (fun _ _ => True) (fun a b => .room (count + 2) <| .store [a, b] <| .done 0) (hkMore l count wc)

/-- `big5hkscs*_wctomb` after the treatment of a buffered character, of which `count` bytes have been stored
(`lib/converters/big5hkscs1999.h:150-215`, `big5hkscs2008.h:169-278`). For a `wc` with
`(wc & ~0x0020) == 0x00ca`, that is, for 0xca and 0xea, nothing is written but `conv->ostate` is set. -/
def hk_base (l : List (Nat → W)) (count wc : Nat) : BW :=
  if wc < 0x0080 then .room (count + 1) <| .store [wc] <| .done 0
  else
    BW.try2 (big5_wctomb wc) (fun a b => ¬ ((a = 0xc6 ∧ b ≥ 0xa1) ∨ a = 0xc7))
      (fun a b => .room (count + 2) <| .store [a, b] <| .done 0) <|
    BW.try2 (hkscs1999_enc.wctomb wc) (fun _ _ => True)
      (fun a b =>
        if wc = 0xca ∨ wc = 0xea then
          if ¬ (a = 0x88 ∧ (b = 0x66 ∨ b = 0xa7)) then .abort else .done b
        else .room (count + 2) <| .store [a, b] <| .done 0) <|
    hkMore l count wc

/-- The bytes for the buffered character and `wc` together (`lib/converters/big5hkscs2008.h:149-161`). -/
def hk_comp (last wc : Nat) : Option (List Nat) :=
  if wc = 0x0304 ∨ wc = 0x030c then some [0x88, last + ((wc &&& 24) >>> 2) - 4] else none

/-- The bytes of a buffered character (`lib/converters/big5hkscs2008.h:163-167`, `282-297`). -/
def hk_last (last : Nat) : List Nat := [0x88, last]

/-- The state of the encoder is 0 or the second byte of the buffered character. `unsigned char last =
conv->ostate` does not lose anything. -/
def HkState (os : Nat) : Prop := os = 0 ∨ os = 0x66 ∨ os = 0xa7

/-! ## The functions for single characters -/

/-- `hkMore` as a program without state. -/
def hkMoreW : List (Nat → W) → Nat → W
  | [], _ => .iluni
  | f :: l, wc =>
    (f wc).on 2 fun ret buf =>
      if ret ≠ RET_ILUNI then
        if ret ≠ 2 then .abort
        else .room 2 <| .put [bufAt buf 0, bufAt buf 1]
      else hkMoreW l wc

/-- `hk_base` without the buffering of characters. -/
def hk_wctomb (l : List (Nat → W)) (wc : Nat) : W :=
  (ascii_w wc).orElse <|
  (big5_wctomb wc).on 2 fun ret buf =>
    if ret ≠ RET_ILUNI then
      if ret ≠ 2 then .abort
      else if ¬ ((bufAt buf 0 = 0xc6 ∧ bufAt buf 1 ≥ 0xa1) ∨ bufAt buf 0 = 0xc7) then
        .room 2 <| .put [bufAt buf 0, bufAt buf 1]
      else hkMoreW (hkscs1999_enc.wctomb :: l) wc
    else hkMoreW (hkscs1999_enc.wctomb :: l) wc

/-- The state in which a character is held back. -/
def hk_hold (wc : Nat) : Nat := if wc = 0xca then 0x66 else if wc = 0xea then 0xa7 else 0

/-- The byte sequences for two characters: U+00CA or U+00EA followed by U+0304 or U+030C. -/
def hkPairs : List (List Byte × Nat × Nat) :=
  [([0x88, 0x62], 0xca, 0x304), ([0x88, 0x64], 0xca, 0x30c), ([0x88, 0xa3], 0xea, 0x304), ([0x88, 0xa5], 0xea, 0x30c)]

/-! ## The functions are well behaved -/

theorem hkExt_good {l : List (M MbRet)} (h : ∀ m ∈ l, M.Good M.RetOK 1 m) {k : Nat} (hk : 1 ≤ k) :
    M.Good M.RetOK k (hkExt l) := by
  induction l generalizing k with
  | nil => exact M.good_ret (M.retOK_ilseq (by omega))
  | cons m l ih =>
    simp only [List.forall_mem_cons] at h
    refine M.good_andThen _ _ (M.good_at h.1 (by omega)) ?_
    intro j a hj ha
    refine M.good_ite (fun _ => ?_) (fun _ => ?_)
    · exact M.good_ret ha
    · exact ih h.2 (by omega)

theorem hk_good {l : List (M MbRet)} (h : ∀ m ∈ l, M.Good M.RetOK 1 m) : M.Good M.RetOK 1 (hk_mbtowc l) := by
  have h0 := ascii_m_good
  have h1 := CsDec.two big5_dec_safe
  have h2 : ∀ {k}, 1 ≤ k → M.Good M.RetOK k (hkExt l) := fun hk => hkExt_good h hk
  unfold hk_mbtowc
  refine M.good_byte (by omega) fun c _ => M.good_ite (fun _ => h0) fun _ => M.good_ite (fun _ => ?_) fun _ => h2 (by omega)
  refine M.good_need (M.good_byte (by omega) fun c2 _ => M.good_ite (fun _ => ?_) fun _ => h2 (by omega))
  refine M.good_ite (fun _ => ?_) fun _ => h2 (by omega)
  refine M.good_on2 h1 (M.good_ite (fun _ => ?_) fun _ => h2 (by omega)) fun wc => M.good_ite (fun _ => ?_) fun _ => h2 (by omega)
  · exact M.good_ret (M.retOK_ilseq (by omega))
  · exact M.good_ret (M.retOK_char (by omega) (by omega))

theorem hk_tail_good {k : Nat} (hk : 1 ≤ k) : M.Good PairItemOK k hk_tail := by
  unfold hk_tail
  refine M.good_byte (by omega) fun c _ => M.good_ite (fun _ => ?_) fun _ => M.good_ret hk
  refine M.good_need (M.good_byte (by omega) fun c2 _ => M.good_ite (fun h => ?_) fun _ => M.good_ret ?_)
  · refine M.good_ret ⟨?_, by omega, by omega⟩
    rcases h with rfl | rfl | rfl | rfl <;> decide
  · show 1 ≤ _; omega

theorem hk_body_good {l : List (M MbRet)} (h : ∀ m ∈ l, M.Good M.RetOK 1 m) : M.Good PairItemOK 1 (hk_body l) := by
  refine M.good_andThen _ _ (hk_good h) ?_
  intro j a hj ha
  cases a with
  | char wc n => exact M.good_ret ⟨by omega, ha.1, ha.2⟩
  | ilseq n => exact hk_tail_good hj
  | toofew n => exact ha.elim

theorem hkscs1999_ca : (hkscs1999_enc.wctomb 0xca).run 0 2 = .ok (.put [0x88, 0x66] 0) := by decide +kernel
theorem hkscs1999_ea : (hkscs1999_enc.wctomb 0xea).run 0 2 = .ok (.put [0x88, 0xa7] 0) := by decide +kernel
theorem big5_ca : (big5_wctomb 0xca).run 0 2 = .ok (.iluni 0) := by decide +kernel
theorem big5_ea : (big5_wctomb 0xea).run 0 2 = .ok (.iluni 0) := by decide +kernel

theorem hk_hold_iff (wc : Nat) : hk_hold wc ≠ 0 ↔ wc = 0xca ∨ wc = 0xea := by
  unfold hk_hold
  by_cases h1 : wc = 0xca
  · simp [h1]
  · by_cases h2 : wc = 0xea
    · simp [h2]
    · simp [h1, h2]

theorem hkMore_good {l : List (Nat → W)} (h : ∀ f ∈ l, ∀ wc, W.Two (f wc)) {c wc : Nat} (hc : c = 0 ∨ c = 2) :
    BW.Good HkState (fun st => st ≠ 0) c c (hkMore l c wc) := by
  induction l with
  | nil => exact BW.good_iluni (by omega)
  | cons f l ih =>
    simp only [List.forall_mem_cons] at h
    refine BW.good_try2 (h.1 wc) ?_ (ih h.2)
    intro x y _ _ _
    refine BW.good_room (BW.good_store ?_ (BW.good_done (.inl rfl) ?_ ?_ (.inl ?_))) <;> (try simp only [List.length_cons, List.length_nil]) <;> omega

theorem hk_base_good {l : List (Nat → W)} (h : ∀ f ∈ l, ∀ wc, W.Two (f wc)) (c wc : Nat) (hc : c = 0 ∨ c = 2) :
    BW.Good HkState (fun st => st ≠ 0) c c (hk_base l c wc) := by
  have h2 := CsEnc.two big5_enc_safe
  have h3 := CsEnc.two hkscs1999_enc_safe
  have hput : ∀ x y, BW.Good HkState (fun st => st ≠ 0) c c (.room (c + 2) <| .store [x, y] <| .done 0) := by
    intro x y
    refine BW.good_room (BW.good_store ?_ (BW.good_done (.inl rfl) ?_ ?_ (.inl ?_))) <;> (try simp only [List.length_cons, List.length_nil]) <;> omega
  unfold hk_base
  refine BW.good_ite (fun _ => ?_) fun _ => ?_
  · refine BW.good_room (BW.good_store ?_ (BW.good_done (.inl rfl) ?_ ?_ (.inl ?_))) <;> (try simp only [List.length_cons, List.length_nil]) <;> omega
  · refine BW.good_try2 (h2 wc) (fun x y _ _ _ => hput x y) ?_
    by_cases hw : wc = 0xca ∨ wc = 0xea
    · have : ∃ y : Byte, (hkscs1999_enc.wctomb wc).run 0 2 = .ok (.put [0x88, y] 0) ∧ (y.toNat = 0x66 ∨ y.toNat = 0xa7) := by
        rcases hw with rfl | rfl
        · exact ⟨0x66, hkscs1999_ca, .inl rfl⟩
        · exact ⟨0xa7, hkscs1999_ea, .inr rfl⟩
      obtain ⟨y, hy, hy2⟩ := this
      rw [BW.try2_put hy, if_pos trivial, if_pos hw, if_neg (fun h => h ⟨rfl, hy2⟩)]
      refine BW.good_done (.inr hy2) rfl (by omega) (.inr ?_)
      show y.toNat ≠ 0
      omega
    · refine BW.good_try2 (h3 wc) (fun x y _ _ _ => ?_) (hkMore_good h hc)
      rw [if_neg hw]
      exact hput x y

theorem hk_pairGood {l : List (Nat → W)} (h : ∀ f ∈ l, ∀ wc, W.Two (f wc)) : PairGood HkState hk_comp hk_last (hk_base l) where
  init := .inl rfl
  comp := by
    intro os wc bs _ hc
    unfold hk_comp at hc
    split at hc
    · cases hc; rfl
    · cases hc
  last := fun _ => rfl
  base := hk_base_good h

theorem hkMoreW_good {l : List (Nat → W)} (h : ∀ f ∈ l, ∀ wc, W.Two (f wc)) (wc : Nat) : W.Good 0 (hkMoreW l wc) := by
  induction l with
  | nil => exact W.good_iluni (by omega)
  | cons f l ih =>
    simp only [List.forall_mem_cons] at h
    have h1 := h.1
    have h2 := ih h.2
    unfold hkMoreW
    wgood

theorem hk_wgood {l : List (Nat → W)} (h : ∀ f ∈ l, ∀ wc, W.Two (f wc)) (wc : Nat) : W.Good 0 (hk_wctomb l wc) := by
  have h1 := ascii_w_good
  have h2 := ascii_w_need
  have h3 := CsEnc.two big5_enc_safe
  have h4 := hkMoreW_good (l := hkscs1999_enc.wctomb :: l) (by
    simp only [List.forall_mem_cons]
    exact ⟨CsEnc.two hkscs1999_enc_safe, h⟩) wc
  clear h
  unfold hk_wctomb
  wgood

/-! ## Relation to the functions for single characters -/

theorem hkMore_rel {l : List (Nat → W)} (h : ∀ f ∈ l, ∀ wc, W.Two (f wc)) (c wc : Nat) (acc : List Byte) :
    (hkMore l c wc).res acc = (hkMoreW l wc).res.map fun bs => (acc ++ bs, 0) := by
  induction l with
  | nil => rfl
  | cons f l ih =>
    simp only [List.forall_mem_cons] at h
    unfold hkMore hkMoreW
    rcases h.1 wc with hw | ⟨x, y, hw⟩
    · rw [BW.try2_iluni hw, ih h.2]
      unfold W.on
      rw [hw]
      rfl
    · rw [BW.try2_put hw, if_pos trivial]
      unfold W.on
      rw [hw]
      rfl

theorem hk_base_rel {l : List (Nat → W)} (h : ∀ f ∈ l, ∀ wc, W.Two (f wc)) (c wc : Nat) (acc : List Byte) :
    (hk_base l c wc).res acc =
      match (hk_wctomb l wc).res with
      | none => none
      | some bs => if hk_hold wc = 0 then some (acc ++ bs, 0) else some (acc, hk_hold wc) := by
  unfold hk_base hk_wctomb
  by_cases ha : wc < 0x80
  · have hh : hk_hold wc = 0 := Classical.byContradiction fun hh => by have := (hk_hold_iff wc).1 hh; omega
    rw [if_pos ha, hh]
    unfold ascii_w
    rw [if_pos ha]
    rfl
  · rw [if_neg ha]
    have e : ∀ w : W, (ascii_w wc).orElse w = w := by
      intro w; unfold ascii_w; rw [if_neg ha]; rfl
    rw [e]
    have key : (BW.try2 (hkscs1999_enc.wctomb wc) (fun _ _ => True)
          (fun a b =>
            if wc = 0xca ∨ wc = 0xea then
              if ¬ (a = 0x88 ∧ (b = 0x66 ∨ b = 0xa7)) then .abort else .done b
            else .room (c + 2) <| .store [a, b] <| .done 0) <|
        hkMore l c wc).res acc =
        match (hkMoreW (hkscs1999_enc.wctomb :: l) wc).res with
        | none => none
        | some bs => if hk_hold wc = 0 then some (acc ++ bs, 0) else some (acc, hk_hold wc) := by
      by_cases hw : wc = 0xca ∨ wc = 0xea
      · have : ∃ x y : Byte, (hkscs1999_enc.wctomb wc).run 0 2 = .ok (.put [x, y] 0) ∧ x = 0x88 ∧
            (y.toNat = 0x66 ∨ y.toNat = 0xa7) ∧ hk_hold wc = y.toNat := by
          rcases hw with rfl | rfl
          · exact ⟨0x88, 0x66, hkscs1999_ca, rfl, .inl rfl, rfl⟩
          · exact ⟨0x88, 0xa7, hkscs1999_ea, rfl, .inr rfl, rfl⟩
        obtain ⟨x, y, h1, rfl, h2, h3⟩ := this
        rw [BW.try2_put h1, if_pos trivial, if_pos hw, if_neg (fun h => h ⟨rfl, h2⟩)]
        unfold hkMoreW W.on
        rw [h1, h3]
        show some (acc, y.toNat) = if y.toNat = 0 then _ else _
        rw [if_neg (by omega)]
      · have hh : hk_hold wc = 0 := Classical.byContradiction fun hh => hw ((hk_hold_iff wc).1 hh)
        rw [hh]
        rcases CsEnc.two hkscs1999_enc_safe wc with h1 | ⟨x, y, h1⟩
        · rw [BW.try2_iluni h1, hkMore_rel h]
          have e2 : hkMoreW (hkscs1999_enc.wctomb :: l) wc = hkMoreW l wc := by
            rw [hkMoreW]
            unfold W.on
            rw [h1]
            rfl
          rw [e2]
          cases (hkMoreW l wc).res <;> rfl
        · rw [BW.try2_put h1, if_pos trivial, if_neg hw]
          unfold hkMoreW W.on
          rw [h1]
          rfl
    rcases CsEnc.two big5_enc_safe wc with h1 | ⟨x, y, h1⟩
    · rw [BW.try2_iluni h1, key]
      unfold W.on
      rw [h1]
      rfl
    · rw [BW.try2_put h1]
      have hh : hk_hold wc = 0 := by
        refine Classical.byContradiction fun hh => ?_
        rcases (hk_hold_iff wc).1 hh with rfl | rfl
        · rw [big5_ca] at h1; cases h1
        · rw [big5_ea] at h1; cases h1
      unfold W.on
      rw [h1]
      show _ = match (if ¬ ((x.toNat = 0xc6 ∧ y.toNat ≥ 0xa1) ∨ x.toNat = 0xc7) then
          W.room 2 <| .put [x.toNat, y.toNat] else hkMoreW (hkscs1999_enc.wctomb :: l) wc).res with
        | none => none
        | some bs => _
      by_cases hp : ¬ ((x.toNat = 0xc6 ∧ y.toNat ≥ 0xa1) ∨ x.toNat = 0xc7)
      · rw [if_pos hp, if_pos hp, hh]
        rfl
      · rw [if_neg hp, if_neg hp, key]

theorem hk_held {l : List (Nat → W)} {wc : Nat} (h : hk_hold wc ≠ 0) :
    (hk_wctomb l wc).res = some ((hk_last (hk_hold wc)).map u8) := by
  rcases (hk_hold_iff wc).1 h with rfl | rfl
  · unfold hk_wctomb hkMoreW W.on
    rw [big5_ca, hkscs1999_ca]
    rfl
  · unfold hk_wctomb hkMoreW W.on
    rw [big5_ea, hkscs1999_ea]
    rfl

theorem hk_rel {d : List (M MbRet)} {l : List (Nat → W)} (h : ∀ f ∈ l, ∀ wc, W.Two (f wc))
    (hd : ∀ m ∈ d, M.Good M.RetOK 1 m)
    (hp : ∀ p ∈ hkPairs, (hk_mbtowc d).run p.1 = .ok (some (.ilseq 0))) :
    PairRel (hk_body d) hk_comp hk_last (hk_base l) (hk_mbtowc d) (hk_wctomb l) hk_hold hkPairs where
  enc5 := by
    intro c hc
    simp only [isTag, decide_eq_true_eq] at hc
    unfold hk_hold
    rw [if_neg (by omega), if_neg (by omega)]
  dec1 := by
    intro s wc n hr
    unfold hk_body
    rw [M.run_andThen, hr]
    rfl
  dec2 := by
    intro s wc n st hs hr
    unfold hk_body at hr
    rw [M.run_andThen] at hr
    obtain ⟨o, h1, h2⟩ := M.good_run _ 1 s (hk_good hd) (one_le_length hs)
    rw [h1] at hr
    cases o with
    | none => cases hr
    | some a =>
      have ht : hk_tail.run s = .ok (some (.char wc n st)) → st ≠ 0 ∧ n ≤ s.length ∧ (s.take n, wc, st) ∈ hkPairs := by
        intro ht
        cases s with
        | nil => exact absurd rfl hs
        | cons x s =>
          unfold hk_tail at ht
          simp only [M.run, List.getElem?_cons_zero] at ht
          by_cases hx : x.toNat = 0x88
          · rw [if_pos hx] at ht
            cases s with
            | nil => cases ht
            | cons y t =>
              have hx' : x = 0x88 := UInt8.toNat_inj.1 hx
              simp only [M.run, List.getElem?_cons_succ, List.getElem?_cons_zero, List.length_cons] at ht
              rw [if_pos (by omega)] at ht
              by_cases hy : y.toNat = 0x62 ∨ y.toNat = 0x64 ∨ y.toNat = 0xa3 ∨ y.toNat = 0xa5
              · rw [if_pos hy] at ht
                simp only [M.run, Outcome.ok.injEq, Option.some.injEq, SItem.char.injEq] at ht
                obtain ⟨rfl, rfl, rfl⟩ := ht
                have hy' : y = 0x62 ∨ y = 0x64 ∨ y = 0xa3 ∨ y = 0xa5 :=
                  hy.imp UInt8.toNat_inj.1 fun h => h.imp UInt8.toNat_inj.1 fun h => h.imp UInt8.toNat_inj.1 UInt8.toNat_inj.1
                subst hx'
                refine ⟨?_, by simp, ?_⟩
                · rcases hy' with rfl | rfl | rfl | rfl <;> decide
                · simp only [List.take_succ_cons, List.take_zero]
                  rcases hy' with rfl | rfl | rfl | rfl <;> decide
              · rw [if_neg hy] at ht
                cases ht
          · rw [if_neg hx] at ht
            cases ht
      cases a with
      | char c k =>
        simp only [M.run, Outcome.ok.injEq, Option.some.injEq, SItem.char.injEq] at hr
        obtain ⟨rfl, rfl, rfl⟩ := hr
        exact .inl ⟨rfl, h1⟩
      | ilseq k => exact .inr (ht hr)
      | toofew k => exact .inr (ht hr)
  dec3 := by
    intro b c1 c2 hm
    have h1 := hp _ hm
    have h2 : hk_tail.run b = .ok (some (.char c1 b.length c2)) ∧ c2 ≠ 0 ∧ b ≠ [] := by
      simp only [hkPairs, List.mem_cons, Prod.mk.injEq, List.not_mem_nil, or_false] at hm
      rcases hm with ⟨rfl, rfl, rfl⟩ | ⟨rfl, rfl, rfl⟩ | ⟨rfl, rfl, rfl⟩ | ⟨rfl, rfl, rfl⟩ <;>
        exact ⟨rfl, by decide, by simp⟩
    refine ⟨h2.2.1, h2.2.2, ?_⟩
    unfold hk_body
    rw [M.run_andThen, h1]
    exact h2.1
  enc1 := fun c wc acc _ => hk_base_rel h c wc acc
  enc2 := by
    intro wc bs hh hw
    rw [hk_held hh] at hw
    cases hw
    rfl
  enc3 := by
    intro c1 c2 b hh _
    unfold hk_comp
    rcases (hk_hold_iff c1).1 hh with rfl | rfl
    · simp only [hk_hold, if_true, hkPairs]
      by_cases h4 : c2 = 0x304
      · subst h4
        simp [u8, eq_comm]
      · by_cases hc : c2 = 0x30c
        · subst hc
          simp [u8, eq_comm]
        · simp [h4, hc]
    · simp only [hk_hold, if_true, hkPairs]
      by_cases h4 : c2 = 0x304
      · subst h4
        simp [u8, eq_comm]
      · by_cases hc : c2 = 0x30c
        · subst hc
          simp [u8, eq_comm]
        · simp [h4, hc]
  enc4 := by
    intro c1 c2 b hm
    have hh : hk_hold c1 ≠ 0 := by
      simp only [hkPairs, List.mem_cons, Prod.mk.injEq, List.not_mem_nil, or_false] at hm
      rcases hm with ⟨rfl, rfl, rfl⟩ | ⟨rfl, rfl, rfl⟩ | ⟨rfl, rfl, rfl⟩ | ⟨rfl, rfl, rfl⟩ <;> decide
    exact ⟨hh, by rw [hk_held hh]; simp⟩

/-! ## The four versions -/

/-- The character sets that `big5hkscs1999_mbtowc` tries (`lib/converters/big5hkscs1999.h:58-118`). -/
def hk1999_d : List (M MbRet) := [hkscs1999_dec.mbtowc]
/-- The character sets that `big5hkscs2001_mbtowc` tries (`lib/converters/big5hkscs2001.h:60-125`). -/
def hk2001_d : List (M MbRet) := [hkscs1999_dec.mbtowc, hkscs2001_dec.mbtowc]
/-- The character sets that `big5hkscs2004_mbtowc` tries (`lib/converters/big5hkscs2004.h:62-132`). -/
def hk2004_d : List (M MbRet) := [hkscs1999_dec.mbtowc, hkscs2001_dec.mbtowc, hkscs2004_dec.mbtowc]
/-- The character sets that `big5hkscs2008_mbtowc` tries (`lib/converters/big5hkscs2008.h:62-137`). -/
def hk2008_d : List (M MbRet) := [hkscs1999_dec.mbtowc, hkscs2001_dec.mbtowc, hkscs2004_dec.mbtowc, hkscs2008_dec.mbtowc]
/-- The character sets that `big5hkscs1999_wctomb` tries after HKSCS-1999
(`lib/converters/big5hkscs1999.h:122-216`). -/
def hk1999_e : List (Nat → W) := []
/-- The character sets that `big5hkscs2001_wctomb` tries after HKSCS-1999
(`lib/converters/big5hkscs2001.h:129-238`). -/
def hk2001_e : List (Nat → W) := [hkscs2001_enc.wctomb]
/-- The character sets that `big5hkscs2004_wctomb` tries after HKSCS-1999
(`lib/converters/big5hkscs2004.h:136-260`). -/
def hk2004_e : List (Nat → W) := [hkscs2001_enc.wctomb, hkscs2004_enc.wctomb]
/-- The character sets that `big5hkscs2008_wctomb` tries after HKSCS-1999
(`lib/converters/big5hkscs2008.h:141-280`). -/
def hk2008_e : List (Nat → W) := [hkscs2001_enc.wctomb, hkscs2004_enc.wctomb, hkscs2008_enc.wctomb]

theorem hk2008_dgood : ∀ m ∈ hk2008_d, M.Good M.RetOK 1 m := by
  simp only [hk2008_d, List.forall_mem_cons]
  exact ⟨CsDec.good' hkscs1999_dec_safe, CsDec.good' hkscs2001_dec_safe, CsDec.good' hkscs2004_dec_safe,
    CsDec.good' hkscs2008_dec_safe, by simp⟩
theorem hk2008_two : ∀ f ∈ hk2008_e, ∀ wc, W.Two (f wc) := by
  simp only [hk2008_e, List.forall_mem_cons]
  exact ⟨CsEnc.two hkscs2001_enc_safe, CsEnc.two hkscs2004_enc_safe, CsEnc.two hkscs2008_enc_safe, by simp⟩
theorem hk2004_dgood : ∀ m ∈ hk2004_d, M.Good M.RetOK 1 m := fun m h => hk2008_dgood m (by
  simp only [hk2004_d, hk2008_d, List.mem_cons, List.not_mem_nil, or_false] at h ⊢; grind)
theorem hk2004_two : ∀ f ∈ hk2004_e, ∀ wc, W.Two (f wc) := fun m h => hk2008_two m (by
  simp only [hk2004_e, hk2008_e, List.mem_cons, List.not_mem_nil, or_false] at h ⊢; grind)
theorem hk2001_dgood : ∀ m ∈ hk2001_d, M.Good M.RetOK 1 m := fun m h => hk2008_dgood m (by
  simp only [hk2001_d, hk2008_d, List.mem_cons, List.not_mem_nil, or_false] at h ⊢; grind)
theorem hk2001_two : ∀ f ∈ hk2001_e, ∀ wc, W.Two (f wc) := fun m h => hk2008_two m (by
  simp only [hk2001_e, hk2008_e, List.mem_cons, List.not_mem_nil, or_false] at h ⊢; grind)
theorem hk1999_dgood : ∀ m ∈ hk1999_d, M.Good M.RetOK 1 m := fun m h => hk2008_dgood m (by
  simp only [hk1999_d, hk2008_d, List.mem_cons, List.not_mem_nil, or_false] at h ⊢; grind)
theorem hk1999_two : ∀ f ∈ hk1999_e, ∀ wc, W.Two (f wc) := by simp [hk1999_e]

theorem hk1999_pairs : ∀ p ∈ hkPairs, (hk_mbtowc hk1999_d).run p.1 = .ok (some (.ilseq 0)) := by decide +kernel
theorem hk2001_pairs : ∀ p ∈ hkPairs, (hk_mbtowc hk2001_d).run p.1 = .ok (some (.ilseq 0)) := by decide +kernel
theorem hk2004_pairs : ∀ p ∈ hkPairs, (hk_mbtowc hk2004_d).run p.1 = .ok (some (.ilseq 0)) := by decide +kernel
theorem hk2008_pairs : ∀ p ∈ hkPairs, (hk_mbtowc hk2008_d).run p.1 = .ok (some (.ilseq 0)) := by decide +kernel

/-- BIG5-HKSCS:1999 (`lib/converters/big5hkscs1999.h`). -/
def big5hkscs1999_entry : Entry :=
  pairEntry ei_big5hkscs1999 (by decide) (hk_body_good hk1999_dgood) (hk_pairGood hk1999_two)
/-- BIG5-HKSCS:2001 (`lib/converters/big5hkscs2001.h`). -/
def big5hkscs2001_entry : Entry :=
  pairEntry ei_big5hkscs2001 (by decide) (hk_body_good hk2001_dgood) (hk_pairGood hk2001_two)
/-- BIG5-HKSCS:2004 (`lib/converters/big5hkscs2004.h`). -/
def big5hkscs2004_entry : Entry :=
  pairEntry ei_big5hkscs2004 (by decide) (hk_body_good hk2004_dgood) (hk_pairGood hk2004_two)
/-- BIG5-HKSCS:2008 (`lib/converters/big5hkscs2008.h`). -/
def big5hkscs2008_entry : Entry :=
  pairEntry ei_big5hkscs2008 (by decide) (hk_body_good hk2008_dgood) (hk_pairGood hk2008_two)

/-- The functions for single characters of the four versions. -/
def hk1999_mbtowc : M MbRet := hk_mbtowc hk1999_d
/-- Single characters of `big5hkscs2001_mbtowc` (`lib/converters/big5hkscs2001.h:60-125`). -/
def hk2001_mbtowc : M MbRet := hk_mbtowc hk2001_d
/-- Single characters of `big5hkscs2004_mbtowc` (`lib/converters/big5hkscs2004.h:62-132`). -/
def hk2004_mbtowc : M MbRet := hk_mbtowc hk2004_d
/-- Single characters of `big5hkscs2008_mbtowc` (`lib/converters/big5hkscs2008.h:62-137`). -/
def hk2008_mbtowc : M MbRet := hk_mbtowc hk2008_d
/-- Single characters of `big5hkscs1999_wctomb` (`lib/converters/big5hkscs1999.h:122-216`). -/
def hk1999_wctomb (wc : Nat) : W := hk_wctomb hk1999_e wc
/-- Single characters of `big5hkscs2001_wctomb` (`lib/converters/big5hkscs2001.h:129-238`). -/
def hk2001_wctomb (wc : Nat) : W := hk_wctomb hk2001_e wc
/-- Single characters of `big5hkscs2004_wctomb` (`lib/converters/big5hkscs2004.h:136-260`). -/
def hk2004_wctomb (wc : Nat) : W := hk_wctomb hk2004_e wc
/-- Single characters of `big5hkscs2008_wctomb` (`lib/converters/big5hkscs2008.h:141-280`). -/
def hk2008_wctomb (wc : Nat) : W := hk_wctomb hk2008_e wc
theorem hk1999_good : M.Good M.RetOK 1 hk1999_mbtowc := hk_good hk1999_dgood
theorem hk2001_good : M.Good M.RetOK 1 hk2001_mbtowc := hk_good hk2001_dgood
theorem hk2004_good : M.Good M.RetOK 1 hk2004_mbtowc := hk_good hk2004_dgood
theorem hk2008_good : M.Good M.RetOK 1 hk2008_mbtowc := hk_good hk2008_dgood
theorem hk1999_wgood (wc : Nat) : W.Good 0 (hk1999_wctomb wc) := hk_wgood hk1999_two wc
theorem hk2001_wgood (wc : Nat) : W.Good 0 (hk2001_wctomb wc) := hk_wgood hk2001_two wc
theorem hk2004_wgood (wc : Nat) : W.Good 0 (hk2004_wctomb wc) := hk_wgood hk2004_two wc
theorem hk2008_wgood (wc : Nat) : W.Good 0 (hk2008_wctomb wc) := hk_wgood hk2008_two wc

end Reiconv
