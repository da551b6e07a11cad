import Verif.Props.Jp3Write
import Verif.Props.JpmsWrite
import Verif.Props.Pair
import Verif.Props.Kinds

/-!
# C66: what becomes of characters the target does not have

A conversion writes the characters of a text as a conversion without loss would write them, after the characters that
cannot be written have been left out or replaced. `Shown` says which text that is, in terms of `Entry.Encodes` alone,
the relation that says how texts are written without loss (C29, C42 and C60 to C65 say what it is for the encodings).
-/

namespace Reiconv

namespace Lossy

/-- The text can be written. -/
def Can (B : Entry) (cs : List Nat) : Prop := ∃ out, B.Encodes cs out

/-- `Shown B discard k cs ds n`: after the text `k` the rest `cs` of the text makes it `ds`, with `n` characters lost. A
character is kept if the text so far can be written with it. Otherwise a tag character is left out and not counted; with
the discard flag any other character is left out and counted; without the flag U+FFFD takes its place, if that can be
written. -/
inductive Shown (B : Entry) (discard : Bool) : List Nat → List Nat → List Nat → Nat → Prop
  | nil {k} : Shown B discard k [] k 0
  | keep {k c cs ds n} : Can B (k ++ [c]) → Shown B discard (k ++ [c]) cs ds n → Shown B discard k (c :: cs) ds n
  | tag {k c cs ds n} : ¬ Can B (k ++ [c]) → 0xe0000 ≤ c ∧ c ≤ 0xe007f → Shown B discard k cs ds n →
      Shown B discard k (c :: cs) ds n
  | drop {k c cs ds n} : ¬ Can B (k ++ [c]) → ¬ (0xe0000 ≤ c ∧ c ≤ 0xe007f) → discard = true → Shown B discard k cs ds n →
      Shown B discard k (c :: cs) ds (1 + n)
  | replace {k c cs ds n} : ¬ Can B (k ++ [c]) → ¬ (0xe0000 ≤ c ∧ c ≤ 0xe007f) → discard = false → Can B (k ++ [0xfffd]) →
      Shown B discard (k ++ [0xfffd]) cs ds n → Shown B discard k (c :: cs) ds (1 + n)

/-- The same for an encoding in which it does not depend on the other characters whether one can be written. -/
inductive Each (B : Entry) (discard : Bool) : List Nat → List Nat → Nat → Prop
  | nil : Each B discard [] [] 0
  | keep {c cs ds n} : Can B [c] → Each B discard cs ds n → Each B discard (c :: cs) (c :: ds) n
  | tag {c cs ds n} : ¬ Can B [c] → 0xe0000 ≤ c ∧ c ≤ 0xe007f → Each B discard cs ds n → Each B discard (c :: cs) ds n
  | drop {c cs ds n} : ¬ Can B [c] → ¬ (0xe0000 ≤ c ∧ c ≤ 0xe007f) → discard = true → Each B discard cs ds n →
      Each B discard (c :: cs) ds (1 + n)
  | replace {c cs ds n} : ¬ Can B [c] → ¬ (0xe0000 ≤ c ∧ c ≤ 0xe007f) → discard = false → Can B [0xfffd] →
      Each B discard cs ds n → Each B discard (c :: cs) (0xfffd :: ds) (1 + n)

/-! ## Encoders that write something for every tag they accept -/

/-- Everything the encoder accepts is represented. -/
def Plain (B : Entry) : Prop := ∀ os c, B.encOK.Inv os → B.enc.rep os c = B.enc.full os c

theorem plain_of {B : Entry} (h : ∀ os c bs os', B.encOK.Inv os → isTag c = true → B.enc.full os c = some (bs, os') → bs ≠ []) :
    Plain B := fun os c hI => Encoder.rep_eq fun bs os' hf ht => h os c bs os' hI ht hf

theorem senc_ne {E : Encoder} (e : SimpleEnc E) {os c : Nat} {bs : List Byte} {os' : Nat} (h : E.full os c = some (bs, os')) : bs ≠ [] := by
  rw [e.full_eq] at h
  obtain ⟨b, h1, h2⟩ := Option.map_eq_some_iff.1 h
  cases h2
  rintro rfl
  have := (e.len _ _ h1).1
  simp at this

theorem benc_ne {E : Encoder} (e : BomEnc E) {os c : Nat} {bs : List Byte} {os' : Nat} (h : E.full os c = some (bs, os')) : bs ≠ [] := by
  rw [e.full_eq] at h
  obtain ⟨b, h1, h2⟩ := Option.map_eq_some_iff.1 h
  cases h2
  intro h
  have := (e.len _ _ h1).1
  rw [(List.append_eq_nil_iff.1 h).2] at this
  simp at this

theorem simple_plain {idx unit hu D E} {d : SimpleDec D unit} {e : SimpleEnc E} : Plain (simpleEntry idx unit hu d e) :=
  plain_of fun _ _ _ _ _ _ h => senc_ne e h

theorem comp_plain {idx hu d hd e he} : Plain (compEntry idx hu d hd e he) :=
  plain_of fun _ _ _ _ _ _ h => senc_ne (e.senc he) h

theorem sw_plain {idx hu D} {d : StDec D} {w : Nat → Nat → SW} {rt I h0 h hr} :
    Plain (stEntry idx hu d (SW.toSt (w := w) (rt := rt) (I := I) h0 h hr)) :=
  plain_of fun os c bs os' hI _ hf => by
    have hf : (sencoder w rt).full os c = _ := hf
    rw [(SW.toSt (w := w) (rt := rt) (I := I) h0 h hr).full_eq hI] at hf
    exact (SW.good_res _ 0 bs os' (h os c hI) hf).2.1

theorem utf7_plain : Plain utf7_entry :=
  plain_of fun os c bs os' hI _ hf => by
    have hf : utf7_encoder.full os c = _ := hf
    rw [utf7_enc.full_eq hI] at hf
    obtain ⟨x, h1, h2⟩ := Option.map_eq_some_iff.1 hf
    cases h2
    simpa using (u7enc_st h1).2.1

theorem pair_plain {idx : Nat} {hu : unitOf idx = 1} {body : M SItem} {hd : M.Good PairItemOK 1 body} {I : Nat → Prop}
    {comp : Nat → Nat → Option (List Nat)} {last : Nat → List Nat} {base : Nat → Nat → BW} {he : PairGood I comp last base}
    {m : M MbRet} {w : Nat → W} {hold : Nat → Nat} {C : List (List Byte × Nat × Nat)}
    (h : PairRel body comp last base m w hold C) : Plain (pairEntry idx hu hd he) :=
  fun _ _ hI => pair_rep he h hI

theorem jp3_tags : ∀ c ∈ List.range' 0xe0000 128, (jp3_base 0 0 c).res [] = none := by decide +kernel

open Jp3W in
theorem jp3_tag {c : Nat} (h : isTag c = true) (count st : Nat) (acc : List Byte) : (jp3_base count st c).res acc = none := by
  have h1 : (jp3_base 0 0 c).res [] = none := by
    have : 0xe0000 ≤ c ∧ c ≤ 0xe007f := of_decide_eq_true h
    exact jp3_tags c (List.mem_range'_1.2 ⟨this.1, by omega⟩)
  cases classify c with
  | plain k b _ _ hp => rw [hp.2] at h1; cases h1
  | holds k b h _ _ hh =>
    obtain ⟨_, _, _, _, ⟨_, _, hh⟩ | ⟨_, _, hh⟩⟩ := hh
    · rw [hh] at h1; cases h1
    · rw [hh] at h1; cases h1
  | missing _ _ h => exact h _ _ _

theorem jp3_plain : Plain iso2022_jp3_entry :=
  plain_of fun os c bs os' hI ht hf => by
    exfalso
    have hf : iso2022_jp3_encoder.full os c = _ := hf
    obtain ⟨k, h, prev, ho⟩ := hI
    by_cases h0 : h = 0
    · rw [iso2022_jp3_enc.full_eq ⟨_, _, _, ho⟩] at hf
      have hf : (iso2022_jp3_wctomb os c).res [] = _ := hf
      unfold iso2022_jp3_wctomb at hf
      rw [ho.last_eq, h0, if_neg (not_not_intro rfl), jp3_tag ht] at hf
      cases hf
    · cases hc : jxCompose jp3Comp h c with
      | none =>
        obtain ⟨n, e⟩ := Jp3W.full_apart ho h0 hc
        rw [Jp3W.E, hf, jp3_tag ht] at e
        cases e
      | some l =>
        have h1 := (jxCompose_some hc).1
        have h2 : 0xe0000 ≤ c ∧ c ≤ 0xe007f := of_decide_eq_true ht
        simp only [jxMarks, List.mem_cons, List.not_mem_nil, or_false] at h1
        omega

theorem targets_plain : ∀ B ∈ targets, B.idx ≠ ei_iso2022_jp2 → Plain B := by
  each_target (
    intro h
    first
      | exact absurd rfl h
      | exact simple_plain
      | exact comp_plain
      | exact sw_plain
      | exact utf7_plain
      | exact jp3_plain
      | exact plain_of (fun _ _ _ _ _ _ h => senc_ne ucs2_senc h)
      | exact plain_of (fun _ _ _ _ _ _ h => senc_ne ucs4_senc h)
      | exact plain_of (fun _ _ _ _ _ _ h => benc_ne utf16_benc h)
      | exact plain_of (fun _ _ _ _ _ _ h => benc_ne utf32_benc h)
      | exact pair_plain (hk_rel hk1999_two hk1999_dgood hk1999_pairs)
      | exact pair_plain (hk_rel hk2001_two hk2001_dgood hk2001_pairs)
      | exact pair_plain (hk_rel hk2004_two hk2004_dgood hk2004_pairs)
      | exact pair_plain (hk_rel hk2008_two hk2008_dgood hk2008_pairs)
      | exact pair_plain (euc_jx_rel euc_jx_ok)
      | exact pair_plain (sjx_rel sjx_ok))

/-! ## The text that is shown -/

theorem text_inv {B : Entry} : ∀ {cs : List Nat} {os : Nat} {x : List Byte} {os' : Nat}, B.encOK.Inv os →
    B.enc.text os cs = some (x, os') → B.encOK.Inv os' := by
  intro cs
  induction cs with
  | nil => intro os x os' hI h; cases h; exact hI
  | cons c cs ih =>
    intro os x os' hI h
    obtain ⟨b, os1, r, h1, h2, _⟩ := Encoder.text_cons'.1 h
    exact ih (full_inv B.encOK hI (Encoder.rep_full h1)) h2

theorem text_snoc {E : Encoder} {k : List Nat} {x : List Byte} {os c : Nat} (h : E.text 0 k = some (x, os)) :
    E.text 0 (k ++ [c]) = (E.rep os c).map fun y => (x ++ y.1, y.2) := by
  rw [Encoder.text_append, h]
  simp only [Encoder.text]
  cases E.rep os c <;> simp

theorem can_iff {B : Entry} {cs : List Nat} : Can B cs ↔ ∃ x os, B.enc.text 0 cs = some (x, os) := by
  constructor
  · rintro ⟨_, x, os, h, _⟩; exact ⟨x, os, h⟩
  · rintro ⟨x, os, h⟩; exact ⟨_, x, os, h, rfl⟩

theorem can_snoc {B : Entry} {k : List Nat} {x : List Byte} {os c : Nat} (h : B.enc.text 0 k = some (x, os)) :
    Can B (k ++ [c]) ↔ B.enc.rep os c ≠ none := by
  rw [can_iff, text_snoc h]
  cases B.enc.rep os c <;> simp

theorem shown_extends {B : Entry} {discard : Bool} {k cs ds : List Nat} {n : Nat} (h : Shown B discard k cs ds n) :
    ∃ e, ds = k ++ e := by
  induction h with
  | nil => exact ⟨[], (List.append_nil _).symm⟩
  | keep _ _ ih => obtain ⟨e, rfl⟩ := ih; exact ⟨_, List.append_assoc ..⟩
  | tag _ _ _ ih => exact ih
  | drop _ _ _ _ ih => exact ih
  | replace _ _ _ _ _ ih => obtain ⟨e, rfl⟩ := ih; exact ⟨_, List.append_assoc ..⟩

theorem shown_can {B : Entry} {discard : Bool} {k cs ds : List Nat} {n : Nat} (h : Shown B discard k cs ds n) (hk : Can B k) :
    Can B ds := by
  induction h with
  | nil => exact hk
  | keep h _ ih => exact ih h
  | tag _ _ _ ih => exact ih hk
  | drop _ _ _ _ ih => exact ih hk
  | replace _ _ _ h _ ih => exact ih h

theorem write_cons {ec : Nat → Nat → Option (List Byte × Nat × Nat)} {os c : Nat} {cs : List Nat} {bs : List Byte} {os' n : Nat} :
    writeAll ec os (c :: cs) = some (bs, os', n) ↔
      ∃ b os1 i r j, ec os c = some (b, os1, i) ∧ writeAll ec os1 cs = some (r, os', j) ∧ bs = b ++ r ∧ n = i + j := by
  simp only [writeAll]
  cases h : ec os c with
  | none => simp
  | some y =>
    obtain ⟨b, os1, i⟩ := y
    simp only
    cases h2 : writeAll ec os1 cs with
    | none =>
      constructor
      · intro h3; cases h3
      · rintro ⟨_, _, _, _, _, h3, h4, _⟩
        cases h3
        rw [h2] at h4
        cases h4
    | some z =>
      obtain ⟨r, os2, j⟩ := z
      constructor
      · intro h3; cases h3; exact ⟨_, _, _, _, _, rfl, h2, rfl, rfl⟩
      · rintro ⟨_, _, _, _, _, h3, h4, rfl, rfl⟩
        cases h3
        rw [h2] at h4
        cases h4
        rfl

/-- One more character is written. -/
theorem step {B : Entry} {discard : Bool} {cs k : List Nat} {c i : Nat} {x b : List Byte} {os1 : Nat}
    (ih : ∀ bs os' n, writeAll (encChar B.enc discard) os1 cs = some (bs, os', n) ↔
      ∃ ds, Shown B discard (k ++ [c]) cs ds n ∧ B.enc.text 0 ds = some ((x ++ b) ++ bs, os'))
    (hk : B.enc.text 0 (k ++ [c]) = some (x ++ b, os1)) (bs : List Byte) (os' n : Nat) :
    (∃ r j, writeAll (encChar B.enc discard) os1 cs = some (r, os', j) ∧ bs = b ++ r ∧ n = i + j) ↔
      ∃ ds j, Shown B discard (k ++ [c]) cs ds j ∧ n = i + j ∧ B.enc.text 0 ds = some (x ++ bs, os') := by
  constructor
  · rintro ⟨r, j, h1, rfl, rfl⟩
    obtain ⟨ds, h2, h3⟩ := (ih _ _ _).1 h1
    exact ⟨ds, j, h2, rfl, by rw [h3, List.append_assoc]⟩
  · rintro ⟨ds, j, h2, rfl, h3⟩
    obtain ⟨e, rfl⟩ := shown_extends h2
    have h4 := h3
    rw [Encoder.text_append, hk] at h4
    simp only at h4
    split at h4
    · cases h4
    · next y os2 _ =>
      simp only [Option.some.injEq, Prod.mk.injEq, List.append_assoc, List.append_cancel_left_eq] at h4
      obtain ⟨rfl, rfl⟩ := h4
      exact ⟨y, j, (ih _ _ _).2 ⟨_, h2, by rw [h3, List.append_assoc]⟩, rfl, rfl⟩

theorem write_iff {B : Entry} (hp : Plain B) {discard : Bool} : ∀ (cs k : List Nat) (x : List Byte) (os : Nat),
    B.enc.text 0 k = some (x, os) → ∀ bs os' n,
      (writeAll (encChar B.enc discard) os cs = some (bs, os', n) ↔
        ∃ ds, Shown B discard k cs ds n ∧ B.enc.text 0 ds = some (x ++ bs, os')) := by
  intro cs
  induction cs with
  | nil =>
    intro k x os hk bs os' n
    constructor
    · intro h; cases h; exact ⟨k, .nil, by rw [hk, List.append_nil]⟩
    · rintro ⟨ds, h, h2⟩
      cases h
      rw [hk] at h2
      simp only [Option.some.injEq, Prod.mk.injEq, List.self_eq_append_right] at h2
      obtain ⟨rfl, rfl⟩ := h2
      rfl
  | cons c cs ih =>
    intro k x os hk bs os' n
    have hI : B.encOK.Inv os := text_inv B.encOK.inv_init hk
    have hcan := fun c => can_snoc (c := c) hk
    have hrep := fun c => hp os c hI
    rw [write_cons]
    cases hf : B.enc.full os c with
    | some y =>
      obtain ⟨b, os1⟩ := y
      have hc : Can B (k ++ [c]) := (hcan c).2 (by rw [hrep, hf]; simp)
      have hk' : B.enc.text 0 (k ++ [c]) = some (x ++ b, os1) := by rw [text_snoc hk, hrep, hf]; rfl
      have he : encChar B.enc discard os c = some (b, os1, 0) := by unfold encChar; rw [hf]
      have := step (i := 0) (ih _ _ _ hk') hk' bs os' n
      constructor
      · rintro ⟨_, _, _, r, j, h1, h2, h3, h4⟩
        rw [he] at h1
        cases h1
        obtain ⟨ds, j, h5, h6, h7⟩ := this.1 ⟨r, j, h2, h3, h4⟩
        rw [Nat.zero_add] at h6
        exact ⟨ds, .keep hc (h6 ▸ h5), h7⟩
      · rintro ⟨ds, h1, h2⟩
        cases h1 with
        | keep _ h1 =>
          obtain ⟨r, j, h3, h4, h5⟩ := this.2 ⟨ds, n, h1, (Nat.zero_add _).symm, h2⟩
          exact ⟨b, os1, 0, r, j, he, h3, h4, h5⟩
        | tag h => exact absurd hc h
        | drop h => exact absurd hc h
        | replace h => exact absurd hc h
    | none =>
      have hc : ¬ Can B (k ++ [c]) := fun h => (hcan c).1 h (by rw [hrep, hf])
      by_cases ht : isTag c = true
      · have ht' : 0xe0000 ≤ c ∧ c ≤ 0xe007f := of_decide_eq_true ht
        have he : encChar B.enc discard os c = some ([], os, 0) := by unfold encChar; rw [hf]; simp only; rw [if_pos ht]
        constructor
        · rintro ⟨_, _, _, r, j, h1, h2, rfl, rfl⟩
          rw [he] at h1
          cases h1
          obtain ⟨ds, h3, h4⟩ := (ih k x os hk _ _ _).1 h2
          exact ⟨ds, .tag hc ht' (by rw [Nat.zero_add]; exact h3), h4⟩
        · rintro ⟨ds, h1, h2⟩
          cases h1 with
          | keep h => exact absurd h hc
          | tag _ _ h1 => exact ⟨_, _, _, _, _, he, (ih k x os hk _ _ _).2 ⟨ds, h1, h2⟩, rfl, (Nat.zero_add _).symm⟩
          | drop _ h => exact absurd ht' h
          | replace _ h => exact absurd ht' h
      · have ht' : ¬ (0xe0000 ≤ c ∧ c ≤ 0xe007f) := fun h => ht (decide_eq_true h)
        cases discard with
        | true =>
          have he : encChar B.enc true os c = some ([], os, 1) := by unfold encChar; rw [hf]; simp only; rw [if_neg ht]; rfl
          constructor
          · rintro ⟨_, _, _, r, j, h1, h2, rfl, rfl⟩
            rw [he] at h1
            cases h1
            obtain ⟨ds, h3, h4⟩ := (ih k x os hk _ _ _).1 h2
            exact ⟨ds, .drop hc ht' rfl h3, h4⟩
          · rintro ⟨ds, h1, h2⟩
            cases h1 with
            | keep h => exact absurd h hc
            | tag _ h => exact absurd h ht'
            | drop _ _ _ h1 => exact ⟨_, _, _, _, _, he, (ih k x os hk _ _ _).2 ⟨ds, h1, h2⟩, rfl, rfl⟩
            | replace _ _ h => cases h
        | false =>
          cases hr : B.enc.full os 0xfffd with
          | none =>
            have he : encChar B.enc false os c = none := by
              unfold encChar; rw [hf]; simp only; rw [if_neg ht, hr]; rfl
            constructor
            · rintro ⟨_, _, _, _, _, h1, _⟩; rw [he] at h1; cases h1
            · rintro ⟨ds, h1, h2⟩
              cases h1 with
              | keep h => exact absurd h hc
              | tag _ h => exact absurd h ht'
              | drop _ _ h => cases h
              | replace _ _ _ h => exact absurd (by rw [hrep, hr]) ((hcan _).1 h)
          | some y =>
            obtain ⟨b, os1⟩ := y
            have he : encChar B.enc false os c = some (b, os1, 1) := by
              unfold encChar; rw [hf]; simp only; rw [if_neg ht, hr]; rfl
            have hc2 : Can B (k ++ [0xfffd]) := (hcan _).2 (by rw [hrep, hr]; simp)
            have hk' : B.enc.text 0 (k ++ [0xfffd]) = some (x ++ b, os1) := by rw [text_snoc hk, hrep, hr]; rfl
            have := step (i := 1) (ih _ _ _ hk') hk' bs os' n
            constructor
            · rintro ⟨_, _, _, r, j, h1, h2, h3, h4⟩
              rw [he] at h1
              cases h1
              obtain ⟨ds, j, h5, rfl, h7⟩ := this.1 ⟨r, j, h2, h3, h4⟩
              exact ⟨ds, .replace hc ht' rfl hc2 h5, h7⟩
            · rintro ⟨ds, h1, h2⟩
              cases h1 with
              | keep h => exact absurd h hc
              | tag _ h => exact absurd h ht'
              | drop _ _ h => cases h
              | replace _ _ _ _ h1 =>
                obtain ⟨r, j, h3, h4, h5⟩ := this.2 ⟨ds, _, h1, rfl, h2⟩
                exact ⟨b, os1, 1, r, j, he, h3, h4, h5⟩

theorem shown_iff {B : Entry} (hp : Plain B) {discard : Bool} {cs : List Nat} {out : List Byte} {n : Nat} :
    (∃ bs os, writeAll (encChar B.enc discard) 0 cs = some (bs, os, n) ∧ out = bs ++ B.enc.tail os) ↔
      ∃ ds, Shown B discard [] cs ds n ∧ B.Encodes ds out := by
  have h := write_iff hp (discard := discard) cs [] [] 0 rfl
  constructor
  · rintro ⟨bs, os, h1, rfl⟩
    obtain ⟨ds, h2, h3⟩ := (h _ _ _).1 h1
    exact ⟨ds, h2, bs, os, h3, rfl⟩
  · rintro ⟨ds, h2, bs, os, h3, rfl⟩
    exact ⟨bs, os, (h _ _ _).2 ⟨ds, h2, h3⟩, rfl⟩

/-! ## Encodings in which it does not depend on the context -/

/-- Whether a character is accepted does not depend on the state. -/
def Even (B : Entry) : Prop := ∀ os c, B.encOK.Inv os → (B.enc.full os c = none ↔ B.enc.full 0 c = none)

theorem senc_even {E : Encoder} (e : SimpleEnc E) (os c : Nat) : E.full os c = none ↔ E.full 0 c = none := by
  rw [e.full_eq, e.full_eq]; cases e.enc c <;> simp

theorem benc_even {E : Encoder} (e : BomEnc E) (os c : Nat) : E.full os c = none ↔ E.full 0 c = none := by
  rw [e.full_eq, e.full_eq]; cases e.enc c <;> simp

theorem simple_even {idx unit hu D E} {d : SimpleDec D unit} {e : SimpleEnc E} : Even (simpleEntry idx unit hu d e) :=
  fun os c _ => senc_even e os c

theorem comp_even {idx hu d hd e he} : Even (compEntry idx hu d hd e he) := fun os c _ => senc_even (e.senc he) os c

theorem wrote_even {B : Entry} {V : IsoW.Writer} {rep : Nat → Iso.Regs} {I : Nat → Prop} (h : IsoW.Wrote V B.enc rep I)
    (hI : ∀ os, B.encOK.Inv os → I os) : Even B := by
  have key : ∀ os c, I os → (B.enc.full os c = none ↔ IsoW.Missing c V.order) := by
    intro os c hi
    rcases h.full os c hi with ⟨out, st', h1, _, h3⟩ | ⟨h1, h2⟩
    · obtain ⟨x, b, hf, _⟩ := (h3 out _).2 ⟨rfl, rfl⟩
      rw [h1]
      exact ⟨fun h => (nomatch h), fun hm => absurd hm (IsoW.first_missing hf)⟩
    · exact ⟨fun _ => h2, fun _ => h1⟩
  intro os c hi
  rw [key os c (hI os hi), key 0 c h.init]

theorem jpms_even : Even iso2022_jpms_entry := by
  have key : ∀ os c, os ≤ 4 → (JpmsW.E.full os c = none ↔ JpmsW.Missing c JpmsW.order) := by
    intro os c hi
    rcases JpmsW.full os c hi with ⟨b, k, _, h1, h3⟩ | ⟨h1, h2⟩
    · have hf := (h3 _ _).2 ⟨rfl, rfl⟩
      rw [h1]
      exact ⟨fun h => (nomatch h), fun hm => absurd hm (JpmsW.first_missing hf)⟩
    · exact ⟨fun _ => h2, fun _ => h1⟩
  intro os c hi
  exact (key os c hi).trans (key 0 c (by omega)).symm

theorem utf7_even : Even utf7_entry := by
  have key : ∀ os c, u7enc os c = none ↔ u7_isdirect c ≠ true ∧ ¬ c < 0x110000 := by
    intro os c
    unfold u7enc
    by_cases h1 : u7_isdirect c = true
    · simp [h1]
    · rw [if_neg h1]
      by_cases h2 : c < 0x110000
      · rw [if_pos h2]
        constructor
        · intro h; (repeat' split at h) <;> cases h
        · intro h; exact absurd h2 h.2
      · rw [if_neg h2, if_neg (by omega)]
        exact ⟨fun _ => ⟨h1, h2⟩, fun _ => rfl⟩
  have key2 : ∀ os c, u7J os → (utf7_encoder.full os c = none ↔ u7_isdirect c ≠ true ∧ ¬ c < 0x110000) := by
    intro os c hI
    rw [utf7_enc.full_eq hI, ← key os c]
    show (u7enc os c).map _ = none ↔ _
    simp
  intro os c hI
  exact (key2 os c hI).trans (key2 0 c utf7_enc.init).symm

/-- The encodings in which a character can be written in one place and not in another: those with codes for pairs of
characters, and ISO-2022-JP-2 with its language tags. -/
def contextIdx : List Nat := [ei_big5hkscs1999, ei_big5hkscs2001, ei_big5hkscs2004, ei_big5hkscs2008, ei_euc_jisx0213,
  ei_shift_jisx0213, ei_iso2022_jp3, ei_iso2022_jp2]

theorem targets_even : ∀ B ∈ targets, B.idx ∉ contextIdx → Even B := by
  each_target (
    intro h
    first
      | exact absurd (by decide) h
      | exact simple_even
      | exact comp_even
      | exact utf7_even
      | exact jpms_even
      | exact (fun os c _ => senc_even ucs2_senc os c)
      | exact (fun os c _ => senc_even ucs4_senc os c)
      | exact (fun os c _ => benc_even utf16_benc os c)
      | exact (fun os c _ => benc_even utf32_benc os c)
      | exact wrote_even IsoW.jp_wrote (fun _ h => h)
      | exact wrote_even IsoW.jp1_wrote (fun _ h => h)
      | exact wrote_even IsoW.hz_wrote (fun _ h => h)
      | exact wrote_even IsoW.kr_wrote (fun _ h => h)
      | exact wrote_even IsoW.cn_wrote (fun _ h => h)
      | exact wrote_even IsoW.cnExt_wrote (fun _ h => h))

theorem can_even {B : Entry} (hp : Plain B) (he : Even B) {k : List Nat} {c : Nat} (hk : Can B k) :
    Can B (k ++ [c]) ↔ Can B [c] := by
  obtain ⟨x, os, h⟩ := can_iff.1 hk
  have hI := text_inv B.encOK.inv_init h
  have h0 : B.enc.text 0 [] = some ([], 0) := rfl
  rw [can_snoc h, ← List.nil_append [c], can_snoc h0, hp os c hI, hp 0 c B.encOK.inv_init, ne_eq, he os c hI]

theorem each_iff {B : Entry} (hp : Plain B) (he : Even B) {discard : Bool} {cs : List Nat} : ∀ {k : List Nat}, Can B k →
    ∀ {ds : List Nat} {n : Nat}, Shown B discard k cs ds n ↔ ∃ e, ds = k ++ e ∧ Each B discard cs e n := by
  induction cs with
  | nil =>
    intro k hk ds n
    constructor
    · intro h; cases h; exact ⟨[], (List.append_nil _).symm, .nil⟩
    · rintro ⟨e, rfl, h⟩; cases h; rw [List.append_nil]; exact .nil
  | cons c cs ih =>
    intro k hk ds n
    have hc := fun c => can_even hp he (c := c) hk
    constructor
    · intro h
      cases h with
      | keep h1 h2 =>
        obtain ⟨e, rfl, h3⟩ := (ih h1).1 h2
        exact ⟨c :: e, by simp, .keep ((hc c).1 h1) h3⟩
      | tag h1 h2 h3 =>
        obtain ⟨e, rfl, h5⟩ := (ih hk).1 h3
        exact ⟨e, rfl, .tag (fun h => h1 ((hc c).2 h)) h2 h5⟩
      | drop h1 h2 hd h3 =>
        obtain ⟨e, rfl, h5⟩ := (ih hk).1 h3
        exact ⟨e, rfl, .drop (fun h => h1 ((hc c).2 h)) h2 hd h5⟩
      | replace h1 h2 hd h4 h3 =>
        obtain ⟨e, rfl, h5⟩ := (ih h4).1 h3
        exact ⟨0xfffd :: e, by simp, .replace (fun h => h1 ((hc c).2 h)) h2 hd ((hc _).1 h4) h5⟩
    · rintro ⟨e, rfl, h⟩
      cases h with
      | keep h1 h2 =>
        have h1 := (hc c).2 h1
        exact .keep h1 ((ih h1).2 ⟨_, by simp, h2⟩)
      | tag h1 h2 h3 => exact .tag (fun h => h1 ((hc c).1 h)) h2 ((ih hk).2 ⟨_, rfl, h3⟩)
      | drop h1 h2 hd h3 => exact .drop (fun h => h1 ((hc c).1 h)) h2 hd ((ih hk).2 ⟨_, rfl, h3⟩)
      | replace h1 h2 hd h4 h3 =>
        have h4 := (hc _).2 h4
        exact .replace (fun h => h1 ((hc c).1 h)) h2 hd h4 ((ih h4).2 ⟨_, by simp, h3⟩)

end Lossy

/-! ## The property -/

open Lossy

/-- C66: for every source, every target other than ISO-2022-JP-2 (whose language tags are C60) and both settings of
discarding, the conversion of a text with the characters `cs` has the output `out` and reports `irr` lost characters
exactly if `out` is how the text that is shown is written. -/
theorem C66_writes (A : Entry) {B : Entry} (hB : B ∈ targets) (h2 : B.idx ≠ ei_iso2022_jp2) (discard : Bool) (inp : List Byte)
    (cs : List Nat) (h : A.Text inp cs) (out : List Byte) (irr : Nat) :
    Whole A.atom (A.conv B discard) St.init inp out irr ↔ ∃ ds, Shown B discard [] cs ds irr ∧ B.Encodes ds out :=
  (whole_iff_write h out irr).trans (shown_iff (targets_plain B hB h2))

/-- C66, character by character, for the encodings in which it does not depend on its place in the text whether a
character can be written. -/
theorem C66_each (A : Entry) {B : Entry} (hB : B ∈ targets) (h2 : B.idx ∉ contextIdx) (discard : Bool) (inp : List Byte)
    (cs : List Nat) (h : A.Text inp cs) (out : List Byte) (irr : Nat) :
    Whole A.atom (A.conv B discard) St.init inp out irr ↔ ∃ ds, Each B discard cs ds irr ∧ B.Encodes ds out := by
  have hj : B.idx ≠ ei_iso2022_jp2 := fun h => h2 (by rw [h]; decide)
  rw [C66_writes A hB hj discard inp cs h]
  have := fun ds => each_iff (targets_plain B hB hj) (targets_even B hB h2) (discard := discard) (cs := cs) (k := []) ⟨_, [], 0, rfl, rfl⟩
    (ds := ds) (n := irr)
  simp only [this, List.nil_append]
  constructor
  · rintro ⟨ds, ⟨e, rfl, h3⟩, h4⟩; exact ⟨ds, h3, h4⟩
  · rintro ⟨ds, h3, h4⟩; exact ⟨ds, ⟨ds, rfl, h3⟩, h4⟩

/-- C66 at the API: if there is a text to show then `reiconv_result_size` returns the number of bytes it is written with,
and `reiconv_convert_static_size` writes exactly these bytes into a buffer that has 64 bytes more. If there is none,
`reiconv_result_size` fails with `EILSEQ`. -/
theorem C66_api (A : Entry) {B : Entry} (hB : B ∈ targets) (hj : B.idx ≠ ei_iso2022_jp2) (discard : Bool) (inp : List Byte)
    (cs : List Nat) (h : A.Text inp cs) :
    (∀ ds irr out, Shown B discard [] cs ds irr → B.Encodes ds out →
      (∃ s, resultSize (A.conv B discard) St.init inp = .ok (.ok out.length, s)) ∧
      ∀ room : List Byte, out.length + 64 ≤ room.length → ∃ s b,
        convertStatic (A.conv B discard) St.init inp ⟨false, [], room⟩ = .ok (.ok (), s, b) ∧ b.out = out) ∧
    ((¬ ∃ ds irr, Shown B discard [] cs ds irr) →
      ∃ s, resultSize (A.conv B discard) St.init inp = .ok (.error .EILSEQ, s)) := by
  obtain ⟨sz, s1, h1, _, _, h2⟩ := size_whole A B discard inp
  constructor
  · intro ds irr out hs he
    have hw := (C66_writes A hB hj discard inp cs h out irr).2 ⟨ds, hs, he⟩
    constructor
    · rcases h2 with ⟨n, o, i, rfl, hw', rfl, _⟩ | ⟨_, hno⟩
      · obtain ⟨rfl, _⟩ := whole_det hw hw'
        exact ⟨s1, h1⟩
      · exact absurd hw (hno _ _)
    · intro room hroom
      obtain ⟨ret, s2, b, hx, hl, h5⟩ := static_whole A B discard St.init A.decOK.inv_init
        B.encOK.inv_init inp room hw (.inl (by omega))
      rcases h5 with ⟨rfl, h5, _⟩ | ⟨_, h5, ⟨rest, h6⟩, _⟩
      · exact ⟨s2, b, hx, h5⟩
      · rw [h6, List.length_append] at hroom
        omega
  · intro hno
    rcases h2 with ⟨n, o, i, rfl, hw', _⟩ | ⟨rfl, _⟩
    · obtain ⟨ds, hs, _⟩ := (C66_writes A hB hj discard inp cs h _ _).1 hw'
      exact absurd ⟨_, _, hs⟩ hno
    · exact ⟨s1, h1⟩

/-- The text that is shown is determined, and it can be written. -/
theorem C66_unique {B : Entry} {discard : Bool} {k cs ds ds' : List Nat} {n n' : Nat} (h : Shown B discard k cs ds n)
    (h' : Shown B discard k cs ds' n') : ds = ds' ∧ n = n' := by
  induction h generalizing ds' n' with
  | nil => cases h'; exact ⟨rfl, rfl⟩
  | keep h1 _ ih =>
    cases h' with
    | keep _ h' => exact ih h'
    | tag h => exact absurd h1 h
    | drop h => exact absurd h1 h
    | replace h => exact absurd h1 h
  | tag h1 h2 _ ih =>
    cases h' with
    | keep h => exact absurd h h1
    | tag _ _ h' => exact ih h'
    | drop _ h => exact absurd h2 h
    | replace _ h => exact absurd h2 h
  | drop h1 h2 hd _ ih =>
    cases h' with
    | keep h => exact absurd h h1
    | tag _ h => exact absurd h h2
    | drop _ _ _ h' => obtain ⟨rfl, rfl⟩ := ih h'; exact ⟨rfl, rfl⟩
    | replace _ _ h => rw [hd] at h; cases h
  | replace h1 h2 hd _ _ ih =>
    cases h' with
    | keep h => exact absurd h h1
    | tag _ h => exact absurd h h2
    | drop _ _ h => rw [hd] at h; cases h
    | replace _ _ _ _ h' => obtain ⟨rfl, rfl⟩ := ih h'; exact ⟨rfl, rfl⟩

theorem C66_writable {B : Entry} {discard : Bool} {cs ds : List Nat} {n : Nat} (h : Shown B discard [] cs ds n) :
    ∃ out, B.Encodes ds out := shown_can h ⟨_, [], 0, rfl, rfl⟩

/-- With discarding every text is shown. -/
theorem C66_discard (B : Entry) (k cs : List Nat) : ∃ ds n, Shown B true k cs ds n := by
  induction cs generalizing k with
  | nil => exact ⟨_, _, .nil⟩
  | cons c cs ih =>
    by_cases h : Can B (k ++ [c])
    · obtain ⟨ds, n, h1⟩ := ih (k ++ [c]); exact ⟨_, _, .keep h h1⟩
    · obtain ⟨ds, n, h1⟩ := ih k
      by_cases ht : 0xe0000 ≤ c ∧ c ≤ 0xe007f
      · exact ⟨_, _, .tag h ht h1⟩
      · exact ⟨_, _, .drop h ht rfl h1⟩

/-- A text that can be written is shown as it is, and nothing is counted. -/
theorem C66_lossless {B : Entry} {discard : Bool} {k cs : List Nat} (h : Can B (k ++ cs)) : Shown B discard k cs (k ++ cs) 0 := by
  induction cs generalizing k with
  | nil => rw [List.append_nil]; exact .nil
  | cons c cs ih =>
    rw [List.append_cons] at h ⊢
    refine .keep ?_ (ih h)
    obtain ⟨x, os, h⟩ := can_iff.1 h
    rw [Encoder.text_append] at h
    cases h2 : B.enc.text 0 (k ++ [c]) with
    | none => rw [h2] at h; cases h
    | some y => exact can_iff.2 ⟨y.1, y.2, h2⟩

theorem Lossy.cannot {B : Entry} {cs : List Nat} (h : B.enc.text 0 cs = none) : ¬ Can B cs := by
  rw [can_iff]
  rintro ⟨x, os, h'⟩
  rw [h] at h'
  cases h'

/-- "aא", U+E0041 and "b" to ASCII with discarding: the Hebrew letter is lost, the tag character is not counted. -/
theorem C66_example : Shown ascii_entry true [] [0x61, 0x5d0, 0xe0041, 0x62] [0x61, 0x62] 1 ∧ ascii_entry.Encodes [0x61, 0x62] [0x61, 0x62] :=
  ⟨.keep ⟨[0x61], _, _, by rfl, by decide⟩ <| .drop (cannot (by decide)) (by decide) rfl <| .tag (cannot (by decide)) (by decide) <|
    .keep ⟨[0x61, 0x62], _, _, by rfl, by decide⟩ .nil, _, _, by rfl, by decide⟩

example (inp : List Byte) (h : utf8_entry.Text inp [0x61, 0x5d0, 0xe0041, 0x62]) :
    ∃ s, resultSize (utf8_entry.conv ascii_entry true) St.init inp = .ok (.ok 2, s) :=
  (((C66_api utf8_entry (List.mem_of_getElem? (i := 0) rfl) (by decide) true inp _ h).1 _ _ _ C66_example.1 C66_example.2).1)

/-- Without discarding there is nothing to show. -/
example : ¬ ∃ ds n, Shown ascii_entry false [] [0x61, 0x5d0, 0xe0041, 0x62] ds n := by
  have c1 : ¬ Can ascii_entry ([0x61] ++ [0x5d0]) := cannot (by decide)
  have c2 : ¬ Can ascii_entry ([0x61] ++ [0xfffd]) := cannot (by decide)
  have c0 : Can ascii_entry ([] ++ [0x61]) := ⟨[0x61], _, _, by rfl, by decide⟩
  rintro ⟨ds, n, h⟩
  cases h with
  | keep _ h =>
    cases h with
    | keep h => exact c1 h
    | tag _ h => exact absurd h (by decide)
    | drop _ _ h => cases h
    | replace _ _ _ h => exact c2 h
  | tag h => exact h c0
  | drop h => exact h c0
  | replace h => exact h c0

/-- A number that is no code point, from UCS-4 to UTF-8: U+FFFD is written instead, and it is counted. -/
example : Each utf8_entry false [0x41, 0x110000] [0x41, 0xfffd] 1 ∧ utf8_entry.Encodes [0x41, 0xfffd] [0x41, 0xef, 0xbf, 0xbd] :=
  ⟨.keep ⟨[0x41], _, _, by rfl, by decide⟩ <| .replace (cannot (by decide)) (by decide) rfl
    ⟨[0xef, 0xbf, 0xbd], _, _, by rfl, by decide⟩ .nil, _, _, by rfl, by decide⟩

/-- In an encoding with codes for pairs of characters it depends on the text before a character whether it can be written:
U+0304 after U+00CA in BIG5-HKSCS, and not elsewhere. -/
theorem C66_context : Shown big5hkscs2008_entry true [] [0x304, 0xca, 0x304, 0x304] [0xca, 0x304] 2 :=
  .drop (cannot (by decide +kernel)) (by decide) rfl <|
  .keep (can_iff.2 ⟨_, _, by rfl⟩) <|
  .keep (can_iff.2 ⟨_, _, by rfl⟩) <|
  .drop (cannot (by decide +kernel)) (by decide) rfl .nil

/-- Why ISO-2022-JP-2 is not covered: after the language tag `ko` the text "一", which is all that is shown, is written
otherwise than without the tag. -/
theorem C66_jp2 : Shown iso2022_jp2_entry false [] [0xe0001, 0xe006b, 0xe006f, 0x4e00] [0x4e00] 0 ∧
    iso2022_jp2_entry.Encodes [0x4e00] [0x1b, 0x24, 0x42, 0x30, 0x6c, 0x1b, 0x28, 0x42] ∧
    Iso.Jp2Text false [0xe0001, 0xe006b, 0xe006f, 0x4e00] [0x1b, 0x24, 0x28, 0x43, 0x6c, 0x69, 0x1b, 0x28, 0x42] 0 :=
  ⟨.tag (cannot (by decide +kernel)) (by decide) <| .tag (cannot (by decide +kernel)) (by decide) <|
    .tag (cannot (by decide +kernel)) (by decide) <| .keep (can_iff.2 ⟨_, _, by rfl⟩) .nil,
    ⟨_, _, by rfl, by decide +kernel⟩, Iso.jp2Text_iff.2 ⟨_, _, by rfl, by decide +kernel⟩⟩

end Reiconv
