import Verif.Codec.Utf7Read
import Verif.Props.Utf7
import Verif.Props.Single

/-!
# C55: UTF-7 is read and written as RFC 2152 says

`Verif/Rfc2152.lean` is the specification.
-/

namespace Reiconv

namespace Rfc2152

theorem units_widen {v v' : Variant} {us ws : List Nat} (h : Units v us ws) (hl : v.loneLow = true → v'.loneLow = true ∨ ∀ c ∈ ws, ¬ Low c) :
    Units v' us ws := by
  induction h with
  | nil => exact .nil
  | one h1 h2 h3 _ ih => exact .one h1 h2 h3 (ih fun h => (hl h).imp id fun h c hc => h c (List.mem_cons_of_mem _ hc))
  | pair h1 h2 _ ih => exact .pair h1 h2 (ih fun h => (hl h).imp id fun h c hc => h c (List.mem_cons_of_mem _ hc))
  | low hv h1 _ ih =>
    rcases hl hv with h | h
    · exact .low h h1 (ih fun _ => .inl h)
    · exact absurd h1 (h _ (List.mem_cons_self ..))

/-- Every text of RFC 2152 is one for the converter. -/
theorem reads_widen {s : List Byte} {w : List Nat} (h : Reads documented s w) : Reads implemented s w := by
  have hu : ∀ {us ws}, Units documented us ws → Units implemented us ws := fun h => units_widen h fun e => by cases e
  induction h with
  | nil => exact .nil
  | direct h1 _ ih => exact .direct h1 ih
  | plus _ ih => exact .plus ih
  | dash h1 h2 h3 _ ih => exact .dash h1 h2 (hu h3) ih
  | stop _ h2 h3 h4 h5 _ ih => exact .stop (.inr rfl) h2 (hu h3) h4 h5 ih
  | last h1 h2 _ h4 => exact .last h1 h2 (.inr rfl) (hu h4)

/-- What makes a text of the converter one of RFC 2152. -/
theorem reads_strict {s : List Byte} {w : List Nat} (h : Reads implemented s w) :
    (∀ a c b, s = a ++ 0x2b :: c :: b → c ∈ alphabet ∨ c = 0x2d) → (∀ a c, s = a ++ [c] → c ∉ alphabet) → (∀ c ∈ w, ¬ Low c) →
    Reads documented s w := by
  induction h with
  | nil => intro _ _ _; exact .nil
  | @direct c s w h1 _ ih =>
    intro ha hb hc
    exact .direct h1 (ih (fun a x b e => ha (c :: a) x b (by rw [e]; rfl)) (fun a x e => hb (c :: a) x (by rw [e]; rfl))
      fun x hx => hc x (List.mem_cons_of_mem _ hx))
  | @plus s w _ ih =>
    intro ha hb hc
    exact .plus (ih (fun a x b e => ha (0x2b :: 0x2d :: a) x b (by rw [e]; rfl)) (fun a x e => hb (0x2b :: 0x2d :: a) x (by rw [e]; rfl))
      fun x hx => hc x (List.mem_cons_of_mem _ hx))
  | @dash vs us ws s w h1 h2 h3 _ ih =>
    intro ha hb hc
    refine .dash h1 h2 (units_widen h3 fun _ => .inr fun c hx => hc c (List.mem_append_left _ hx)) (ih (fun a x b e => ?_) (fun a x e => ?_)
      fun x hx => hc x (List.mem_append_right _ hx))
    · exact ha (0x2b :: (vs.map chr ++ 0x2d :: a)) x b (by rw [e]; simp)
    · exact hb (0x2b :: (vs.map chr ++ 0x2d :: a)) x (by rw [e]; simp)
  | @stop vs us ws c s w h1 h2 h3 h4 h5 _ ih =>
    intro ha hb hc
    refine .stop (.inl ?_) h2 (units_widen h3 fun _ => .inr fun c hx => hc c (List.mem_append_left _ hx)) h4 h5 (ih (fun a x b e => ?_) (fun a x e => ?_)
      fun x hx => hc x (List.mem_append_right _ hx))
    · intro e
      subst e
      rcases ha [] c s rfl with h | h
      · exact h4 h
      · exact h5 h
    · exact ha (0x2b :: (vs.map chr ++ a)) x b (by rw [e]; simp)
    · exact hb (0x2b :: (vs.map chr ++ a)) x (by rw [e]; simp)
  | @last vs us ws r h1 h2 _ _ =>
    intro _ hb _
    exfalso
    have e := List.dropLast_concat_getLast h1
    refine hb (0x2b :: vs.dropLast.map chr) (chr (vs.getLast h1)) ?_ ((alphabet_iff _).2 ⟨_, h2.1 _ (List.getLast_mem h1), rfl⟩)
    have := congrArg (List.map chr) e
    rw [List.map_append] at this
    rw [← this]
    rfl

end Rfc2152

open Rfc2152 (Reads documented implemented alphabet Low)

/-- C55, exactly. The converter accepts what `implemented` says beyond RFC 2152. -/
theorem C55_reads : ∀ (s : List Byte) (w : List Nat), utf7_entry.Text s w ↔ Reads implemented s w := Rfc2152.text_iff

/-- C55: every text of RFC 2152 is read as the RFC says. -/
theorem C55_accepts : ∀ (s : List Byte) (w : List Nat), Reads documented s w → utf7_entry.Text s w :=
  fun s w h => (C55_reads s w).2 (Rfc2152.reads_widen h)

/-- C55 for input in which every `+` is followed by a byte of set B or `-` and which does not end in set B, and texts
without halves of surrogate pairs: exactly the texts of RFC 2152. Missing: see `C55_empty_violation`,
`C55_pad_violation`, `C55_surrogate_violation`. -/
theorem C55_partial : ∀ (s : List Byte) (w : List Nat), (∀ a c b, s = a ++ 0x2b :: c :: b → c ∈ alphabet ∨ c = 0x2d) →
    (∀ a c, s = a ++ [c] → c ∉ alphabet) → (∀ c ∈ w, ¬ Low c) → (utf7_entry.Text s w ↔ Reads documented s w) :=
  fun s w h1 h2 h3 => ⟨fun h => Rfc2152.reads_strict ((C55_reads s w).1 h) h1 h2 h3, C55_accepts s w⟩

/-! ## Writing -/

namespace Rfc2152

theorem map_u7b_chr {vs : List Nat} (h : ∀ v ∈ vs, v < 64) : vs.map u7b = vs.map chr :=
  List.map_congr_left fun v hv => (chr_eq v (h v hv)).symm

theorem units_of {cs : List Nat} (h : ∀ c ∈ cs, Scalar c) : Units documented (cs.flatMap utf16Units) cs := by
  induction cs with
  | nil => exact .nil
  | cons c cs ih =>
    have ih := ih fun x hx => h x (List.mem_cons_of_mem _ hx)
    have hc := h c (List.mem_cons_self ..)
    unfold Scalar at hc
    rw [List.flatMap_cons]
    unfold utf16Units
    split
    · exact .one (by omega) (by unfold High; omega) (by unfold Low; omega) ih
    · have := Units.pair (v := documented) (u1 := 0xd800 + (c - 0x10000) / 1024) (u2 := 0xdc00 + (c - 0x10000) % 1024) (by unfold High; omega)
        (by unfold Low; omega) ih
      rw [show 0x10000 + (0xd800 + (c - 0x10000) / 1024 - 0xd800) * 0x400 + (0xdc00 + (c - 0x10000) % 1024 - 0xdc00) = c by omega] at this
      exact this

/-- The values of a run with the bits left at its end. -/
theorem run_bits {cs : List Nat} (h : ∀ c ∈ cs, c < 0x110000 ∧ u7_isdirect c = false) :
    ∃ vs os, utf7_encoder.text 1 cs = some (List.map u7b vs, os) ∧ u7J os ∧ os % 4 ≠ 0 ∧ ∃ vs', (∀ v ∈ vs', v < 64) ∧
      Bits vs' (cs.flatMap utf16Units) 0 ∧
      ∀ m, vs'.map chr ++ (if m then [0x2d] else []) = vs.map u7b ++ (u7leave os m).map u8 := by
  obtain ⟨vs, os, h1, h2, h3, h4, h5, h6⟩ := u7_run_digits cs 1 0 (.inr (.inl rfl)) (by omega) h
  have hp1 : u7p 1 = 0 := rfl
  have hd1 : u7d 1 = 0 := rfl
  rw [hp1] at h5
  rw [hp1, hd1, show 0 * 2 ^ 0 + 0 = 0 from rfl] at h6
  refine ⟨vs, os, h1, h2, h3, ?_⟩
  have hm : ∀ m : Bool, (if m then [(0x2d : Byte)] else []) = (if m then [0x2d] else [] : List Nat).map u8 := by
    intro m; cases m <;> rfl
  by_cases g : os % 4 ≥ 2
  · have hd64 : os / 4 * 4 < 64 := by unfold u7J at h2; omega
    have hv' : ∀ v ∈ vs ++ [os / 4 * 4], v < 64 := by
      intro v hv
      rw [List.mem_append] at hv
      rcases hv with hv | hv
      · exact h4 v hv
      · simp only [List.mem_singleton] at hv; omega
    refine ⟨vs ++ [os / 4 * 4], hv', ⟨hv', 6 - u7p os, ?_, ?_, Nat.two_pow_pos _, ?_⟩, fun m => ?_⟩
    · unfold u7p
      by_cases g2 : os % 4 = 2
      · rw [if_pos g2]; omega
      · rw [if_neg g2, if_pos (by omega)]; omega
    · rw [List.length_append, List.length_singleton]
      unfold u7p at h5 ⊢
      by_cases g2 : os % 4 = 2
      · rw [if_pos g2] at h5 ⊢; omega
      · rw [if_neg g2, if_pos (by omega)] at h5 ⊢; omega
    · unfold number
      rw [← h6, List.foldl_append]
      simp only [List.foldl_cons, List.foldl_nil]
      unfold u7J at h2
      unfold u7p u7d
      by_cases g2 : os % 4 = 2
      · rw [if_pos g2, if_pos g2]; omega
      · rw [if_neg g2, if_pos (by omega), if_neg g2, if_pos (by omega)]; omega
    · unfold u7leave
      rw [if_pos g, ← map_u7b_chr hv', hm m]
      simp [u7b]
  · refine ⟨vs, h4, ⟨h4, 0, by omega, ?_, by simp, ?_⟩, fun m => ?_⟩
    · unfold u7p at h5
      rw [if_neg (by omega), if_neg (by omega)] at h5
      omega
    · unfold number
      unfold u7p u7d at h6
      rw [if_neg (by omega), if_neg (by omega), if_neg (by omega), if_neg (by omega)] at h6
      rw [← h6]
      omega
    · unfold u7leave
      rw [if_neg g, ← map_u7b_chr h4, hm m]
      simp

theorem xbase64_iff {c : Nat} (h : u7_isdirect c = true) : u8 c ∈ direct ∧ (u8 c).toNat = c ∧
    (u7_isxbase64 c = false → u8 c ∉ alphabet ∧ u8 c ≠ 0x2d) := by
  have key : ∀ c, c < 128 → u7_isdirect c = true → u8 c ∈ direct ∧ (u8 c).toNat = c ∧
    (u7_isxbase64 c = false → u8 c ∉ alphabet ∧ u8 c ≠ 0x2d) := by decide +kernel
  exact key c (u7_direct_lt h) h

/-- The characters before the first that is written as it is. -/
theorem span_direct (w : List Nat) : ∃ cs rest, w = cs ++ rest ∧ (∀ c ∈ cs, u7_isdirect c = false) ∧
    (rest = [] ∨ ∃ c r, rest = c :: r ∧ u7_isdirect c = true) := by
  induction w with
  | nil => exact ⟨[], [], rfl, by simp, .inl rfl⟩
  | cons c w ih =>
    cases hc : u7_isdirect c with
    | true => exact ⟨[], c :: w, rfl, by simp, .inr ⟨c, w, rfl, hc⟩⟩
    | false =>
      obtain ⟨cs, rest, rfl, h1, h2⟩ := ih
      refine ⟨c :: cs, rest, rfl, ?_, h2⟩
      intro x hx
      rcases List.mem_cons.1 hx with rfl | hx
      · exact hc
      · exact h1 x hx

theorem writes : ∀ (n : Nat) (w : List Nat), w.length ≤ n → (∀ c ∈ w, Scalar c) → ∀ bs os, utf7_encoder.text 0 w = some (bs, os) →
    Reads documented (bs ++ utf7_encoder.tail os) w := by
  intro n
  induction n with
  | zero =>
    intro w hn _ bs os h
    have := List.length_eq_zero_iff.1 (Nat.le_zero.1 hn)
    subst this
    simp only [Encoder.text, Option.some.injEq, Prod.mk.injEq] at h
    obtain ⟨rfl, rfl⟩ := h
    rw [u7_tail (.inl rfl)]
    exact .nil
  | succ n ih =>
    intro w hn hw bs os h
    cases w with
    | nil =>
      simp only [Encoder.text, Option.some.injEq, Prod.mk.injEq] at h
      obtain ⟨rfl, rfl⟩ := h
      rw [u7_tail (.inl rfl)]
      exact .nil
    | cons c w =>
      have hc := hw c (List.mem_cons_self ..)
      have hw' : ∀ x ∈ w, Scalar x := fun x hx => hw x (List.mem_cons_of_mem _ hx)
      simp only [List.length_cons] at hn
      have hlt : c < 0x110000 := by unfold Scalar at hc; omega
      -- one character in state 0, with the next state 0
      have one : ∀ b : List Nat, u7enc 0 c = some (b, 0) → ∃ bs', utf7_encoder.text 0 w = some (bs', os) ∧ bs = b.map u8 ++ bs' := by
        intro b hb
        simp only [Encoder.text] at h
        rw [u7_rep (.inl rfl), hb] at h
        simp only [Option.map_some] at h
        cases hx : utf7_encoder.text 0 w with
        | none => rw [hx] at h; cases h
        | some x =>
          obtain ⟨b1, o1⟩ := x
          rw [hx] at h
          simp only [Option.some.injEq, Prod.mk.injEq] at h
          obtain ⟨rfl, rfl⟩ := h
          exact ⟨b1, rfl, rfl⟩
      cases hd : u7_isdirect c with
      | true =>
        obtain ⟨bs', h1, rfl⟩ := one [c] (by unfold u7enc; rw [if_pos hd, if_pos rfl]; rfl)
        obtain ⟨g1, g2, _⟩ := xbase64_iff hd
        have := Reads.direct (v := documented) g1 (ih w (by omega) hw' bs' os h1)
        rw [g2] at this
        exact this
      | false =>
        by_cases hp : c = 0x2b
        · obtain ⟨bs', h1, rfl⟩ := one [0x2b, 0x2d] (by unfold u7enc; rw [hd, if_neg (by simp), if_pos ⟨rfl, hp⟩])
          subst hp
          exact .plus (ih w (by omega) hw' bs' os h1)
        · obtain ⟨cs, rest, hcs, h1, h2⟩ := span_direct (c :: w)
          have hne : cs ≠ [] := by
            intro e
            subst e
            rcases h2 with rfl | ⟨x, r, rfl, hx⟩
            · cases hcs
            · cases hcs
              rw [hd] at hx
              cases hx
          have hcs' : ∀ x ∈ cs, Scalar x := fun x hx => hw x (by rw [hcs]; exact List.mem_append_left _ hx)
          obtain ⟨vs, o1, t1, hJ, h0, vs', hv', hB, hm⟩ := run_bits (cs := cs) fun x hx => ⟨by have := hcs' x hx; unfold Scalar at this; omega, h1 x hx⟩
          have ht : utf7_encoder.text 0 cs = some (u8 0x2b :: vs.map u7b, o1) := by
            match cs, hne, hcs, t1 with
            | c' :: cs, _, hcs, t1 =>
              cases hcs
              have e0 : u7enc 0 c = some (0x2b :: (u7body 1 c).1.map u7c, (u7body 1 c).2) := by
                unfold u7enc
                rw [hd, if_neg (by simp), if_neg (fun h => hp h.2), if_pos hlt, if_pos rfl]
              have e1 : u7enc 1 c = some ((u7body 1 c).1.map u7c, (u7body 1 c).2) := by
                unfold u7enc
                rw [hd, if_neg (by simp), if_neg (fun h => hp h.2), if_pos hlt, if_neg (by omega)]
              simp only [Encoder.text] at t1 ⊢
              rw [u7_rep (.inr (.inl rfl)), e1] at t1
              rw [u7_rep (.inl rfl), e0]
              simp only [Option.map_some] at t1 ⊢
              cases hx : utf7_encoder.text (u7body 1 c).2 cs with
              | none => rw [hx] at t1; cases t1
              | some x =>
                obtain ⟨r, o⟩ := x
                rw [hx] at t1
                simp only [Option.some.injEq, Prod.mk.injEq] at t1 ⊢
                rw [← t1.1, t1.2]
                exact ⟨rfl, rfl⟩
          have hvne : vs' ≠ [] := by
            intro e
            subst e
            obtain ⟨_, pad, q1, q2, _⟩ := hB
            match cs, hne with
            | c' :: cs, _ =>
              have : 1 ≤ (utf16Units c').length := by unfold utf16Units; split <;> simp
              simp at q2
              omega
          rw [hcs] at h ⊢
          rw [Encoder.text_append, ht] at h
          rcases h2 with rfl | ⟨x, r, rfl, hx⟩
          · simp only [Encoder.text, Option.some.injEq, Prod.mk.injEq] at h
            obtain ⟨rfl, rfl⟩ := h
            have := Reads.dash hvne hB (units_of hcs') (.nil)
            rw [show vs'.map chr ++ [0x2d] = _ from hm true] at this
            rw [u7_tail hJ, if_neg h0, List.append_nil]
            simpa [show u8 0x2b = 0x2b from rfl] using this
          · have hr : ∀ y ∈ r, Scalar y := fun y hy => hw y (by rw [hcs]; simp [hy])
            have hrl : r.length ≤ n := by
              have := congrArg List.length hcs
              simp at this
              omega
            have ex : u7enc o1 x = some (u7leave o1 (u7_isxbase64 x) ++ [x], 0) := by
              unfold u7enc
              rw [if_pos hx, if_neg h0]
            simp only [Encoder.text] at h
            rw [u7_rep hJ, ex] at h
            simp only [Option.map_some] at h
            cases hy : utf7_encoder.text 0 r with
            | none => rw [hy] at h; cases h
            | some y =>
              obtain ⟨b1, o2⟩ := y
              rw [hy] at h
              simp only [Option.some.injEq, Prod.mk.injEq] at h
              obtain ⟨rfl, rfl⟩ := h
              have hR := ih r hrl hr b1 _ hy
              obtain ⟨g1, g2, g3⟩ := xbase64_iff hx
              have hR2 := Reads.direct g1 hR
              rw [g2] at hR2
              have em := hm (u7_isxbase64 x)
              have goal : Reads documented (0x2b :: (vs'.map chr ++ (if u7_isxbase64 x then [0x2d] else []) ++ u8 x :: (b1 ++ utf7_encoder.tail o2)))
                  (cs ++ x :: r) := by
                cases hb : u7_isxbase64 x with
                | true =>
                  have := Reads.dash hvne hB (units_of hcs') hR2
                  simpa using this
                | false =>
                  obtain ⟨g4, g5⟩ := g3 hb
                  have := Reads.stop (.inl hvne) hB (units_of hcs') g4 g5 hR2
                  simpa using this
              rw [em] at goal
              simpa [show u8 0x2b = 0x2b from rfl] using goal

end Rfc2152

/-- C55, writing: what is written is a text of RFC 2152 with the same characters. -/
theorem C55_writes : ∀ (w : List Nat) (s : List Byte), (∀ c ∈ w, Scalar c) → utf7_entry.Encodes w s → Reads documented s w := by
  rintro w s hw ⟨bs, os, h1, rfl⟩
  exact Rfc2152.writes w.length w (Nat.le_refl _) hw bs os h1

/-- The text of RFC 2152 with the characters is unique up to its form: what is read is determined by the bytes. -/
theorem C55_unique : ∀ (s : List Byte) (w w' : List Nat), Reads documented s w → Reads documented s w' → w = w' := by
  intro s w w' h1 h2
  exact (C55_accepts s w h1).det (C55_accepts s w' h2)

/-- C55 at the API: a text of RFC 2152 is converted to UCS-4BE as it should be, and input that is not one of the texts
accepted makes every conversion fail with `EILSEQ`. -/
theorem C55_convert : ∀ (inp : List Byte) (alloc : Nat → List Byte), (∀ n, (alloc n).length = n) →
    (∀ w, Reads documented inp w → ∃ y, convert (utf7_entry.conv ucs4be_entry false) St.init inp true true
      (fun n => some (alloc n)) = .ok y ∧ y.ret = .ok () ∧ y.data = some (w.flatMap b32)) ∧
    ((¬ ∃ w, Reads implemented inp w) → ∀ B : Entry,
      ∃ s1, resultSize (utf7_entry.conv B false) St.init inp = .ok (.error .EILSEQ, s1) ∧
        convert (utf7_entry.conv B false) St.init inp true true (fun n => some (alloc n)) = .ok ⟨.error .EILSEQ, s1, none, none⟩) := by
  intro inp alloc hal
  obtain ⟨h1, h2⟩ := decode_api (A := utf7_entry) (st_fixed _ _) inp alloc hal
  refine ⟨fun w hw => h1 w (C55_accepts inp w hw), fun hn => h2 ?_⟩
  rintro ⟨w, hw⟩
  exact hn ⟨w, (C55_reads inp w).1 hw⟩

/-- The texts of RFC 2152, section "Examples": "A≢Α.", "Hi Mom -☺-!", "日本語" and "Item 3 is £1.". -/
example : Reads documented (Rfc2152.codes "A+ImIDkQ.") [0x41, 0x2262, 0x391, 0x2e] ∧
    Reads documented (Rfc2152.codes "Hi Mom -+Jjo--!") [0x48, 0x69, 0x20, 0x4d, 0x6f, 0x6d, 0x20, 0x2d, 0x263a, 0x2d, 0x21] ∧
    Reads documented (Rfc2152.codes "+ZeVnLIqe-") [0x65e5, 0x672c, 0x8a9e] ∧
    Reads documented (Rfc2152.codes "Item 3 is +AKM-1.") [0x49, 0x74, 0x65, 0x6d, 0x20, 0x33, 0x20, 0x69, 0x73, 0x20, 0xa3, 0x31, 0x2e] := by
  rw [show Rfc2152.codes "A+ImIDkQ." = [0x41, 0x2b, 0x49, 0x6d, 0x49, 0x44, 0x6b, 0x51, 0x2e] by decide +kernel,
    show Rfc2152.codes "Hi Mom -+Jjo--!" = [0x48, 0x69, 0x20, 0x4d, 0x6f, 0x6d, 0x20, 0x2d, 0x2b, 0x4a, 0x6a, 0x6f, 0x2d, 0x2d, 0x21] by decide +kernel,
    show Rfc2152.codes "+ZeVnLIqe-" = [0x2b, 0x5a, 0x65, 0x56, 0x6e, 0x4c, 0x49, 0x71, 0x65, 0x2d] by decide +kernel,
    show Rfc2152.codes "Item 3 is +AKM-1." = [0x49, 0x74, 0x65, 0x6d, 0x20, 0x33, 0x20, 0x69, 0x73, 0x20, 0x2b, 0x41, 0x4b, 0x4d, 0x2d, 0x31, 0x2e] by decide +kernel]
  refine ⟨?_, ?_, ?_, ?_⟩
  · refine .direct ((Rfc2152.direct_iff _).2 (by decide)) (.stop (vs := [8, 38, 8, 3, 36, 16]) (us := [0x2262, 0x391]) (ws := [0x2262, 0x391])
      (.inl (by simp)) ⟨by decide, 4, by decide, by decide, by decide, by decide⟩
      (.one (by decide) (by unfold Rfc2152.High; omega) (by unfold Rfc2152.Low; omega) (.one (by decide) (by unfold Rfc2152.High; omega) (by unfold Rfc2152.Low; omega) .nil))
      ((Rfc2152.val_none _).1 (by decide)) (by decide) (.direct ((Rfc2152.direct_iff _).2 (by decide)) .nil))
  · iterate 8 refine .direct ((Rfc2152.direct_iff _).2 (by decide)) ?_
    refine .dash (vs := [9, 35, 40]) (us := [0x263a]) (ws := [0x263a]) (by simp) ⟨by decide, 2, by decide, by decide, by decide, by decide⟩
      (.one (by decide) (by unfold Rfc2152.High; omega) (by unfold Rfc2152.Low; omega) .nil) ?_
    iterate 2 refine .direct ((Rfc2152.direct_iff _).2 (by decide)) ?_
    exact .nil
  · exact .dash (vs := [25, 30, 21, 39, 11, 8, 42, 30]) (us := [0x65e5, 0x672c, 0x8a9e]) (ws := [0x65e5, 0x672c, 0x8a9e]) (by simp)
      ⟨by decide, 0, by decide, by decide, by decide, by decide⟩ (.one (by decide) (by unfold Rfc2152.High; omega) (by unfold Rfc2152.Low; omega)
      (.one (by decide) (by unfold Rfc2152.High; omega) (by unfold Rfc2152.Low; omega)
        (.one (by decide) (by unfold Rfc2152.High; omega) (by unfold Rfc2152.Low; omega) .nil))) .nil
  · iterate 10 refine .direct ((Rfc2152.direct_iff _).2 (by decide)) ?_
    refine .dash (vs := [0, 10, 12]) (us := [0xa3]) (ws := [0xa3]) (by simp) ⟨by decide, 2, by decide, by decide, by decide, by decide⟩
      (.one (by decide) (by unfold Rfc2152.High; omega) (by unfold Rfc2152.Low; omega) .nil) ?_
    iterate 2 refine .direct ((Rfc2152.direct_iff _).2 (by decide)) ?_
    exact .nil

/-! ## Where the converter accepts more -/

/-- The texts of RFC 2152 that begin with `+`. -/
theorem Rfc2152.Reads.plus_inv {v : Rfc2152.Variant} {s : List Byte} {w : List Nat} (h : Reads v (0x2b :: s) w) :
    (∃ s', s = 0x2d :: s') ∨ ∃ vs us ws r, Rfc2152.Bits vs us r ∧ Rfc2152.Units v us ws ∧
      ((vs ≠ [] ∧ ∃ t, s = vs.map Rfc2152.chr ++ 0x2d :: t) ∨ (r = 0 ∧ (vs ≠ [] ∨ v.emptyRun = true) ∧ ∃ c t, c ∉ alphabet ∧ s = vs.map Rfc2152.chr ++ c :: t) ∨
        (vs ≠ [] ∧ (r = 0 ∨ v.anyPad = true) ∧ s = vs.map Rfc2152.chr)) := by
  cases h with
  | direct h => exact absurd h (by decide +kernel)
  | plus => exact .inl ⟨_, rfl⟩
  | dash h1 h2 h3 => exact .inr ⟨_, _, _, _, h2, h3, .inl ⟨h1, _, rfl⟩⟩
  | stop h1 h2 h3 h4 => exact .inr ⟨_, _, _, _, h2, h3, .inr (.inl ⟨rfl, h1, _, _, h4, rfl⟩)⟩
  | last h1 h2 h3 h4 => exact .inr ⟨_, _, _, _, h2, h4, .inr (.inr ⟨h1, h3, rfl⟩)⟩

/-- Where base64 ends is determined. -/
theorem Rfc2152.values_unique : ∀ (vs vs' : List Nat) (t t' : List Byte), (∀ v ∈ vs, v < 64) → (∀ v ∈ vs', v < 64) →
    (∀ c s, t = c :: s → c ∉ alphabet) → (∀ c s, t' = c :: s → c ∉ alphabet) →
    vs.map Rfc2152.chr ++ t = vs'.map Rfc2152.chr ++ t' → vs = vs' := by
  intro vs
  induction vs with
  | nil =>
    intro vs' t t' _ h2 h3 _ e
    cases vs' with
    | nil => rfl
    | cons v' vs' => exact absurd ((Rfc2152.alphabet_iff _).2 ⟨v', h2 v' (List.mem_cons_self ..), rfl⟩) (h3 _ _ e)
  | cons v vs ih =>
    intro vs' t t' h1 h2 h3 h4 e
    cases vs' with
    | nil => exact absurd ((Rfc2152.alphabet_iff _).2 ⟨v, h1 v (List.mem_cons_self ..), rfl⟩) (h4 _ _ e.symm)
    | cons v' vs' =>
      simp only [List.map_cons, List.cons_append, List.cons.injEq] at e
      have e1 := Rfc2152.chr_val (h1 v (List.mem_cons_self ..))
      rw [e.1, Rfc2152.chr_val (h2 v' (List.mem_cons_self ..))] at e1
      cases e1
      rw [ih vs' t t' (fun x hx => h1 x (List.mem_cons_of_mem _ hx)) (fun x hx => h2 x (List.mem_cons_of_mem _ hx)) h3 h4 e.2]

/-- Base64 from the beginning of the input: the values of a text with `t` behind them are `vs`. -/
theorem Rfc2152.Reads.values {v : Rfc2152.Variant} {vs : List Nat} {t : List Byte} {w : List Nat} (hv : ∀ x ∈ vs, x < 64)
    (ht : ∀ c s, t = c :: s → c ∉ alphabet) (hn : (vs.map Rfc2152.chr ++ t).head? ≠ some 0x2d)
    (h : Reads v (0x2b :: (vs.map Rfc2152.chr ++ t)) w) :
    ∃ us ws r, Rfc2152.Bits vs us r ∧ Rfc2152.Units v us ws ∧ (vs ≠ [] ∨ v.emptyRun = true) ∧ (t ≠ [] ∨ r = 0 ∨ v.anyPad = true) := by
  have hd : (0x2d : Byte) ∉ alphabet := (Rfc2152.val_none _).1 (by decide)
  rcases h.plus_inv with ⟨s', e⟩ | ⟨vs', us, ws, r, hB, hu, ⟨h1, t', e⟩ | ⟨hr, h1, c, t', hc, e⟩ | ⟨h1, hr, e⟩⟩
  · rw [e] at hn
    simp at hn
  · have e' := Rfc2152.values_unique vs vs' t _ hv hB.1 ht (fun c s e => by cases e; exact hd) e
    subst e'
    have := List.append_cancel_left e
    exact ⟨us, ws, r, hB, hu, .inl h1, .inl (by rw [this]; simp)⟩
  · have e' := Rfc2152.values_unique vs vs' t _ hv hB.1 ht (fun c s e => by cases e; exact hc) e
    subst e'
    exact ⟨us, ws, r, hB, hu, h1, .inr (.inl hr)⟩
  · have e' := Rfc2152.values_unique vs vs' t [] hv hB.1 ht (fun c s e => by cases e) (by rw [e, List.append_nil])
    subst e'
    exact ⟨us, ws, r, hB, hu, .inl h1, .inr hr⟩

/-- The violation: `+!`, which RFC 2152 calls ill-formed, is accepted, as `!`. -/
theorem C55_empty_violation : utf7_entry.Text [0x2b, 0x21] [0x21] ∧ ∀ w, ¬ Reads documented [0x2b, 0x21] w := by
  have hd : (0x21 : Byte) ∉ alphabet := (Rfc2152.val_none _).1 (by decide)
  constructor
  · exact (C55_reads _ _).2 (.stop (vs := []) (us := []) (ws := []) (.inr rfl) ⟨by simp, 0, by decide, by decide, by decide, by decide⟩ .nil hd
      (by decide) (.direct ((Rfc2152.direct_iff _).2 (by decide)) .nil))
  · intro w h
    obtain ⟨_, _, _, _, _, h, _⟩ := Rfc2152.Reads.values (vs := []) (t := [0x21]) (by simp) (fun c s e => by cases e; exact hd) (by decide) h
    rcases h with h | h
    · exact h rfl
    · cases h

/-- The violation: at the end of the input, bits other than zero behind the last unit are accepted: `+AGF` is `a`. -/
theorem C55_pad_violation : utf7_entry.Text [0x2b, 0x41, 0x47, 0x46] [0x61] ∧ ∀ w, ¬ Reads documented [0x2b, 0x41, 0x47, 0x46] w := by
  have e : ([0x41, 0x47, 0x46] : List Byte) = [0, 6, 5].map Rfc2152.chr := by decide +kernel
  rw [e]
  constructor
  · exact (C55_reads _ _).2 (.last (us := [0x61]) (r := 1) (by simp) ⟨by decide, 2, by decide, by decide, by decide, by decide⟩ (.inr rfl)
      (.one (by decide) (by unfold Rfc2152.High; omega) (by unfold Rfc2152.Low; omega) .nil))
  · intro w h
    obtain ⟨us, ws, r, ⟨_, pad, h1, h2, h3, h4⟩, _, _, h⟩ := Rfc2152.Reads.values (vs := [0, 6, 5]) (t := []) (by decide) (fun c s e => by cases e)
      (by decide +kernel) (by rw [List.append_nil]; exact h)
    rcases h with h | h | h
    · exact h rfl
    · subst h
      rw [show [0, 6, 5].length = 3 from rfl] at h2
      rw [show pad = 2 by omega, show Rfc2152.number 64 [0, 6, 5] = 389 from by decide] at h4
      omega
    · cases h

/-- The violation: the second half of a surrogate pair without the first is accepted. -/
theorem C55_surrogate_violation : utf7_entry.Text [0x2b, 0x33, 0x41, 0x41, 0x2d] [0xdc00] ∧
    ∀ w, ¬ Reads documented [0x2b, 0x33, 0x41, 0x41, 0x2d] w := by
  have hd : (0x2d : Byte) ∉ alphabet := (Rfc2152.val_none _).1 (by decide)
  have e : ([0x33, 0x41, 0x41, 0x2d] : List Byte) = [55, 0, 0].map Rfc2152.chr ++ [0x2d] := by decide +kernel
  rw [e]
  constructor
  · exact (C55_reads _ _).2 (.dash (us := [0xdc00]) (ws := [0xdc00]) (by simp) ⟨by decide, 2, by decide, by decide, by decide, by decide⟩
      (.low rfl ⟨by decide, by decide⟩ .nil) .nil)
  · intro w h
    obtain ⟨us, ws, r, ⟨_, pad, h1, h2, h3, h4⟩, hu, _⟩ := Rfc2152.Reads.values (vs := [55, 0, 0]) (t := [0x2d]) (by decide)
      (fun c s e => by cases e; exact hd) (by decide +kernel) h
    rw [show [55, 0, 0].length = 3 from rfl] at h2
    rw [show pad = 2 by omega] at h3 h4
    have hl : us.length = 1 := by omega
    match us, hl with
    | [u], _ =>
      have hn : Rfc2152.number 65536 [u] = u := by simp [Rfc2152.number]
      rw [show Rfc2152.number 64 [55, 0, 0] = 225280 from by decide, hn] at h4
      have hu' : u = 0xdc00 := by omega
      subst hu'
      cases hu with
      | one _ _ h => exact h ⟨by decide, by decide⟩
      | low h => cases h

end Reiconv
