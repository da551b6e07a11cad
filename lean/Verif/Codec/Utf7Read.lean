import Verif.Rfc2152
import Verif.Codec.Utf7Sim
import Verif.Codec.IsoRead

/-!
# The UTF-7 decoder follows the specification
-/

namespace Reiconv.Rfc2152

/-! ## Characters -/

theorem chr_eq : ∀ v, v < 64 → chr v = u7b v := by decide +kernel

theorem chr_val {v : Nat} (h : v < 64) : u7val (chr v).toNat = some v := by
  rw [chr_eq v h, u7b_toNat h]; exact (u7c_val v h).1

theorem alphabet_iff (c : Byte) : c ∈ alphabet ↔ ∃ v, v < 64 ∧ c = chr v := by
  constructor
  · intro h
    have key : ∀ c ∈ alphabet, c = chr (alphabet.idxOf c) ∧ alphabet.idxOf c < 64 := by decide +kernel
    exact ⟨_, (key c h).2, (key c h).1⟩
  · rintro ⟨v, h, rfl⟩
    have key : ∀ v, v < 64 → chr v ∈ alphabet := by decide +kernel
    exact key v h

theorem val_some {c : Byte} {v : Nat} (h : u7val c.toNat = some v) : v < 64 ∧ c = chr v := by
  refine ⟨u7val_lt h, ?_⟩
  have key : ∀ n, n < 256 → ∀ v, u7val n = some v → u8 n = chr v := by
    have : ∀ n, n < 256 → (match u7val n with | none => true | some v => u8 n == chr v) = true := by decide +kernel
    intro n hn v hv
    have := this n hn
    rw [hv] at this
    simpa using this
  have := key c.toNat c.toNat_lt v h
  rwa [u8_of_toNat] at this

theorem val_none (c : Byte) : u7val c.toNat = none ↔ c ∉ alphabet := by
  rw [alphabet_iff]
  constructor
  · rintro h ⟨v, hv, rfl⟩
    rw [chr_val hv] at h
    cases h
  · intro h
    cases hv : u7val c.toNat with
    | none => rfl
    | some v => exact absurd ⟨v, val_some hv⟩ h

theorem direct_iff (c : Byte) : c ∈ direct ↔ u7_isxdirect c.toNat = true := by
  have key : ∀ n, n < 256 → decide (u8 n ∈ direct) = u7_isxdirect n := by decide +kernel
  have := key c.toNat c.toNat_lt
  rw [u8_of_toNat] at this
  rw [← this]
  simp

/-! ## Numbers -/

theorem foldl_number (b : Nat) : ∀ (ds : List Nat) (a : Nat),
    ds.foldl (fun a d => a * b + d) a = a * b ^ ds.length + number b ds := by
  intro ds
  induction ds with
  | nil => intro a; simp [number]
  | cons d ds ih =>
    intro a
    unfold number
    rw [List.foldl_cons, List.foldl_cons, ih, ih (0 * b + d), List.length_cons, Nat.pow_succ, Nat.zero_mul, Nat.zero_add, Nat.add_mul,
      Nat.add_assoc, Nat.mul_assoc, Nat.mul_comm b]

theorem number_append (b : Nat) (xs ys : List Nat) : number b (xs ++ ys) = number b xs * b ^ ys.length + number b ys := by
  rw [number, List.foldl_append, foldl_number]
  rfl

theorem number_cons (b x : Nat) (ys : List Nat) : number b (x :: ys) = x * b ^ ys.length + number b ys := by
  rw [show x :: ys = [x] ++ ys from rfl, number_append]
  simp [number]

theorem number_lt {b : Nat} : ∀ (ds : List Nat), (∀ d ∈ ds, d < b) → number b ds < b ^ ds.length := by
  intro ds
  induction ds with
  | nil => intro _; simp [number]
  | cons d ds ih =>
    intro h
    rw [number_cons, List.length_cons, Nat.pow_succ]
    have h1 := ih fun x hx => h x (List.mem_cons_of_mem _ hx)
    have h2 := h d (List.mem_cons_self ..)
    calc d * b ^ ds.length + number b ds < d * b ^ ds.length + b ^ ds.length := by omega
      _ = (d + 1) * b ^ ds.length := by rw [Nat.succ_mul]
      _ ≤ b * b ^ ds.length := Nat.mul_le_mul_right _ h2
      _ = b ^ ds.length * b := Nat.mul_comm ..

theorem split_unique {M a b x y : Nat} (hx : x < M) (hy : y < M) (h : a * M + x = b * M + y) : a = b ∧ x = y := by
  have h1 : (a * M + x) / M = a := by
    rw [Nat.mul_comm, Nat.mul_add_div (by omega), Nat.div_eq_of_lt hx]; rfl
  have h2 : (b * M + y) / M = b := by
    rw [Nat.mul_comm, Nat.mul_add_div (by omega), Nat.div_eq_of_lt hy]; rfl
  have : a = b := by rw [← h1, h, h2]
  subst this
  exact ⟨rfl, by omega⟩

theorem pow64 (n : Nat) : 64 ^ n = 2 ^ (6 * n) := by rw [Nat.pow_mul]
theorem pow65536 (n : Nat) : 65536 ^ n = 2 ^ (16 * n) := by rw [Nat.pow_mul]

/-- The first `n` of the values `vs`, after `p` bits with the value `d`, are `m` bits with the value `U`, and `p'` bits
more with the value `d'`. -/
structure First (p d : Nat) (vs : List Nat) (n U m p' d' : Nat) : Prop where
  le : n ≤ vs.length
  bits : p + 6 * n = m + p'
  few : p' < 6
  lt : d' < 2 ^ p'
  eq : d * 64 ^ n + number 64 (vs.take n) = U * 2 ^ p' + d'

theorem First.bound {p d : Nat} {vs : List Nat} {n U m p' d' : Nat} (h : First p d vs n U m p' d') (hv : ∀ v ∈ vs, v < 64)
    (hd : d < 2 ^ p) : U < 2 ^ m := by
  have h1 : number 64 (vs.take n) < 64 ^ n := by
    have := number_lt (vs.take n) fun d hd => hv d (List.mem_of_mem_take hd)
    rwa [List.length_take, Nat.min_eq_left h.le] at this
  have h2 : (d + 1) * 64 ^ n ≤ 2 ^ p * 64 ^ n := Nat.mul_le_mul_right _ hd
  have h3 : 2 ^ p * 64 ^ n = 2 ^ m * 2 ^ p' := by rw [pow64, ← Nat.pow_add, ← Nat.pow_add, h.bits]
  rw [Nat.succ_mul] at h2
  have h4 := h.eq
  refine Nat.lt_of_not_le fun h5 => ?_
  have h6 : 2 ^ m * 2 ^ p' ≤ U * 2 ^ p' := Nat.mul_le_mul_right _ h5
  omega

/-- All of the values against the first ones. -/
theorem First.all {p d : Nat} {vs : List Nat} {n U m p' d' : Nat} (h : First p d vs n U m p' d') :
    d * 64 ^ vs.length + number 64 vs = U * 2 ^ (p' + 6 * (vs.drop n).length) + (d' * 64 ^ (vs.drop n).length + number 64 (vs.drop n)) := by
  have e : number 64 vs = number 64 (vs.take n) * 64 ^ (vs.drop n).length + number 64 (vs.drop n) := by
    rw [← number_append, List.take_append_drop]
  have hl : vs.length = n + (vs.drop n).length := by rw [List.length_drop]; have := h.le; omega
  rw [e, Nat.pow_add, ← pow64]
  generalize (vs.drop n).length = l at *
  rw [hl, Nat.pow_add, ← Nat.mul_assoc, ← Nat.add_assoc, ← Nat.add_mul, h.eq, Nat.add_mul, Nat.mul_assoc]
  omega


/-! ## The loop -/

/-- Value of the bits left over. -/
def dv (bst : Nat) : Nat :=
  if bst % 4 = 0 then bst / 4 else if bst % 4 = 1 then 0 else if bst % 4 = 2 then bst / 16 else bst / 64

/-- Six bits more. -/
theorem push_bits {wc k bst i : Nat} (hst : bst = 1 ∨ (bst < 256 ∧ (bst % 4 = 0 ∨ bst % 16 = 2 ∨ bst % 64 = 3))) (hi : i < 64)
    {wc' k' bst' : Nat} (e : u7push wc k bst i = (wc', k', bst')) :
    (wc * 2 ^ u7pb bst + dv bst) * 64 + i = wc' * 2 ^ u7pb bst' + dv bst' ∧ dv bst' < 2 ^ u7pb bst' ∧
      8 * k + u7pb bst + 6 = 8 * k' + u7pb bst' := by
  unfold u7push at e
  by_cases h1 : bst % 4 = 1
  · rw [if_pos h1] at e
    cases e
    have e1 : u7pb bst = 0 := by unfold u7pb; rw [if_neg (by omega), if_pos h1]
    have e2 : dv bst = 0 := by unfold dv; rw [if_neg (by omega), if_pos h1]
    have e3 : u7pb (i * 4) = 6 := by unfold u7pb; rw [if_pos (by omega)]
    have e4 : dv (i * 4) = i := by unfold dv; rw [if_pos (by omega)]; omega
    rw [e1, e2, e3, e4]
    omega
  rw [if_neg h1] at e
  by_cases h0 : bst % 4 = 0
  · rw [if_pos h0] at e
    cases e
    have e1 : u7pb bst = 6 := by unfold u7pb; rw [if_pos h0]
    have e2 : dv bst = bst / 4 := by unfold dv; rw [if_pos h0]
    have e3 : u7pb (i % 16 * 16 + 2) = 4 := by unfold u7pb; rw [if_neg (by omega), if_neg (by omega), if_pos (by omega)]
    have e4 : dv (i % 16 * 16 + 2) = i % 16 := by unfold dv; rw [if_neg (by omega), if_neg (by omega), if_pos (by omega)]; omega
    rw [e1, e2, e3, e4]
    omega
  rw [if_neg h0] at e
  by_cases h2 : bst % 4 = 2
  · rw [if_pos h2] at e
    cases e
    have e1 : u7pb bst = 4 := by unfold u7pb; rw [if_neg h0, if_neg h1, if_pos h2]
    have e2 : dv bst = bst / 16 := by unfold dv; rw [if_neg h0, if_neg h1, if_pos h2]
    have e3 : u7pb (i % 4 * 64 + 3) = 2 := by unfold u7pb; rw [if_neg (by omega), if_neg (by omega), if_neg (by omega)]
    have e4 : dv (i % 4 * 64 + 3) = i % 4 := by unfold dv; rw [if_neg (by omega), if_neg (by omega), if_neg (by omega)]; omega
    rw [e1, e2, e3, e4]
    omega
  rw [if_neg h2] at e
  cases e
  have e1 : u7pb bst = 2 := by unfold u7pb; rw [if_neg h0, if_neg h1, if_neg h2]
  have e2 : dv bst = bst / 64 := by unfold dv; rw [if_neg h0, if_neg h1, if_neg h2]
  have e3 : u7pb 1 = 0 := rfl
  have e4 : dv 1 = 0 := rfl
  rw [e1, e2, e3, e4]
  omega

/-- What becomes of the values `vs` and the bytes `t` that follow, after `p` bits with the value `d`. -/
inductive Out (p d : Nat) (vs : List Nat) (t : List Byte) : Outcome (Option SItem) → Prop
  | none : t = [] → (p + 6 * vs.length < 16 ∧ vs ≠ [] ∨
      p + 6 * vs.length < 32 ∧ ∃ n u p' d', First p d vs n u 16 p' d' ∧ High u) → Out p d vs t (.ok none)
  | dash {t'} : vs = [] → d = 0 → t = 0x2d :: t' → Out p d vs t (.ok (some (.shift 1 0)))
  | stop {c t'} : vs = [] → d = 0 → t = c :: t' → c ∉ alphabet → c ≠ 0x2d → Out p d vs t (.ok (some (.shift 0 0)))
  | ilseq : (t ≠ [] ∧ p + 6 * vs.length < 16 ∧ (vs ≠ [] ∨ d ≠ 0) ∨
      t ≠ [] ∧ p + 6 * vs.length < 32 ∧ (∃ n u p' d', First p d vs n u 16 p' d' ∧ High u) ∨
      ∃ n u p' d', First p d vs n u 32 p' d' ∧ High (u / 65536) ∧ ¬ Low (u % 65536)) → Out p d vs t (.ok (some .ilseq))
  | one {n u st} : u7I st → st % 4 ≠ 0 → First p d vs n u 16 (u7pb st) (dv st) → ¬ High u → Out p d vs t (.ok (some (.char u n st)))
  | two {n u st wc} : u7I st → st % 4 ≠ 0 → First p d vs n u 32 (u7pb st) (dv st) → High (u / 65536) → Low (u % 65536) →
      wc = 0x10000 + (u / 65536 - 0xd800) * 0x400 + (u % 65536 - 0xdc00) → Out p d vs t (.ok (some (.char wc n st)))

theorem pb_lt {st : Nat} (h : st % 4 ≠ 0) : u7pb st < 6 := by
  unfold u7pb
  rw [if_neg h]
  (repeat' split) <;> omega

theorem pb_le (st : Nat) : u7pb st ≤ 6 := by
  unfold u7pb
  (repeat' split) <;> omega

theorem loop_out {p d : Nat} {vs : List Nat} {t : List Byte} (hv : ∀ v ∈ vs, v < 64) (ht : ∀ c t', t = c :: t' → c ∉ alphabet) :
    ∀ (fuel j wc k kmax bst : Nat), U7Inv fuel j wc k kmax bst → j ≤ vs.length → j < (vs.map chr ++ t).length →
    p + 6 * j = 8 * k + u7pb bst → d * 64 ^ j + number 64 (vs.take j) = wc * 2 ^ u7pb bst + dv bst →
    dv bst < 2 ^ u7pb bst → (j = 0 → d = dv bst ∧ bst % 4 ≠ 0) →
    (kmax = 4 → ∃ n u p' d', First p d vs n u 16 p' d' ∧ High u ∧ j ≠ 0) →
    Out p d vs t ((u7loop fuel j wc k kmax bst).run (vs.map chr ++ t)) := by
  intro fuel
  induction fuel with
  | zero =>
    intro j wc k kmax bst h
    exfalso
    obtain ⟨p, hp, hb⟩ := h.bits
    have h1 := h.cnt
    have h2 := h.lt
    have h3 := pb_le bst
    rcases h.sur with h4 | ⟨h4, _⟩ <;> omega
  | succ fuel ih =>
    intro j wc k kmax bst h hj hjs hb he hd hz hs
    rw [u7loop]
    have hk := h.lt
    have hpb := pb_le bst
    by_cases hjl : j < vs.length
    · have hx : (vs.map chr ++ t)[j]? = some (chr vs[j]) := by
        rw [List.getElem?_append_left (by simpa using hjl)]
        simp [hjl]
      have hi : vs[j] < 64 := hv _ (List.getElem_mem hjl)
      simp only [M.run, hx, chr_val hi]
      generalize hp : u7push wc k bst vs[j] = x
      obtain ⟨wc', k', bst'⟩ := x
      obtain ⟨g1, g2, g3⟩ := u7push_inv h hi hp
      obtain ⟨f1, f2, f3⟩ := push_bits h.st hi hp
      have hcnt := h.cnt
      have hpb' := pb_le bst'
      have he' : d * 64 ^ (j + 1) + number 64 (vs.take (j + 1)) = wc' * 2 ^ u7pb bst' + dv bst' := by
        rw [← f1, ← he, List.take_add_one, List.getElem?_eq_getElem hjl, Option.toList_some, number_append, Nat.pow_succ]
        simp only [number, List.length_singleton, List.foldl_cons, List.foldl_nil]
        rw [← Nat.mul_assoc, Nat.add_mul]
        omega
      have hb' : p + 6 * (j + 1) = 8 * k' + u7pb bst' := by omega
      simp only
      have hfirst : ∀ m, m = 8 * k' → bst' % 4 ≠ 0 → First p d vs (j + 1) wc' m (u7pb bst') (dv bst') := fun m hm h4 =>
        ⟨hjl, by omega, pb_lt h4, f2, he'⟩
      have hend : ∀ (m : M SItem), kmax = 2 ∧ k' < 2 ∨ (∃ n u p' d', First p d vs n u 16 p' d' ∧ High u) ∧ k' < 4 →
          (j + 1 < (vs.map chr ++ t).length → Out p d vs t (m.run (vs.map chr ++ t))) →
          Out p d vs t ((M.need (j + 2) m).run (vs.map chr ++ t)) := by
        intro m hc hm
        simp only [M.run]
        split
        · exact hm (by omega)
        · have hl : (vs.map chr ++ t).length = vs.length + t.length := by simp
          have ht0 : t.length = 0 := by omega
          have hvl : vs.length = j + 1 := by omega
          refine .none (List.length_eq_zero_iff.1 ht0) ?_
          rcases hc with ⟨_, hc⟩ | ⟨hc, h4⟩
          · exact .inl ⟨by omega, fun h0 => by rw [h0] at hjl; simp at hjl⟩
          · exact .inr ⟨by omega, hc⟩
      by_cases hkk : k' = kmax
      · rw [if_pos hkk]
        rcases g3 with ⟨g3, _, _⟩ | ⟨g3, g4, g5, g6⟩
        · omega
        by_cases hsu : kmax = 2 ∧ wc' ≥ 0xd800 ∧ wc' < 0xdc00
        · rw [if_pos hsu]
          have hF : ∃ n u p' d', First p d vs n u 16 p' d' ∧ High u := ⟨_, _, _, _, hfirst 16 (by omega) g5, hsu.2⟩
          refine hend _ (.inr ⟨hF, by omega⟩) fun hl => ?_
          refine ih _ _ _ _ _ ⟨by omega, g1, by omega, .inr ⟨rfl, .inl ⟨by omega, hsu.2⟩⟩, g2⟩ hjl hl hb' he' f2 (by omega) fun _ => ?_
          obtain ⟨n, u, p', d', h1, h2⟩ := hF
          exact ⟨n, u, p', d', h1, h2, by omega⟩
        · rw [if_neg hsu]
          unfold u7fin
          rw [if_neg g5]
          by_cases h4 : kmax = 4
          · have hsur := h.sur
            rw [if_pos h4, if_neg (by omega)]
            have hH : High (wc' / 65536) := by unfold High; omega
            by_cases hlow : wc' % 65536 ≥ 0xdc00 ∧ wc' % 65536 < 0xe000
            · rw [if_neg (by omega)]
              exact .two g6 g5 (hfirst 32 (by omega) g5) hH hlow rfl
            · rw [if_pos hlow]
              exact .ilseq (.inr (.inr ⟨_, _, _, _, hfirst 32 (by omega) g5, hH, hlow⟩))
          · rw [if_neg h4]
            have h2 : kmax = 2 := by rcases h.sur with h | h <;> omega
            exact .one g6 g5 (hfirst 16 (by omega) g5) fun hh => hsu ⟨h2, hh⟩
      · rw [if_neg hkk]
        have hle : k' < kmax := by
          rcases g3 with ⟨g3, _, _⟩ | ⟨g3, _⟩ <;> omega
        refine hend _ ?_ fun hl => ih _ _ _ _ _ ⟨by omega, g1, hle, ?_, g2⟩ hjl hl hb' he' f2 (by omega) ?_
        · by_cases h4 : kmax = 4
          · obtain ⟨n, u, p', d', h1, h2, _⟩ := hs h4
            exact .inr ⟨⟨n, u, p', d', h1, h2⟩, by omega⟩
          · have h2 : kmax = 2 := by rcases h.sur with h | h <;> omega
            exact .inl ⟨h2, by omega⟩
        · have := h.sur
          rcases g3 with ⟨g3, g4, _⟩ | ⟨g3, g4, _⟩ <;> omega
        · intro h4
          obtain ⟨n, u, p', d', h1, h2, _⟩ := hs h4
          exact ⟨n, u, p', d', h1, h2, by omega⟩
    · have hje : j = vs.length := by omega
      subst hje
      cases t with
      | nil => simp at hjs
      | cons c t' =>
      have hx : (vs.map chr ++ c :: t')[vs.length]? = some c := by
        rw [List.getElem?_append_right (by simp)]
        simp
      have hc := ht c t' rfl
      simp only [M.run, hx, (val_none c).2 hc]
      have h2or : kmax = 2 ∨ kmax = 4 := by rcases h.sur with h | h <;> omega
      have hbad : vs ≠ [] ∨ d ≠ 0 → Out p d vs (c :: t') (.ok (some .ilseq)) := by
        intro hne
        rcases h2or with h2 | h4
        · exact .ilseq (.inl ⟨by simp, by omega, hne⟩)
        · obtain ⟨n, u, p', d', h1, h2, _⟩ := hs h4
          exact .ilseq (.inr (.inl ⟨by simp, by omega, n, u, p', d', h1, h2⟩))
      by_cases hl : vs.length = 0
      · have hvs := List.length_eq_zero_iff.1 hl
        obtain ⟨z1, z2⟩ := hz hl
        by_cases hbz : bst / 4 * 4 ≠ 0
        · rw [if_pos hbz]
          refine hbad (.inr ?_)
          rw [z1]
          unfold dv
          rw [if_neg z2]
          have := h.st
          (repeat' split) <;> omega
        · rw [if_neg hbz, if_neg (by omega)]
          have hd0 : d = 0 := by
            rw [z1]
            unfold dv
            rw [if_neg z2]
            have := h.st
            (repeat' split) <;> omega
          by_cases hc2 : c.toNat = 0x2d
          · rw [if_pos hc2]
            refine .dash hvs hd0 (t' := t') ?_
            rw [Iso.byte_eq hc2]
            rfl
          · rw [if_neg hc2]
            exact .stop hvs hd0 rfl hc fun e => hc2 (by rw [e]; rfl)
      · by_cases hbz : bst / 4 * 4 ≠ 0
        · rw [if_pos hbz]
          exact hbad (.inl fun h0 => hl (by rw [h0]; rfl))
        · rw [if_neg hbz, if_pos hl]
          exact hbad (.inl fun h0 => hl (by rw [h0]; rfl))

theorem dv_lt {st : Nat} (h : u7I st) (h0 : st % 4 ≠ 0) : dv st < 2 ^ u7pb st := by
  unfold u7I at h
  unfold dv u7pb
  rw [if_neg h0, if_neg h0]
  by_cases h1 : st % 4 = 1
  · rw [if_pos h1, if_pos h1]; omega
  · rw [if_neg h1, if_neg h1]
    by_cases h2 : st % 4 = 2
    · rw [if_pos h2, if_pos h2]; omega
    · rw [if_neg h2, if_neg h2]; omega

theorem item_out {st : Nat} {vs : List Nat} {t : List Byte} (hI : u7I st) (h0 : st % 4 ≠ 0) (hv : ∀ v ∈ vs, v < 64)
    (ht : ∀ c t', t = c :: t' → c ∉ alphabet) (hne : vs.map chr ++ t ≠ []) :
    Out (u7pb st) (dv st) vs t ((utf7_item st).run (vs.map chr ++ t)) := by
  rw [u7item_active h0]
  have hst := hI
  unfold u7I at hst
  refine loop_out hv ht 6 0 0 0 2 st ⟨by omega, ⟨u7pb st, ?_, by omega⟩, by omega, .inl rfl, by omega⟩ (by omega)
    (List.length_pos_iff.2 hne) (by omega) ?_ (dv_lt hI h0) (fun _ => ⟨rfl, h0⟩) (by omega)
  · have : u7pb st < 6 := pb_lt h0
    unfold u7pb at *
    (repeat' split) <;> omega
  · simp [number]

/-- Every input is values and then bytes that begin with none. -/
theorem values (s : List Byte) : ∃ (vs : List Nat) (t : List Byte), s = vs.map chr ++ t ∧ (∀ v ∈ vs, v < 64) ∧ ∀ c t', t = c :: t' → c ∉ alphabet := by
  induction s with
  | nil => exact ⟨[], [], rfl, by simp, by simp⟩
  | cons c s ih =>
    by_cases h : c ∈ alphabet
    · obtain ⟨v, h1, rfl⟩ := (alphabet_iff c).1 h
      obtain ⟨vs, t, rfl, h2, h3⟩ := ih
      refine ⟨v :: vs, t, rfl, ?_, h3⟩
      intro x hx
      rcases List.mem_cons.1 hx with rfl | hx
      · exact h1
      · exact h2 x hx
    · refine ⟨[], c :: s, rfl, by simp, ?_⟩
      intro c' t' e
      cases e
      exact h


/-! ## Inside base64 -/

/-- How base64 ends, with `r` in the bits behind the last unit. -/
inductive End (R : List Byte → List Nat → Prop) (r : Nat) : List Byte → List Nat → Prop
  | last : End R r [] []
  | dash {s w} : r = 0 → R s w → End R r (0x2d :: s) w
  | stop {c s w} : r = 0 → c ∉ alphabet → c ≠ 0x2d → R (c :: s) w → End R r (c :: s) w

theorem End.head {R : List Byte → List Nat → Prop} {r : Nat} {t : List Byte} {w : List Nat} (h : End R r t w) :
    ∀ c t', t = c :: t' → c ∉ alphabet := by
  intro c t' e
  cases h with
  | last => cases e
  | dash _ _ => cases e; decide
  | stop _ h1 _ _ => cases e; exact h1

/-- A text from within base64, after `p` bits with the value `d`. -/
def Act (R : List Byte → List Nat → Prop) (p d : Nat) (s : List Byte) (w : List Nat) : Prop :=
  ∃ vs us ws pad r t w', (∀ v ∈ vs, v < 64) ∧ s = List.map chr vs ++ t ∧ w = ws ++ w' ∧ pad < 6 ∧ p + 6 * vs.length = 16 * us.length + pad ∧
    r < 2 ^ pad ∧ d * 64 ^ vs.length + number 64 vs = number 65536 us * 2 ^ pad + r ∧ Units implemented us ws ∧ End R r t w'

theorem Units.lt {v : Variant} {us ws : List Nat} (h : Units v us ws) : ∀ u ∈ us, u < 65536 := by
  induction h with
  | nil => intro u hu; cases hu
  | one h1 _ _ _ ih =>
    intro u hu
    rcases List.mem_cons.1 hu with rfl | hu
    · exact h1
    · exact ih u hu
  | pair h1 h2 _ ih =>
    intro u hu
    unfold High at h1
    unfold Low at h2
    rcases List.mem_cons.1 hu with rfl | hu
    · omega
    rcases List.mem_cons.1 hu with rfl | hu
    · omega
    · exact ih u hu
  | low _ h1 _ ih =>
    intro u hu
    unfold Low at h1
    rcases List.mem_cons.1 hu with rfl | hu
    · omega
    · exact ih u hu

/-- Some units before. -/
theorem Act.cons {R : List Byte → List Nat → Prop} {p d n U m p' d' : Nat} {vs : List Nat} {t : List Byte} {us ws w : List Nat}
    (hv : ∀ v ∈ vs, v < 64) (hF : First p d vs n U m p' d') (hm : m = 16 * us.length) (hU : U = number 65536 us)
    (hw : ∀ us' ws', Units implemented us' ws' → Units implemented (us ++ us') (ws ++ ws'))
    (h : Act R p' d' ((vs.map chr ++ t).drop n) w) : Act R p d (vs.map chr ++ t) (ws ++ w) := by
  obtain ⟨vs2, us2, ws2, pad, r, t2, w2, h1, h2, rfl, h4, h5, h6, h7, h8, h9⟩ := h
  have hle := hF.le
  have hl : (vs.take n).length = n := by rw [List.length_take]; omega
  refine ⟨vs.take n ++ vs2, us ++ us2, ws ++ ws2, pad, r, t2, w2, ?_, ?_, by simp, h4, ?_, h6, ?_, hw _ _ h8, h9⟩
  · intro v hx
    rcases List.mem_append.1 hx with hx | hx
    · exact hv v (List.mem_of_mem_take hx)
    · exact h1 v hx
  · rw [List.map_append, List.append_assoc, ← h2]
    have e : List.map chr (vs.take n) = (vs.map chr ++ t).take n := by
      rw [List.take_append_of_le_length (by simpa using hle), List.map_take]
    rw [e, List.take_append_drop]
  · have := hF.bits
    rw [List.length_append, List.length_append, hl]
    omega
  · have e1 := hF.eq
    rw [number_append, number_append, List.length_append, hl, Nat.pow_add, ← Nat.mul_assoc, ← Nat.add_assoc, ← Nat.add_mul, e1, ← hU,
      Nat.add_mul, Nat.add_assoc, h7, Nat.add_mul, ← Nat.add_assoc]
    congr 2
    rw [Nat.mul_assoc, Nat.mul_assoc, pow64, pow65536, ← Nat.pow_add, ← Nat.pow_add, h5]

theorem chars_st {is is' : IState} {s : List Byte} {cs : List Nat} (hc : Chars (satom utf7_item) is s cs is') : u7I is.st →
    (is.st % 4 = 0 → Reads implemented s cs) ∧
    (is.st % 4 ≠ 0 → Act (Reads implemented) (u7pb is.st) (dv is.st) s cs) := by
  induction hc with
  | nil is =>
    intro hI
    refine ⟨fun _ => .nil, fun h0 => ?_⟩
    exact ⟨[], [], [], u7pb is.st, dv is.st, [], [], by simp, rfl, rfl, pb_lt h0, by simp, dv_lt hI h0, by simp [number], .nil, .last⟩
  | @char is inp wc n is' cs is'' hs ha _ ih =>
    intro hI
    unfold satom at ha
    obtain ⟨o, h1, h2⟩ := utf7_dec.run (st := is.st) hI hs
    have h1 : (utf7_item is.st).run inp = _ := h1
    rw [h1] at ha
    match o, h1, h2, ha with
    | some (.char wc0 n0 st0), h1, h2, ha =>
      simp only [Atom.char.injEq] at ha
      obtain ⟨rfl, rfl, rfl⟩ := ha
      have ih := ih (h2 _ rfl).1
      constructor
      · intro h0
        unfold utf7_item at h1
        rw [if_neg (by omega)] at h1
        match inp, hs, h1, ih with
        | a :: s, _, h1, ih =>
        rw [M.run_byte0] at h1
        by_cases hx : u7_isxdirect a.toNat
        · rw [if_pos hx] at h1
          cases h1
          exact .direct ((direct_iff a).2 hx) (ih.1 h0)
        rw [if_neg hx] at h1
        by_cases hp : a.toNat = 0x2b
        · rw [if_pos hp] at h1
          have ea : a = 0x2b := Iso.byte_eq hp
          subst ea
          match s, h1, ih with
          | [], h1, ih => cases h1
          | b :: s, h1, ih =>
          rw [M.run_need (by simp), M.run_byte1] at h1
          by_cases hb : b.toNat = 0x2d
          · rw [if_pos hb] at h1
            cases h1
            have eb : b = 0x2d := Iso.byte_eq hb
            subst eb
            exact .plus (ih.1 h0)
          · rw [if_neg hb] at h1; cases h1
        · rw [if_neg hp] at h1; cases h1
      · intro h0
        obtain ⟨vs, t, rfl, hv, ht⟩ := values inp
        have hO := item_out hI h0 hv ht hs
        rw [h1] at hO
        cases hO with
        | one g1 g2 g3 g4 =>
          have hb := g3.bound hv (dv_lt hI h0)
          by_cases hl : Low wc0
          · exact Act.cons (us := [wc0]) (ws := [wc0]) hv g3 rfl (by simp [number]) (fun _ _ h => .low rfl hl h) (ih.2 g2)
          · exact Act.cons (us := [wc0]) (ws := [wc0]) hv g3 rfl (by simp [number]) (fun _ _ h => .one hb g4 hl h) (ih.2 g2)
        | @two _ u _ _ g1 g2 g3 g4 g5 g6 =>
          refine Act.cons (us := [u / 65536, u % 65536]) (ws := [wc0]) hv g3 rfl ?_ (fun _ _ h => by rw [g6]; exact .pair g4 g5 h) (ih.2 g2)
          simp only [number, List.foldl_cons, List.foldl_nil]
          omega
    | some (.shift n0 st0), h1, h2, ha => cases ha
    | some .ilseq, h1, h2, ha => cases ha
    | none, h1, h2, ha => cases ha
  | @shift is inp n is' cs is'' hs ha _ ih =>
    intro hI
    unfold satom at ha
    obtain ⟨o, h1, h2⟩ := utf7_dec.run (st := is.st) hI hs
    have h1 : (utf7_item is.st).run inp = _ := h1
    rw [h1] at ha
    match o, h1, h2, ha with
    | some (.shift n0 st0), h1, h2, ha =>
      simp only [Atom.shift.injEq] at ha
      obtain ⟨rfl, rfl⟩ := ha
      have ih := ih (h2 _ rfl).1
      constructor
      · intro h0
        unfold utf7_item at h1
        rw [if_neg (by omega)] at h1
        match inp, hs, h1, ih with
        | a :: s, _, h1, ih =>
        rw [M.run_byte0] at h1
        by_cases hx : u7_isxdirect a.toNat
        · rw [if_pos hx] at h1
          cases h1
        rw [if_neg hx] at h1
        by_cases hp : a.toNat = 0x2b
        · rw [if_pos hp] at h1
          have ea : a = 0x2b := Iso.byte_eq hp
          subst ea
          match s, h1, ih with
          | [], h1, ih => cases h1
          | b :: s, h1, ih =>
          rw [M.run_need (by simp), M.run_byte1] at h1
          by_cases hb : b.toNat = 0x2d
          · rw [if_pos hb] at h1; cases h1
          · rw [if_neg hb] at h1
            cases h1
            obtain ⟨vs, us, ws, pad, r, t, w', g1, g2, rfl, g4, g5, g6, g7, g8, g9⟩ := ih.2 (by simp)
            have g2 : b :: s = _ := g2
            have hB : Bits vs us r := ⟨g1, pad, g4, by simpa [show u7pb 1 = 0 from rfl] using g5, g6, by simpa [show dv 1 = 0 from rfl] using g7⟩
            rw [g2]
            have hvs : vs = [] → t = b :: s := by intro h; subst h; exact g2.symm
            cases g9 with
            | last =>
              rw [List.append_nil, List.append_nil]
              exact .last (fun h => by have := hvs h; cases this) hB (.inr rfl) g8
            | dash e hR =>
              subst e
              refine .dash (fun h => ?_) hB g8 hR
              have := hvs h
              cases this
              exact hb rfl
            | stop e hc hd hR =>
              subst e
              exact .stop (.inr rfl) hB g8 hc hd hR
        · rw [if_neg hp] at h1; cases h1
      · intro h0
        obtain ⟨vs, t, rfl, hv, ht⟩ := values inp
        have hO := item_out hI h0 hv ht hs
        rw [h1] at hO
        have hR := ih.1
        generalize hd : dv is.st = d at hO
        cases hO with
        | dash g1 g2 g3 =>
          subst g1 g2 g3
          exact ⟨[], [], [], u7pb is.st, 0, _, _, by simp, rfl, rfl, pb_lt h0, by simp, Nat.two_pow_pos _, by simp [number], .nil, .dash rfl (hR rfl)⟩
        | stop g1 g2 g3 g4 g5 =>
          subst g1 g2 g3
          exact ⟨[], [], [], u7pb is.st, 0, _, _, by simp, rfl, rfl, pb_lt h0, by simp, Nat.two_pow_pos _, by simp [number], .nil, .stop rfl g4 g5 (hR rfl)⟩
    | some (.char wc0 n0 st0), h1, h2, ha => cases ha
    | some .ilseq, h1, h2, ha => cases ha
    | none, h1, h2, ha => cases ha

/-! ## Texts are read -/

/-- Removing the first `m` bits. -/
theorem First.rest {p d : Nat} {vs : List Nat} {n U l p' d' : Nat} (h : First p d vs n U (16 * l) p' d') (hv : ∀ v ∈ vs, v < 64)
    {us us' : List Nat} {pad r : Nat} (hus : us.length = l) (hus' : ∀ u ∈ us', u < 65536) (hb : p + 6 * vs.length = 16 * (us ++ us').length + pad) (hr : r < 2 ^ pad)
    (he : d * 64 ^ vs.length + number 64 vs = number 65536 (us ++ us') * 2 ^ pad + r) :
    U = number 65536 us ∧ p' + 6 * (vs.drop n).length = 16 * us'.length + pad ∧
      d' * 64 ^ (vs.drop n).length + number 64 (vs.drop n) = number 65536 us' * 2 ^ pad + r := by
  have hl : vs.length = n + (vs.drop n).length := by rw [List.length_drop]; have := h.le; omega
  have hbits := h.bits
  have hb2 : p' + 6 * (vs.drop n).length = 16 * us'.length + pad := by
    rw [List.length_append] at hb; omega
  have e : number 65536 (us ++ us') * 2 ^ pad + r = number 65536 us * 2 ^ (p' + 6 * (vs.drop n).length) + (number 65536 us' * 2 ^ pad + r) := by
    rw [number_append, hb2, Nat.pow_add, ← pow65536, Nat.add_mul, Nat.mul_assoc]
    omega
  rw [h.all, e] at he
  have hd' := h.lt
  have b1 : d' * 64 ^ (vs.drop n).length + number 64 (vs.drop n) < 2 ^ (p' + 6 * (vs.drop n).length) := by
    have h1 := number_lt (b := 64) (vs.drop n) fun x hx => hv x (List.mem_of_mem_drop hx)
    have h2 : (d' + 1) * 64 ^ (vs.drop n).length ≤ 2 ^ p' * 64 ^ (vs.drop n).length := Nat.mul_le_mul_right _ hd'
    rw [Nat.pow_add, ← pow64]
    rw [Nat.succ_mul] at h2
    omega
  have b2 : number 65536 us' * 2 ^ pad + r < 2 ^ (p' + 6 * (vs.drop n).length) := by
    have h1 := number_lt (b := 65536) us' hus'
    have h2 : (number 65536 us' + 1) * 2 ^ pad ≤ 65536 ^ us'.length * 2 ^ pad := Nat.mul_le_mul_right _ h1
    rw [hb2, Nat.pow_add, ← pow65536]
    rw [Nat.succ_mul] at h2
    omega
  obtain ⟨e1, e2⟩ := split_unique b1 b2 he
  exact ⟨e1, hb2, e2⟩

theorem act_chars {R : List Byte → List Nat → Prop} (hR : ∀ s w, R s w → ∃ is', Chars (satom utf7_item) ⟨0, 0⟩ s w is')
    {us ws : List Nat} (hu : Units implemented us ws) : ∀ {st : Nat} {vs : List Nat} {pad r : Nat} {t : List Byte} {w' : List Nat},
    u7I st → st % 4 ≠ 0 → (∀ v ∈ vs, v < 64) → pad < 6 → u7pb st + 6 * vs.length = 16 * us.length + pad → r < 2 ^ pad →
    dv st * 64 ^ vs.length + number 64 vs = number 65536 us * 2 ^ pad + r → End R r t w' →
    ∃ is', Chars (satom utf7_item) ⟨0, st⟩ (vs.map chr ++ t) (ws ++ w') is' := by
  -- the first item, when there are units
  have step : ∀ {us ws us0 us1 ws1 : List Nat} {c : Nat}, Units implemented us1 ws1 → us = us0 ++ us1 → ws = c :: ws1 →
      (us0 = [c] ∧ c < 65536 ∧ ¬ High c ∨ ∃ u1 u2, us0 = [u1, u2] ∧ High u1 ∧ Low u2 ∧ c = 0x10000 + (u1 - 0xd800) * 0x400 + (u2 - 0xdc00)) →
      (∀ {st : Nat} {vs : List Nat} {pad r : Nat} {t : List Byte} {w' : List Nat},
        u7I st → st % 4 ≠ 0 → (∀ v ∈ vs, v < 64) → pad < 6 → u7pb st + 6 * vs.length = 16 * us1.length + pad → r < 2 ^ pad →
        dv st * 64 ^ vs.length + number 64 vs = number 65536 us1 * 2 ^ pad + r → End R r t w' →
        ∃ is', Chars (satom utf7_item) ⟨0, st⟩ (vs.map chr ++ t) (ws1 ++ w') is') →
      ∀ {st : Nat} {vs : List Nat} {pad r : Nat} {t : List Byte} {w' : List Nat},
      u7I st → st % 4 ≠ 0 → (∀ v ∈ vs, v < 64) → pad < 6 → u7pb st + 6 * vs.length = 16 * us.length + pad → r < 2 ^ pad →
      dv st * 64 ^ vs.length + number 64 vs = number 65536 us * 2 ^ pad + r → End R r t w' →
      ∃ is', Chars (satom utf7_item) ⟨0, st⟩ (vs.map chr ++ t) (ws ++ w') is' := by
    intro us ws us0 us1 ws1 c hu1 hus hws hc ih st vs pad r t w' hI h0 hv hp hb hr he hE
    subst hus hws
    have hlt1 := hu1.lt
    have hp6 := pb_lt h0
    have hvne : vs ≠ [] := by
      intro h
      subst h
      rcases hc with ⟨rfl, _⟩ | ⟨u1, u2, rfl, _⟩ <;> simp at hb <;> omega
    have hne : vs.map chr ++ t ≠ [] := by
      intro h
      exact hvne (List.map_eq_nil_iff.1 (List.append_eq_nil_iff.1 h).1)
    have hO := item_out hI h0 hv hE.head hne
    -- a first unit that is the first half of a pair
    have high : (∃ n u p' d', First (u7pb st) (dv st) vs n u 16 p' d' ∧ High u) →
        ∃ u1 u2, us0 = [u1, u2] ∧ High u1 ∧ Low u2 ∧ c = 0x10000 + (u1 - 0xd800) * 0x400 + (u2 - 0xdc00) := by
      rintro ⟨n, u, p', d', hF, hH⟩
      rcases hc with ⟨rfl, _, h2⟩ | h
      · have := (First.rest (l := 1) hF hv (us := [c]) rfl hlt1 hb hr he).1
        simp only [number, List.foldl_cons, List.foldl_nil] at this
        rw [show u = c by omega] at hH
        exact absurd hH h2
      · exact h
    have hlen : 16 ≤ u7pb st + 6 * vs.length := by
      rcases hc with ⟨rfl, _⟩ | ⟨u1, u2, rfl, _⟩ <;> simp at hb <;> omega
    have hlen2 : (∃ u1 u2, us0 = [u1, u2] ∧ High u1 ∧ Low u2 ∧ c = 0x10000 + (u1 - 0xd800) * 0x400 + (u2 - 0xdc00)) → 32 ≤ u7pb st + 6 * vs.length := by
      rintro ⟨u1, u2, rfl, _⟩
      simp at hb
      omega
    -- two units
    have two : ∀ {n u p' d'}, First (u7pb st) (dv st) vs n u 32 p' d' → High (u / 65536) →
        us0 = [u / 65536, u % 65536] ∧ Low (u % 65536) ∧ c = 0x10000 + (u / 65536 - 0xd800) * 0x400 + (u % 65536 - 0xdc00) := by
      intro n u p' d' hF hH
      rcases hc with ⟨rfl, h1, h2⟩ | ⟨u1, u2, rfl, h1, h2, h3⟩
      · have hbits := hF.bits
        have hle := hF.le
        cases us1 with
        | nil => simp at hb; omega
        | cons u2 us2 =>
          have := (First.rest (l := 2) hF hv (us := [c, u2]) (us' := us2) rfl (fun x hx => hlt1 x (List.mem_cons_of_mem _ hx)) hb hr he).1
          simp only [number, List.foldl_cons, List.foldl_nil] at this
          have h3 := hlt1 u2 (List.mem_cons_self ..)
          rw [show u / 65536 = c by omega] at hH
          exact absurd hH h2
      · have := (First.rest (l := 2) hF hv (us := [u1, u2]) rfl hlt1 hb hr he).1
        simp only [number, List.foldl_cons, List.foldl_nil] at this
        unfold High at h1
        unfold Low at h2
        have e1 : u / 65536 = u1 := by omega
        have e2 : u % 65536 = u2 := by omega
        rw [e1, e2]
        exact ⟨rfl, h2, h3⟩
    have next : ∀ {n st' U l p' d'}, (utf7_item st).run (vs.map chr ++ t) = .ok (some (.char c n st')) → p' = u7pb st' → d' = dv st' →
        u7I st' → st' % 4 ≠ 0 → us0.length = l → First (u7pb st) (dv st) vs n U (16 * l) p' d' →
        ∃ is', Chars (satom utf7_item) ⟨0, st⟩ (vs.map chr ++ t) (c :: ws1 ++ w') is' := by
      intro n st' U l p' d' hrun e1 e2 hI' h0' hl hF
      subst e1 e2
      obtain ⟨_, f1, f2⟩ := First.rest hF hv hl hlt1 hb hr he
      obtain ⟨is', hch⟩ := ih hI' h0' (fun v hx => hv v (List.mem_of_mem_drop hx)) hp f1 hr f2 hE
      refine ⟨is', .char hne (n := n) (is' := ⟨0, st'⟩) (by unfold satom; simp only; rw [hrun]) ?_⟩
      rw [List.drop_append_of_le_length (by simpa using hF.le), ← List.map_drop]
      exact hch
    generalize ho : (utf7_item st).run (vs.map chr ++ t) = o at hO
    cases hO with
    | none _ h =>
      rcases h with ⟨h, _⟩ | ⟨h, hF⟩
      · omega
      · have := hlen2 (high hF)
        omega
    | dash h => exact absurd h hvne
    | stop h => exact absurd h hvne
    | ilseq h =>
      rcases h with ⟨_, h, _⟩ | ⟨_, h, hF⟩ | ⟨n, u, p', d', hF, hH, hL⟩
      · omega
      · have := hlen2 (high hF)
        omega
      · exact absurd (two hF hH).2.1 hL
    | @one n u st' g1 g2 g3 g4 =>
      have hcu : us0 = [c] ∧ c = u := by
        rcases hc with ⟨rfl, _, _⟩ | ⟨u1, u2, rfl, h1, h2, _⟩
        · have := (First.rest (l := 1) g3 hv (us := [c]) rfl hlt1 hb hr he).1
          simp only [number, List.foldl_cons, List.foldl_nil] at this
          exact ⟨rfl, by omega⟩
        · have := (First.rest (l := 1) g3 hv (us := [u1]) (us' := u2 :: us1) rfl ?_ hb hr he).1
          · simp only [number, List.foldl_cons, List.foldl_nil] at this
            rw [show u = u1 by omega] at g4
            exact absurd h1 g4
          · intro x hx
            rcases List.mem_cons.1 hx with rfl | hx
            · unfold Low at h2; omega
            · exact hlt1 x hx
      obtain ⟨e1, rfl⟩ := hcu
      exact next ho rfl rfl g1 g2 (congrArg List.length e1) g3
    | @two n u st' wc g1 g2 g3 g4 g5 g6 =>
      obtain ⟨e1, _, e2⟩ := two g3 g4
      have e3 : wc = c := g6.trans e2.symm
      subst e3
      exact next ho rfl rfl g1 g2 (congrArg List.length e1) g3
  induction hu with
  | nil =>
    intro st vs pad r t w' hI h0 hv hp hb hr he hE
    have hp6 := pb_lt h0
    have hvs : vs = [] := by
      cases vs with
      | nil => rfl
      | cons v vs => simp at hb; omega
    subst hvs
    simp only [number, List.length_nil, List.foldl_nil, Nat.pow_zero, Nat.mul_one, Nat.zero_mul, Nat.add_zero, Nat.zero_add] at he
    have hO := fun hne => item_out (vs := []) (t := t) hI h0 (by simp) hE.head hne
    simp only [List.map_nil, List.nil_append] at hO ⊢
    generalize hd : dv st = d at hO he
    cases hE with
    | last => exact ⟨_, .nil _⟩
    | dash e h =>
      subst e
      subst he
      have hO := hO (by simp)
      generalize ho : (utf7_item st).run _ = o at hO
      obtain ⟨is', hc⟩ := hR _ _ h
      cases hO with
      | none h => cases h
      | dash => exact ⟨is', .shift (by simp) (n := 1) (is' := ⟨0, 0⟩) (by unfold satom; simp only; rw [ho]) hc⟩
      | stop _ _ h1 _ h2 => cases h1; exact absurd rfl h2
      | ilseq h =>
        exfalso
        rcases h with ⟨_, _, h⟩ | ⟨_, _, _, _, _, _, hF, _⟩ | ⟨_, _, _, _, hF, _⟩
        · simp at h
        · have h1 := hF.bits; have h2 := hF.le; simp at h2; omega
        · have h1 := hF.bits; have h2 := hF.le; simp at h2; omega
      | one _ _ hF => have h1 := hF.bits; have h2 := hF.le; simp at h2; omega
      | two _ _ hF => have h1 := hF.bits; have h2 := hF.le; simp at h2; omega
    | stop e h1 h2 h =>
      subst e
      subst he
      have hO := hO (by simp)
      generalize ho : (utf7_item st).run _ = o at hO
      obtain ⟨is', hc⟩ := hR _ _ h
      cases hO with
      | none h => cases h
      | dash _ _ h3 => cases h3; exact absurd rfl h2
      | stop => exact ⟨is', .shift (by simp) (n := 0) (is' := ⟨0, 0⟩) (by unfold satom; simp only; rw [ho]) hc⟩
      | ilseq h =>
        exfalso
        rcases h with ⟨_, _, h⟩ | ⟨_, _, _, _, _, _, hF, _⟩ | ⟨_, _, _, _, hF, _⟩
        · simp at h
        · have h1 := hF.bits; have h2 := hF.le; simp at h2; omega
        · have h1 := hF.bits; have h2 := hF.le; simp at h2; omega
      | one _ _ hF => have h1 := hF.bits; have h2 := hF.le; simp at h2; omega
      | two _ _ hF => have h1 := hF.bits; have h2 := hF.le; simp at h2; omega
  | one h1 h2 h3 h4 ih => exact step h4 (us0 := [_]) rfl rfl (.inl ⟨rfl, h1, h2⟩) ih
  | pair h1 h2 h3 ih => exact step h3 (us0 := [_, _]) rfl rfl (.inr ⟨_, _, rfl, h1, h2, rfl⟩) ih
  | low _ h1 h2 ih =>
    exact step h2 (us0 := [_]) rfl rfl (.inl ⟨rfl, by unfold Low at h1; omega, by unfold Low at h1; unfold High; omega⟩) ih

theorem reads_chars {s : List Byte} {w : List Nat} (h : Reads implemented s w) : ∃ is', Chars (satom utf7_item) ⟨0, 0⟩ s w is' := by
  have item0 : ∀ a s, (utf7_item 0).run (a :: s) = (if u7_isxdirect a.toNat then M.ret (.char a.toNat 1 0)
    else if a.toNat = 0x2b then
      .need 2 <| .byte 1 fun d => if d = 0x2d then .ret (.char 0x2b 2 0) else .ret (.shift 1 1)
    else .ret .ilseq).run (a :: s) := fun a s => rfl
  have plus : ∀ b s, (utf7_item 0).run (0x2b :: b :: s) = .ok (some (if b.toNat = 0x2d then .char 0x2b 2 0 else .shift 1 1)) := by
    intro b s
    rw [item0, if_neg (by decide), if_pos (by decide), M.run_need (by simp), M.run_byte1]
    split <;> rfl
  -- base64 after `+`
  have run : ∀ {vs us ws : List Nat} {r : Nat} {t : List Byte} {w' : List Nat}, Bits vs us r → Units implemented us ws →
      End (fun s w => ∃ is', Chars (satom utf7_item) ⟨0, 0⟩ s w is') r t w' → vs.map chr ++ t ≠ [] → (vs.map chr ++ t).head? ≠ some 0x2d →
      ∃ is', Chars (satom utf7_item) ⟨0, 0⟩ (0x2b :: (vs.map chr ++ t)) (ws ++ w') is' := by
    intro vs us ws r t w' hB hu hE hne hh
    obtain ⟨hv, pad, h1, h2, h3, h4⟩ := hB
    obtain ⟨is', hc⟩ := act_chars (R := fun s w => ∃ is', Chars (satom utf7_item) ⟨0, 0⟩ s w is') (fun _ _ h => h) hu (st := 1) (.inr (.inl rfl))
      (by decide) hv h1 (by rw [show u7pb 1 = 0 from rfl]; omega) h3 (by rw [show dv 1 = 0 from rfl]; omega) hE
    refine ⟨is', .shift (by simp) (n := 1) (is' := ⟨0, 1⟩) ?_ hc⟩
    unfold satom
    generalize vs.map chr ++ t = s at hne hh
    match s, hne, hh with
    | b :: s, _, hh =>
      simp only
      rw [plus, if_neg]
      intro e
      exact hh (by rw [Iso.byte_eq e]; rfl)
  have head : ∀ {vs : List Nat} {t : List Byte}, (∀ v ∈ vs, v < 64) → vs ≠ [] → (vs.map chr ++ t).head? ≠ some 0x2d := by
    intro vs t hv hne
    match vs, hne with
    | v :: vs, _ =>
      intro h
      have h : chr v = 0x2d := by simpa using h
      have := (alphabet_iff (chr v)).2 ⟨v, hv v (List.mem_cons_self ..), rfl⟩
      rw [h] at this
      revert this
      decide
  induction h with
  | nil => exact ⟨_, .nil _⟩
  | @direct c s w h1 _ ih =>
    obtain ⟨is', hc⟩ := ih
    refine ⟨is', .char (by simp) (n := 1) (is' := ⟨0, 0⟩) ?_ hc⟩
    unfold satom
    simp only
    rw [item0, if_pos ((direct_iff c).1 h1)]
    rfl
  | @plus s w _ ih =>
    obtain ⟨is', hc⟩ := ih
    refine ⟨is', .char (by simp) (n := 2) (is' := ⟨0, 0⟩) ?_ hc⟩
    unfold satom
    simp only
    rw [plus]
    rfl
  | dash h1 h2 h3 _ ih => exact run h2 h3 (.dash rfl ih) (by simp) (head h2.1 h1)
  | @stop vs us ws c s w h1 h2 h3 h4 h5 _ ih =>
    refine run h2 h3 (.stop rfl h4 h5 ih) (by simp) ?_
    by_cases hv : vs = []
    · subst hv
      simpa using h5
    · exact head h2.1 hv
  | last h1 h2 _ h4 =>
    have := run h2 h4 .last (by simpa using h1) (head h2.1 h1)
    simpa using this

/-- The texts. -/
theorem text_iff (s : List Byte) (w : List Nat) : utf7_entry.Text s w ↔ Reads implemented s w := by
  constructor
  · rintro ⟨cs0, is, h1, rfl⟩
    have := (chars_st (show Chars (satom utf7_item) IState.init s cs0 is from h1) (.inl rfl)).1 rfl
    rwa [show utf7_entry.dec.kept is = [] from rfl, List.append_nil]
  · intro h
    obtain ⟨is', hc⟩ := reads_chars h
    exact ⟨w, is', hc, by rw [show utf7_entry.dec.kept is' = [] from rfl, List.append_nil]⟩

end Reiconv.Rfc2152
