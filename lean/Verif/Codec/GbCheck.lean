import Verif.Codec.Cn
import Verif.Codec.TableCheck

/-!
# Tables with four-byte codes

The four-byte codes of GB18030 are numbered. A table of the characters by number is checked against the
two functions of the number, and put together with a table for the codes of one and two bytes and with
the codes for the characters outside the BMP.
-/

namespace Reiconv

/-! ## One decoder program after another -/

theorem M.run_andThen {α β : Type} (f : α → M β) : ∀ (m : M α) (s : List Byte), (m.andThen f).run s =
    match m.run s with
    | .ok (some a) => (f a).run s
    | .ok none => .ok none
    | .ub => .ub
    | .abort => .abort
    | .diverge => .diverge := by
  intro m
  induction m with
  | ret a => intro s; rfl
  | ub => intro s; rfl
  | abort => intro s; rfl
  | need k t ih =>
    intro s
    simp only [M.andThen, M.run]
    by_cases h : k ≤ s.length
    · rw [if_pos h, if_pos h]; exact ih s
    · rw [if_neg h, if_neg h]
  | byte i g ih =>
    intro s
    simp only [M.andThen, M.run]
    cases s[i]? with
    | none => rfl
    | some b => exact ih _ s

/-- `m`, and `k` if that gives `RET_ILSEQ`. -/
def M.first (m k : M MbRet) : M MbRet :=
  m.andThen fun ret => if ret.code ≠ RET_ILSEQ then .ret ret else k

theorem M.val_cases {m : M MbRet} (hg : M.Good M.RetOK 1 m) {s : List Byte} (hs : s ≠ []) :
    (m.run s = .ok none ∧ m.val s = .toofew 0) ∨ (m.run s = .ok (some (.ilseq 0)) ∧ m.val s = .ilseq 0) ∨
      ∃ wc n, m.run s = .ok (some (.char wc n)) ∧ m.val s = .char wc n := by
  have hl : 1 ≤ s.length := by cases s with | nil => exact absurd rfl hs | cons _ _ => simp
  obtain ⟨o, h1, h2⟩ := M.good_run m 1 s hg hl
  cases o with
  | none => exact .inl ⟨h1, M.val_none h1⟩
  | some r =>
    right
    obtain ⟨j, _, _, hp⟩ := h2 r rfl
    cases r with
    | char wc n => exact .inr ⟨wc, n, h1, M.val_of_run h1⟩
    | ilseq k => obtain ⟨rfl, _⟩ := hp; exact .inl ⟨h1, M.val_of_run h1⟩
    | toofew k => exact hp.elim

theorem M.first_val {m k : M MbRet} (hg : M.Good M.RetOK 1 m) {s : List Byte} (hs : s ≠ []) :
    (m.first k).val s = if m.val s = .ilseq 0 then k.val s else m.val s := by
  unfold M.first M.val
  rw [M.run_andThen]
  rcases M.val_cases hg hs with ⟨h, -⟩ | ⟨h, -⟩ | ⟨wc, n, h, -⟩
  · rw [h]; rfl
  · rw [h]; rfl
  · rw [h]
    have hc : (MbRet.char wc n).code ≠ RET_ILSEQ := by rw [code_char, RET_ILSEQ_eq]; omega
    simp only [if_pos hc]
    rw [if_neg (by intro h; cases h)]
    rfl

theorem M.first_char {m k : M MbRet} (hg : M.Good M.RetOK 1 m) {s : List Byte} (hs : s ≠ []) (wc n : Nat) :
    (m.first k).val s = .char wc n ↔ m.val s = .char wc n ∨ (m.val s = .ilseq 0 ∧ k.val s = .char wc n) := by
  rw [M.first_val hg hs]
  by_cases h : m.val s = .ilseq 0
  · rw [if_pos h]
    constructor
    · exact fun h' => .inr ⟨h, h'⟩
    · rintro (h' | ⟨_, h'⟩)
      · rw [h] at h'; cases h'
      · exact h'
  · rw [if_neg h]
    constructor
    · exact .inl
    · rintro (h' | ⟨h', _⟩)
      · exact h'
      · exact absurd h' h

/-! ## Numbers and bytes -/

/-- The four bytes with the number `i`. -/
def gbB (lo i : Nat) : List Byte :=
  [u8 (i / 10 / 126 / 10 + lo), u8 (i / 10 / 126 % 10 + 0x30), u8 (i / 10 % 126 + 0x81), u8 (i % 10 + 0x30)]

theorem gbPut_res (lo i : Nat) : (gbPut lo i).res = some (gbB lo i) := rfl

theorem byte_eq {b : Byte} {x : Nat} (h : b.toNat = x) : b = u8 x := by
  apply UInt8.toNat_inj.1
  rw [u8_toNat, h, Nat.mod_eq_of_lt]
  rw [← h]; exact UInt8.toNat_lt b

theorem gbB_num {lo i : Nat} (h : i / 12600 + lo < 256) :
    (((u8 (i / 10 / 126 / 10 + lo)).toNat - lo) * 10 + ((u8 (i / 10 / 126 % 10 + 0x30)).toNat - 0x30)) * 126 +
      ((u8 (i / 10 % 126 + 0x81)).toNat - 0x81) = i / 10 ∧ (u8 (i % 10 + 0x30)).toNat = i % 10 + 0x30 ∧
    (u8 (i / 10 / 126 / 10 + lo)).toNat = i / 12600 + lo ∧ (u8 (i / 10 / 126 % 10 + 0x30)).toNat = i / 10 / 126 % 10 + 0x30 ∧
    (u8 (i / 10 % 126 + 0x81)).toNat = i / 10 % 126 + 0x81 := by
  have e : i / 10 / 126 / 10 = i / 12600 := by rw [Nat.div_div_eq_div_mul, Nat.div_div_eq_div_mul]
  have h1 : i / 10 / 126 % 10 < 10 := Nat.mod_lt _ (by omega)
  have h2 : i / 10 % 126 < 126 := Nat.mod_lt _ (by omega)
  have h3 : i % 10 < 10 := Nat.mod_lt _ (by omega)
  simp only [u8_toNat]
  rw [e, Nat.mod_eq_of_lt (a := i / 12600 + lo) h, Nat.mod_eq_of_lt (a := i / 10 / 126 % 10 + 0x30) (by omega),
    Nat.mod_eq_of_lt (a := i / 10 % 126 + 0x81) (by omega), Nat.mod_eq_of_lt (a := i % 10 + 0x30) (by omega)]
  refine ⟨?_, rfl, rfl, rfl, rfl⟩
  rw [← e]
  generalize hx : i / 10 = x
  generalize hy : x / 126 = y
  have d1 := Nat.div_add_mod x 126
  have d2 := Nat.div_add_mod y 10
  omega

theorem gbB_inj {lo i j : Nat} (hi : i / 12600 + lo < 256) (hj : j / 12600 + lo < 256) (h : gbB lo i = gbB lo j) :
    i = j := by
  unfold gbB at h
  simp only [List.cons.injEq] at h
  obtain ⟨h1, h2, h3, h4, _⟩ := h
  have a := gbB_num hi
  have b := gbB_num hj
  rw [h1, h2, h3, h4] at a
  have e1 : i / 10 = j / 10 := a.1.symm.trans b.1
  have e2 : i % 10 + 0x30 = j % 10 + 0x30 := a.2.1.symm.trans b.2.1
  omega

/-- The value of `gb4`. -/
theorem gb4_char {lo hi : Nat} {f : Nat → M MbRet} {R : Nat → MbRet} (hhi : lo ≤ hi ∧ hi < 256)
    (hf : ∀ i, i < (hi - lo + 1) * 12600 → f i = .ret (R i))
    (hR : ∀ i wc n, R i = .char wc n → n = 4) {s : List Byte} (hs : s ≠ []) (wc n : Nat) :
    (gb4 lo hi f).val s = .char wc n ↔
      4 ≤ s.length ∧ n = 4 ∧ ∃ i, i < (hi - lo + 1) * 12600 ∧ s.take 4 = gbB lo i ∧ R i = .char wc 4 := by
  have hlong : ∀ t : List Byte, t.length < 4 → (gb4 lo hi f).val t ≠ .char wc n := by
    intro t ht h
    unfold gb4 M.val at h
    match t with
    | [] => cases h
    | a :: t =>
      simp only [M.run, List.getElem?_cons_zero, List.getElem?_cons_succ, List.length_cons] at h
      by_cases h1 : a.toNat ≥ lo ∧ a.toNat ≤ hi
      · rw [if_pos h1] at h
        match t with
        | [] =>
          simp only [M.run, List.length_cons, List.length_nil] at h
          rw [if_neg (by omega)] at h; cases h
        | b :: t =>
          simp only [M.run, List.length_cons, List.getElem?_cons_succ, List.getElem?_cons_zero] at h
          rw [if_pos (by omega)] at h
          by_cases h2 : b.toNat ≥ 0x30 ∧ b.toNat ≤ 0x39
          · rw [if_pos h2] at h
            match t with
            | [] =>
              simp only [M.run, List.length_cons, List.length_nil] at h
              rw [if_neg (by omega)] at h; cases h
            | c :: t =>
              simp only [M.run, List.length_cons, List.getElem?_cons_succ, List.getElem?_cons_zero] at h
              rw [if_pos (by omega)] at h
              by_cases h3 : c.toNat ≥ 0x81 ∧ c.toNat ≤ 0xfe
              · rw [if_pos h3] at h
                match t with
                | [] =>
                  simp only [M.run, List.length_cons, List.length_nil] at h
                  rw [if_neg (by omega)] at h; cases h
                | _ :: _ => simp at ht; omega
              · rw [if_neg h3] at h; cases h
          · rw [if_neg h2] at h; cases h
      · rw [if_neg h1] at h; cases h
  match s with
  | [] => exact absurd rfl hs
  | [a] => exact ⟨fun h => absurd h (hlong _ (by simp)), fun h => absurd h.1 (by simp)⟩
  | [a, b] => exact ⟨fun h => absurd h (hlong _ (by simp)), fun h => absurd h.1 (by simp)⟩
  | [a, b, c] => exact ⟨fun h => absurd h (hlong _ (by simp)), fun h => absurd h.1 (by simp)⟩
  | a :: b :: c :: d :: t =>
    have ha := UInt8.toNat_lt a
    have hval : (gb4 lo hi f).val (a :: b :: c :: d :: t) =
        if (a.toNat ≥ lo ∧ a.toNat ≤ hi) ∧ (b.toNat ≥ 0x30 ∧ b.toNat ≤ 0x39) ∧ (c.toNat ≥ 0x81 ∧ c.toNat ≤ 0xfe) ∧
          (d.toNat ≥ 0x30 ∧ d.toNat ≤ 0x39) then
          (f ((((a.toNat - lo) * 10 + (b.toNat - 0x30)) * 126 + (c.toNat - 0x81)) * 10 + (d.toNat - 0x30))).val
            (a :: b :: c :: d :: t)
        else .ilseq 0 := by
      unfold gb4 M.val
      simp only [M.run, List.getElem?_cons_zero]
      by_cases h1 : a.toNat ≥ lo ∧ a.toNat ≤ hi
      · rw [if_pos h1]
        simp only [M.run, List.getElem?_cons_zero, List.getElem?_cons_succ, List.length_cons]
        rw [if_pos (by omega)]
        by_cases h2 : b.toNat ≥ 0x30 ∧ b.toNat ≤ 0x39
        · rw [if_pos h2]
          simp only [M.run, List.getElem?_cons_zero, List.getElem?_cons_succ, List.length_cons]
          rw [if_pos (by omega)]
          by_cases h3 : c.toNat ≥ 0x81 ∧ c.toNat ≤ 0xfe
          · rw [if_pos h3]
            simp only [M.run, List.getElem?_cons_zero, List.getElem?_cons_succ, List.length_cons]
            rw [if_pos (by omega)]
            by_cases h4 : d.toNat ≥ 0x30 ∧ d.toNat ≤ 0x39
            · rw [if_pos h4, if_pos ⟨h1, h2, h3, h4⟩]
            · rw [if_neg h4, if_neg (fun h => h4 h.2.2.2)]; rfl
          · rw [if_neg h3, if_neg (fun h => h3 h.2.2.1)]; rfl
        · rw [if_neg h2, if_neg (fun h => h2 h.2.1)]; rfl
      · rw [if_neg h1, if_neg (fun h => h1 h.1)]; rfl
    rw [hval]
    have htake : (a :: b :: c :: d :: t).take 4 = [a, b, c, d] := rfl
    rw [htake]
    constructor
    · intro h
      split at h
      · next hr =>
        obtain ⟨h1, h2, h3, h4⟩ := hr
        have hlt : (((a.toNat - lo) * 10 + (b.toNat - 0x30)) * 126 + (c.toNat - 0x81)) * 10 + (d.toNat - 0x30) <
            (hi - lo + 1) * 12600 := by omega
        rw [hf _ hlt] at h
        have h : R _ = _ := h
        have hn := hR _ _ _ h
        subst hn
        refine ⟨by simp, rfl, _, hlt, ?_, h⟩
        have e1 : ((((a.toNat - lo) * 10 + (b.toNat - 0x30)) * 126 + (c.toNat - 0x81)) * 10 + (d.toNat - 0x30)) / 10 =
            ((a.toNat - lo) * 10 + (b.toNat - 0x30)) * 126 + (c.toNat - 0x81) := by omega
        have e2 : (((a.toNat - lo) * 10 + (b.toNat - 0x30)) * 126 + (c.toNat - 0x81)) / 126 =
            (a.toNat - lo) * 10 + (b.toNat - 0x30) := by omega
        unfold gbB
        rw [e1, e2]
        simp only [List.cons.injEq, and_true]
        exact ⟨byte_eq (by omega), byte_eq (by omega), byte_eq (by omega), byte_eq (by omega)⟩
      · cases h
    · rintro ⟨_, rfl, i, hi', hb, hRi⟩
      have hlt : i / 12600 + lo < 256 := by omega
      obtain ⟨k1, k2, k3, k4, k5⟩ := gbB_num hlt
      unfold gbB at hb
      simp only [List.cons.injEq, and_true] at hb
      obtain ⟨rfl, rfl, rfl, rfl⟩ := hb
      have m1 : i / 10 / 126 % 10 < 10 := Nat.mod_lt _ (by omega)
      have m2 : i / 10 % 126 < 126 := Nat.mod_lt _ (by omega)
      rw [if_pos (by omega), k1, k2, show i / 10 * 10 + (i % 10 + 0x30 - 0x30) = i by omega, hf i hi']
      exact hRi

/-! ## All rows are produced -/

/-- If the encoder produces the pairs `P`, and can only produce something for as many characters, then
these are the characters of `P`. -/
theorem rows_all {w : Nat → W} {P : List (List Byte × Nat)} {A : List Nat} (hP : ∀ p ∈ P, (w p.2).res = some p.1)
    (hn : P.Nodup) (hA : ∀ wc, (w wc).res ≠ none → wc ∈ A) (hl : A.length ≤ P.length) (wc : Nat) (h : wc ∈ A) :
    wc ∈ P.map Prod.snd := by
  have hnd : (P.map Prod.snd).Nodup := by
    unfold List.Nodup at hn ⊢
    rw [List.pairwise_map]
    refine List.Pairwise.imp_of_mem ?_ hn
    rintro ⟨a, x⟩ ⟨b, y⟩ ha hb hne rfl
    have h1 := hP _ ha; have h2 := hP _ hb
    rw [h1] at h2
    injection h2 with h2
    exact hne (Prod.ext h2 rfl)
  exact subset_of_length (P.map Prod.snd) A hnd (fun x hx => by
    obtain ⟨p, hp, rfl⟩ := List.mem_map.1 hx
    exact hA _ (by rw [hP p hp]; simp)) (by rw [List.length_map]; exact hl) wc h

/-- If the encoder produces the pairs `P`, and can only produce something for as many characters, then it
produces just these pairs. -/
theorem enc_of_rows {w : Nat → W} {P : List (List Byte × Nat)} {A : List Nat} (hP : ∀ p ∈ P, (w p.2).res = some p.1)
    (hn : P.Nodup) (hA : ∀ wc, (w wc).res ≠ none → wc ∈ A) (hl : A.length ≤ P.length) (wc : Nat) (bs : List Byte) :
    (w wc).res = some bs ↔ (bs, wc) ∈ P := by
  refine ⟨fun h => ?_, hP _⟩
  have hs := rows_all hP hn hA hl wc (hA wc (by rw [h]; simp))
  obtain ⟨p, hp, rfl⟩ := List.mem_map.1 hs
  have h1 := hP p hp
  rw [h] at h1
  injection h1 with h1
  rw [h1]; exact hp

/-! ## Tables of characters by number -/

noncomputable def isRet4 (m : M MbRet) (wc : Nat) : Bool :=
  M.rec (motive := fun _ => Bool) (fun r => MbRet.rec (motive := fun _ => Bool)
      (fun c n => Bool.rec false (Nat.beq n 4) (Nat.beq c wc)) (fun _ => false) (fun _ => false) r)
    false false (fun _ _ _ => false) (fun _ _ _ => false) m

theorem isRet4_eq {m : M MbRet} {wc : Nat} (h : isRet4 m wc = true) : m = .ret (.char wc 4) := by
  cases m with
  | ret r =>
    cases r with
    | char c n =>
      have h : Bool.rec (motive := fun _ => Bool) false (Nat.beq n 4) (Nat.beq c wc) = true := h
      cases hc : Nat.beq c wc with
      | false => rw [hc] at h; cases h
      | true =>
        rw [hc] at h
        have h : Nat.beq n 4 = true := h
        rw [Nat.beq_eq] at h hc
        rw [h, hc]
    | ilseq k => cases h
    | toofew k => cases h
  | ub => cases h
  | abort => cases h
  | need k t => cases h
  | byte i f => cases h

/-- The number for the four bytes with the number `i`. -/
noncomputable def gbKeyF (i : Nat) : Nat :=
  forceN (Nat.div i 10) fun x => forceN (Nat.div x 126) fun y =>
    keyF [Nat.add (Nat.div y 10) 0x81, Nat.add (Nat.mod y 10) 0x30, Nat.add (Nat.mod x 126) 0x81, Nat.add (Nat.mod i 10) 0x30] 1

theorem gbKeyF_eq (i : Nat) : gbKeyF i = keyOf (gbB 0x81 i) := by
  unfold gbKeyF
  simp only [forceN_eq]
  rw [keyF_eq]
  rfl

/-- Row `j` of the table `t` is the character with the number `o + j`, and the encoder gives the bytes of
that number exactly if `bad` is false. -/
noncomputable def linF (idx : Nat → M MbRet) (w : Nat → W) (o : Nat) (t : Tab) (bad : Bool) (n : Nat) : Bool :=
  Nat.rec true (fun j ih => Bool.rec false ih
    (forceN (t.getF j) fun u => forceN (Nat.add o j) fun i =>
      Bool.rec false (Bool.rec bad (Bool.rec true false bad) (Nat.beq (W.resN (w u)) (gbKeyF i))) (isRet4 (idx i) u))) n

noncomputable def chkLin (idx : Nat → M MbRet) (w : Nat → W) (o : Nat) (t : Tab) (bad : Bool) : Bool :=
  linF idx w o t bad t.len

theorem linF_sound {idx : Nat → M MbRet} {w : Nat → W} {o : Nat} {t : Tab} {bad : Bool} : ∀ (n : Nat),
    linF idx w o t bad n = true → ∀ j, j < n → idx (o + j) = .ret (.char (t.row j) 4) ∧
      (((w (t.row j)).resN = keyOf (gbB 0x81 (o + j))) ↔ bad = false) := by
  intro n
  induction n with
  | zero => intro _ j h; omega
  | succ n ih =>
    intro h j hj
    have h : Bool.rec (motive := fun _ => Bool) false (linF idx w o t bad n)
      (forceN (t.getF n) fun u => forceN (Nat.add o n) fun i =>
        Bool.rec (motive := fun _ => Bool) false (Bool.rec (motive := fun _ => Bool) bad (Bool.rec true false bad)
          (Nat.beq (W.resN (w u)) (gbKeyF i))) (isRet4 (idx i) u)) = true := h
    simp only [forceN_eq] at h
    cases h1 : isRet4 (idx (Nat.add o n)) (t.getF n) with
    | false => rw [h1] at h; cases h
    | true =>
      rw [h1] at h
      cases h2 : Nat.beq (W.resN (w (t.getF n))) (gbKeyF (Nat.add o n)) with
      | false =>
        rw [h2] at h
        cases bad with
        | false => cases h
        | true =>
          by_cases hjn : j = n
          · subst hjn
            refine ⟨isRet4_eq h1, ?_⟩
            rw [← gbKeyF_eq]
            constructor
            · intro h3
              have : Nat.beq (W.resN (w (t.row j))) (gbKeyF (o + j)) = true := by rw [Nat.beq_eq]; exact h3
              rw [Tab.row_eq] at this
              rw [show Nat.add o j = o + j from rfl, this] at h2
              cases h2
            · intro h; cases h
          · exact ih h j (by omega)
      | true =>
        rw [h2] at h
        cases bad with
        | true => cases h
        | false =>
          by_cases hjn : j = n
          · subst hjn
            refine ⟨isRet4_eq h1, ?_⟩
            rw [← gbKeyF_eq]
            rw [Nat.beq_eq] at h2
            exact ⟨fun _ => rfl, fun _ => h2⟩
          · exact ih h j (by omega)

/-- The tables `l` hold the characters from the number `o` on. -/
def LinOK (idx : Nat → M MbRet) (w : Nat → W) : Nat → List (Tab × Bool) → Prop
  | _, [] => True
  | o, (t, bad) :: r => chkLin idx w o t bad = true ∧ LinOK idx w (o + t.len) r

/-- The rows of the tables. -/
def linRows : Nat → List (Tab × Bool) → List (List Byte × Nat)
  | _, [] => []
  | o, (t, _) :: r => ((List.range t.len).map fun j => (gbB 0x81 (o + j), t.row j)) ++ linRows (o + t.len) r

/-- The rows of the tables marked with `b`. -/
def linPart (b : Bool) : Nat → List (Tab × Bool) → List (List Byte × Nat)
  | _, [] => []
  | o, (t, bad) :: r =>
    (if bad = b then (List.range t.len).map fun j => (gbB 0x81 (o + j), t.row j) else []) ++ linPart b (o + t.len) r

def linLen (l : List (Tab × Bool)) : Nat := (l.map fun p => p.1.len).sum

theorem mem_linRows {p : List Byte × Nat} : ∀ (l : List (Tab × Bool)) (o : Nat),
    p ∈ linRows o l ↔ p ∈ linPart true o l ∨ p ∈ linPart false o l := by
  intro l
  induction l with
  | nil => intro o; simp [linRows, linPart]
  | cons q l ih =>
    obtain ⟨t, bad⟩ := q
    intro o
    simp only [linRows, linPart, List.mem_append, ih]
    cases bad <;> simp <;> grind

theorem linRows_num {p : List Byte × Nat} : ∀ (l : List (Tab × Bool)) (o : Nat), p ∈ linRows o l →
    ∃ i, o ≤ i ∧ i < o + linLen l ∧ p.1 = gbB 0x81 i := by
  intro l
  induction l with
  | nil => intro o h; cases h
  | cons q l ih =>
    obtain ⟨t, bad⟩ := q
    intro o h
    have e : linLen ((t, bad) :: l) = t.len + linLen l := rfl
    rw [e]
    simp only [linRows, List.mem_append, List.mem_map, List.mem_range] at h
    rcases h with ⟨j, hj, rfl⟩ | h
    · exact ⟨o + j, by omega, by omega, rfl⟩
    · obtain ⟨i, h1, h2, h3⟩ := ih _ h
      exact ⟨i, by omega, by omega, h3⟩

theorem linPart_sub {b : Bool} {p : List Byte × Nat} {l : List (Tab × Bool)} {o : Nat} (h : p ∈ linPart b o l) :
    p ∈ linRows o l := by
  rw [mem_linRows]; cases b
  · exact .inr h
  · exact .inl h

theorem linRows_sound {idx : Nat → M MbRet} {w : Nat → W} : ∀ (l : List (Tab × Bool)) (o : Nat), LinOK idx w o l →
    (∀ i, o ≤ i → i < o + linLen l → ∃ u, idx i = .ret (.char u 4) ∧ (gbB 0x81 i, u) ∈ linRows o l) ∧
    (∀ p ∈ linRows o l, ∃ i, o ≤ i ∧ i < o + linLen l ∧ p.1 = gbB 0x81 i ∧ idx i = .ret (.char p.2 4)) ∧
    (∀ p ∈ linPart true o l, (w p.2).resN ≠ keyOf p.1) ∧ (∀ p ∈ linPart false o l, (w p.2).resN = keyOf p.1) := by
  intro l
  induction l with
  | nil =>
    intro o _
    refine ⟨?_, ?_, ?_, ?_⟩
    · intro i h1 h2; simp [linLen] at h2; omega
    all_goals intro p hp; cases hp
  | cons q l ih =>
    obtain ⟨t, bad⟩ := q
    rintro o ⟨h1, h2⟩
    have hs := linF_sound t.len h1
    obtain ⟨i1, i2, i3, i4⟩ := ih _ h2
    have e : linLen ((t, bad) :: l) = t.len + linLen l := rfl
    refine ⟨?_, ?_, ?_, ?_⟩
    · intro i h3 h4
      rw [e] at h4
      by_cases hi : i < o + t.len
      · obtain ⟨j, rfl⟩ := Nat.exists_eq_add_of_le h3
        refine ⟨t.row j, (hs j (by omega)).1, ?_⟩
        simp only [linRows, List.mem_append, List.mem_map, List.mem_range]
        exact .inl ⟨j, by omega, rfl⟩
      · obtain ⟨u, h5, h6⟩ := i1 i (by omega) (by omega)
        exact ⟨u, h5, List.mem_append.2 (.inr h6)⟩
    · intro p hp
      rw [e]
      simp only [linRows, List.mem_append, List.mem_map, List.mem_range] at hp
      rcases hp with ⟨j, hj, rfl⟩ | hp
      · exact ⟨o + j, by omega, by omega, rfl, (hs j hj).1⟩
      · obtain ⟨i, h3, h4, h5⟩ := i2 p hp
        exact ⟨i, by omega, by omega, h5⟩
    · intro p hp
      simp only [linPart, List.mem_append] at hp
      rcases hp with hp | hp
      · split at hp
        · next hb =>
          simp only [List.mem_map, List.mem_range] at hp
          obtain ⟨j, hj, rfl⟩ := hp
          intro h
          have := (hs j hj).2.1 h
          rw [this] at hb; cases hb
        · cases hp
      · exact i3 p hp
    · intro p hp
      simp only [linPart, List.mem_append] at hp
      rcases hp with hp | hp
      · split at hp
        · next hb =>
          simp only [List.mem_map, List.mem_range] at hp
          obtain ⟨j, hj, rfl⟩ := hp
          exact (hs j hj).2.2 hb
        · cases hp
      · exact i4 p hp

theorem linPart_nodup {b : Bool} : ∀ (l : List (Tab × Bool)) (o : Nat), (o + linLen l) / 12600 + 0x81 < 256 →
    (linPart b o l).Nodup := by
  intro l
  induction l with
  | nil => intro o _; exact List.nodup_nil
  | cons q l ih =>
    obtain ⟨t, bad⟩ := q
    intro o ho
    have e : linLen ((t, bad) :: l) = t.len + linLen l := rfl
    rw [e] at ho
    have hrange : ∀ j, j < t.len → (o + j) / 12600 + 0x81 < 256 := fun j hj => by
      have : (o + j) / 12600 ≤ (o + (t.len + linLen l)) / 12600 := Nat.div_le_div_right (by omega)
      omega
    simp only [linPart]
    rw [List.nodup_append]
    refine ⟨?_, ih _ (by rw [Nat.add_assoc]; exact ho), ?_⟩
    · split
      · have hr := List.nodup_range (n := t.len)
        unfold List.Nodup at hr ⊢
        rw [List.pairwise_map]
        refine List.Pairwise.imp_of_mem ?_ hr
        intro x y hx hy hne h
        simp only [List.mem_range] at hx hy
        injection h with h _
        have := gbB_inj (hrange x hx) (hrange y hy) h
        omega
      · exact List.nodup_nil
    · rintro p hp q hq rfl
      split at hp
      · simp only [List.mem_map, List.mem_range] at hp
        obtain ⟨j, hj, rfl⟩ := hp
        obtain ⟨i, h1, h2, h3⟩ := linRows_num _ _ (linPart_sub hq)
        have hi : i / 12600 + 0x81 < 256 := by
          have : i / 12600 ≤ (o + (t.len + linLen l)) / 12600 := Nat.div_le_div_right (by omega)
          omega
        have := gbB_inj (hrange j hj) hi h3
        omega
      · cases hp

theorem linPart_length (b : Bool) : ∀ (l : List (Tab × Bool)) (o : Nat),
    (linPart b o l).length = (l.map fun p => if p.2 = b then p.1.len else 0).sum := by
  intro l
  induction l with
  | nil => intro o; rfl
  | cons q l ih =>
    obtain ⟨t, bad⟩ := q
    intro o
    simp only [linPart, List.length_append, ih, List.map_cons, List.sum_cons]
    split <;> simp

/-! ## The BMP -/

/-- The decoders `gb18030_2005_mbtowc` and `gb18030_2022_mbtowc` up to the user-defined characters. -/
def gbBmp (ext uni : M MbRet) : M MbRet :=
  .byte 0 fun c => if c < 0x80 then ascii_m else gbk_mbtowc.first <| ext.first <| uni.first gb_user

/-- The same without the codes of four bytes. -/
def gbTwo (ext : M MbRet) : M MbRet :=
  .byte 0 fun c => if c < 0x80 then ascii_m else gbk_mbtowc.first <| ext.first gb_user

theorem gb18030_2022_bmp_eq : gb18030_2022_bmp = gbBmp gb18030_2022_ext_mbtowc gb18030_2022_uni_mbtowc := rfl
theorem gb18030_2005_bmp_eq : gb18030_2005_bmp = gbBmp gb18030_2005_ext_mbtowc gb18030_2005_uni_mbtowc := rfl

theorem gbTwo_good {ext : M MbRet} (he : M.Good M.RetOK 1 ext) : M.Good M.RetOK 1 (gbTwo ext) := by
  have h1 := ascii_m_good
  have h2 := gbk_good
  have h5 := gb_user_good
  unfold gbTwo M.first
  mgood

theorem gb4_other {lo hi : Nat} {f : Nat → M MbRet} {a : Byte} {t : List Byte} (h : ¬ (a.toNat ≥ lo ∧ a.toNat ≤ hi)) :
    (gb4 lo hi f).val (a :: t) = .ilseq 0 := by
  unfold gb4 M.val
  simp only [M.run, List.getElem?_cons_zero, List.getElem?_cons_succ, List.length_cons]
  rw [if_neg h]
  rfl

theorem gb_user_other {a b : Byte} {t : List Byte} (h : a.toNat < 0xa1 ∨ b.toNat < 0x40) :
    (gb_user).val (a :: b :: t) = .ilseq 0 := by
  unfold gb_user M.val
  simp only [M.run, List.getElem?_cons_zero, List.getElem?_cons_succ, List.length_cons]
  by_cases h1 : (a.toNat ≥ 0xaa ∧ a.toNat ≤ 0xaf) ∨ (a.toNat ≥ 0xf8 ∧ a.toNat ≤ 0xfe)
  · rw [if_pos h1]
    simp only [M.run, List.getElem?_cons_zero, List.getElem?_cons_succ, List.length_cons]
    rw [if_pos (by omega), if_neg (by omega)]
    rfl
  · rw [if_neg h1]
    by_cases h2 : a.toNat ≥ 0xa1 ∧ a.toNat ≤ 0xa7
    · rw [if_pos h2]
      simp only [M.run, List.getElem?_cons_zero, List.getElem?_cons_succ, List.length_cons]
      rw [if_pos (by omega), if_neg (by omega)]
      rfl
    · rw [if_neg h2]; rfl

theorem gb_user_first {a : Byte} {t : List Byte} {wc n : Nat} (h : gb_user.val (a :: t) = .char wc n) : 0xa1 ≤ a.toNat := by
  apply Classical.byContradiction
  intro hc
  unfold gb_user M.val at h
  simp only [M.run, List.getElem?_cons_zero, List.getElem?_cons_succ, List.length_cons] at h
  rw [if_neg (by omega), if_neg (by omega)] at h
  cases h

/-- The `n` first bytes from `a` on, followed by a digit, do not start a code of two bytes. -/
noncomputable def chkNone (m : M MbRet) (a n : Nat) : Bool :=
  (List.range n).all fun i => (List.range 10).all fun j => Nat.beq (m.evalN [Nat.add a i, Nat.add 0x30 j]) 1

theorem chkNone_sound {m : M MbRet} (hg : M.Good M.RetOK 1 m) {a n : Nat} (h : chkNone m a n = true) {b c : Byte}
    {t : List Byte} (hb : a ≤ b.toNat ∧ b.toNat < a + n) (hc : 0x30 ≤ c.toNat ∧ c.toNat ≤ 0x39) :
    m.val (b :: c :: t) = .ilseq 0 := by
  unfold chkNone at h
  simp only [List.all_eq_true, List.mem_range] at h
  have h1 := h (b.toNat - a) (by omega) (c.toNat - 0x30) (by omega)
  rw [Nat.beq_eq] at h1
  have e : [Nat.add a (b.toNat - a), Nat.add 0x30 (c.toNat - 0x30)] = [b, c].map (·.toNat) := by
    show [a + (b.toNat - a), 0x30 + (c.toNat - 0x30)] = [b.toNat, c.toNat]
    rw [show a + (b.toNat - a) = b.toNat by omega, show 0x30 + (c.toNat - 0x30) = c.toNat by omega]
  rw [e, M.evalN_eq hg (by simp)] at h1
  have hv : m.val [b, c] = .ilseq 0 := by
    rcases M.val_cases hg (s := [b, c]) (by simp) with ⟨-, h2⟩ | ⟨-, h2⟩ | ⟨wc, k, -, h2⟩
    · rw [h2] at h1; cases h1
    · exact h2
    · rw [h2, codeN_char] at h1; omega
  have := M.val_ext hg (s := [b, c]) (t := t) (by simp) (by rw [hv]; simp)
  rw [← hv, ← this]; rfl

/-- Where the functions for the codes of two bytes give `RET_ILSEQ`. -/
theorem gbTwo_none {ext : M MbRet} (he : M.Good M.RetOK 1 ext) {a b : Byte} {t : List Byte}
    (h1 : gbk_mbtowc.val (a :: b :: t) = .ilseq 0) (h2 : ext.val (a :: b :: t) = .ilseq 0) (ha : 0x80 ≤ a.toNat)
    (hb : b.toNat < 0x40) : (gbTwo ext).val (a :: b :: t) = .ilseq 0 := by
  have e : (gbTwo ext).val (a :: b :: t) = (gbk_mbtowc.first (ext.first gb_user)).val (a :: b :: t) := by
    unfold gbTwo M.val
    simp only [M.run, List.getElem?_cons_zero, List.getElem?_cons_succ, List.length_cons]
    rw [if_neg (by omega)]
  rw [e, M.first_val gbk_good (by simp), if_pos h1, M.first_val he (by simp), if_pos h2]
  exact gb_user_other (.inr hb)

theorem gbBmp_char {ext : M MbRet} (he : M.Good M.RetOK 1 ext) {idx : Nat → M MbRet}
    (hgu : M.Good M.RetOK 1 (gb4 0x81 0x84 idx)) (hk : chkNone gbk_mbtowc 0x81 4 = true)
    (hx : chkNone ext 0x81 4 = true) {R : Nat → MbRet}
    (hf : ∀ i, i < 50400 → idx i = .ret (R i)) (hR : ∀ i wc n, R i = .char wc n → n = 4)
    {s : List Byte} (hs : s ≠ []) (wc n : Nat) :
    (gbBmp ext (gb4 0x81 0x84 idx)).val s = .char wc n ↔
      (gbTwo ext).val s = .char wc n ∨ (gb4 0x81 0x84 idx).val s = .char wc n := by
  have h4 := gb4_char (lo := 0x81) (hi := 0x84) (f := idx) (R := R) (by omega) hf hR hs wc n
  match s with
  | [] => exact absurd rfl hs
  | a :: t =>
    by_cases ha : a.toNat < 0x80
    · have e1 : (gbBmp ext (gb4 0x81 0x84 idx)).val (a :: t) = ascii_m.val (a :: t) := by
        unfold gbBmp M.val
        simp only [M.run, List.getElem?_cons_zero, List.getElem?_cons_succ, List.length_cons]
        rw [if_pos ha]
      have e2 : (gbTwo ext).val (a :: t) = ascii_m.val (a :: t) := by
        unfold gbTwo M.val
        simp only [M.run, List.getElem?_cons_zero, List.getElem?_cons_succ, List.length_cons]
        rw [if_pos ha]
      rw [e1, e2, gb4_other (by omega)]
      simp
    · have e1 : (gbBmp ext (gb4 0x81 0x84 idx)).val (a :: t) =
          (gbk_mbtowc.first (ext.first ((gb4 0x81 0x84 idx).first gb_user))).val (a :: t) := by
        unfold gbBmp M.val
        simp only [M.run, List.getElem?_cons_zero, List.getElem?_cons_succ, List.length_cons]
        rw [if_neg ha]
      have e2 : (gbTwo ext).val (a :: t) = (gbk_mbtowc.first (ext.first gb_user)).val (a :: t) := by
        unfold gbTwo M.val
        simp only [M.run, List.getElem?_cons_zero, List.getElem?_cons_succ, List.length_cons]
        rw [if_neg ha]
      rw [e1, e2, M.first_char gbk_good hs, M.first_char he hs, M.first_char hgu hs, M.first_char gbk_good hs,
        M.first_char he hs]
      by_cases hu : (gb4 0x81 0x84 idx).val (a :: t) = .char wc n
      · obtain ⟨hl, hn, i, hi, hb, _⟩ := h4.1 hu
        match t with
        | [] => simp at hl
        | [_] => simp at hl
        | [_, _] => simp at hl
        | b :: c :: d :: t =>
          have hb : [a, b, c, d] = gbB 0x81 i := hb
          obtain ⟨_, _, k3, k4, _⟩ := gbB_num (lo := 0x81) (i := i) (by omega)
          unfold gbB at hb
          simp only [List.cons.injEq] at hb
          have hm : i / 10 / 126 % 10 < 10 := Nat.mod_lt _ (by omega)
          rw [← hb.1] at k3
          rw [← hb.2.1] at k4
          have g1 := chkNone_sound gbk_good hk (b := a) (c := b) (t := c :: d :: t) (by omega) (by omega)
          have g2 := chkNone_sound he hx (b := a) (c := b) (t := c :: d :: t) (by omega) (by omega)
          exact ⟨fun _ => .inr hu, fun _ => .inr ⟨g1, .inr ⟨g2, .inl hu⟩⟩⟩
      · constructor
        · rintro (h | ⟨h1, h | ⟨h2, h | ⟨_, h⟩⟩⟩)
          · exact .inl (.inl h)
          · exact .inl (.inr ⟨h1, .inl h⟩)
          · exact absurd h hu
          · exact .inl (.inr ⟨h1, .inr ⟨h2, h⟩⟩)
        · rintro ((h | ⟨h1, h | ⟨h2, h⟩⟩) | h)
          · exact .inl h
          · exact .inr ⟨h1, .inl h⟩
          · have := gb_user_first h
            exact .inr ⟨h1, .inr ⟨h2, .inr ⟨gb4_other (by omega), h⟩⟩⟩
          · exact absurd h hu

/-- The rows of a checked table are those the encoder produces and those it does not. -/
theorem rows_split {m : M MbRet} {w : Nat → W} {ts : List Tab} (hL : Lists m [] (fun _ => True) (packed ts))
    {ds : List (Tab × Tab)} (hd : ds.map (·.1) = ts) (hrow : ∀ p ∈ ds, chkRows w p.1 p.2 = true) :
    (∀ p ∈ tableOf (ds.map (·.2)), p ∈ tableOf ts ∧ (w p.2).resN ≠ keyOf p.1) ∧
    ∃ G : List (List Byte × Nat), G.Nodup ∧ G.length + (ds.map (·.2.len)).sum = (ds.map (·.1.len)).sum ∧
      (∀ p ∈ G, p ∈ tableOf ts ∧ (w p.2).resN = keyOf p.1 ∧ p.1.length < 8) ∧
      ∀ p ∈ tableOf ts, p ∈ G ∨ p ∈ tableOf (ds.map (·.2)) := by
  have hbad := chkRows_sound ds hrow
  rw [hd] at hbad
  have hP : ∀ x ∈ packed ts, ∃ bs wc, bs.length < 8 ∧ wc < 16777216 ∧ x = keyOf bs * 16777216 + wc ∧
      unkey 8 (x / 16777216) = bs ∧ x % 16777216 = wc := by
    intro x hx
    obtain ⟨b, t, wc, _, h3, h4, h5, h6⟩ := hL.mem x hx
    refine ⟨b :: t, wc, h4, h3, h5, ?_, by rw [h5]; omega⟩
    rw [h5, show (keyOf ([] ++ b :: t) * 16777216 + wc) / 16777216 = keyOf (b :: t) by simp only [List.nil_append]; omega]
    exact unkey_keyOf 8 _ h4
  have hdiv : ∀ x ∈ packed ts, x / 16777216 = keyOf (unkey 8 (x / 16777216)) := by
    intro x hx
    obtain ⟨bs, wc, h1, h2, h3, h4, h5⟩ := hP x hx
    rw [h4]; omega
  have hgood : ∀ x, badRow w x = false ↔ (w (x % 16777216)).resN = x / 16777216 := by
    intro x; unfold badRow; rw [Bool.not_eq_false', Nat.beq_eq]
  have hinj : ∀ x ∈ packed ts, ∀ y ∈ packed ts, (unkey 8 (x / 16777216), x % 16777216) =
      (unkey 8 (y / 16777216), y % 16777216) → x = y := by
    intro x hx y hy h
    injection h with h1 h2
    have e1 := hdiv x hx; have e2 := hdiv y hy
    rw [h1, ← e2] at e1
    omega
  have hpl : ∀ us : List Tab, (packed us).length = (us.map (·.len)).sum := by
    intro us; unfold packed; rw [List.length_flatMap]; simp
  refine ⟨?_, ((packed ts).filter fun x => !badRow w x).map (fun x => (unkey 8 (x / 16777216), x % 16777216)), ?_, ?_, ?_, ?_⟩
  · intro p hp
    simp only [tableOf, List.mem_map] at hp
    obtain ⟨x, hx, rfl⟩ := hp
    rw [← hbad, List.mem_filter] at hx
    refine ⟨List.mem_map.2 ⟨x, hx.1, rfl⟩, ?_⟩
    show (w (x % 16777216)).resN ≠ keyOf (unkey 8 (x / 16777216))
    rw [← hdiv x hx.1]
    intro h
    have := (hgood x).2 h
    rw [this] at hx; exact absurd hx.2 (by decide)
  · have hn : ((packed ts).filter fun x => !badRow w x).Nodup := hL.nodup.filter _
    unfold List.Nodup at hn ⊢
    rw [List.pairwise_map]
    refine List.Pairwise.imp_of_mem ?_ hn
    intro x y hx hy hne h
    exact hne (hinj x (List.mem_filter.1 hx).1 y (List.mem_filter.1 hy).1 h)
  · have h1 : ∀ l : List Nat, l.length = (l.filter (badRow w)).length + (l.filter fun x => !badRow w x).length := by
      intro l
      induction l with
      | nil => rfl
      | cons a l ih =>
        rw [List.filter_cons, List.filter_cons]
        cases badRow w a <;> simp <;> omega
    have h2 := h1 (packed ts)
    rw [hbad, hpl, hpl, ← hd] at h2
    simp only [List.map_map, Function.comp_def] at h2
    rw [List.length_map, ← hd]
    omega
  · intro p hp
    obtain ⟨x, hx, rfl⟩ := List.mem_map.1 hp
    obtain ⟨hx, hb⟩ := List.mem_filter.1 hx
    rw [Bool.not_eq_true'] at hb
    refine ⟨List.mem_map.2 ⟨x, hx, rfl⟩, ?_, ?_⟩
    · show (w (x % 16777216)).resN = keyOf (unkey 8 (x / 16777216))
      rw [← hdiv x hx]; exact (hgood x).1 hb
    · obtain ⟨bs, wc, h1, _, _, h4, _⟩ := hP x hx
      show (unkey 8 (x / 16777216)).length < 8
      rw [h4]; exact h1
  · intro p hp
    obtain ⟨x, hx, rfl⟩ := List.mem_map.1 hp
    cases hb : badRow w x with
    | false => exact .inl (List.mem_map.2 ⟨x, List.mem_filter.2 ⟨hx, by rw [hb]; rfl⟩, rfl⟩)
    | true =>
      refine .inr ?_
      unfold tableOf
      rw [← hbad]
      exact List.mem_map.2 ⟨x, List.mem_filter.2 ⟨hx, hb⟩, rfl⟩

/-- The characters the encoder part for the BMP may accept. -/
def gbScalars (more : List Nat) : List Nat := List.range' 0 0xd800 ++ (List.range' 0xe000 0x2000 ++ more)

theorem gbKey_range {i : Nat} (h : i < 50400) : 0x181000000 ≤ keyOf (gbB 0x81 i) ∧ keyOf (gbB 0x81 i) < 0x185000000 := by
  obtain ⟨_, k2, k3, k4, k5⟩ := gbB_num (lo := 0x81) (i := i) (by omega)
  have h1 : i / 10 / 126 % 10 < 10 := Nat.mod_lt _ (by omega)
  have h2 : i / 10 % 126 < 126 := Nat.mod_lt _ (by omega)
  unfold gbB keyOf
  simp only [List.foldl_cons, List.foldl_nil]
  rw [k2, k3, k4, k5]
  have h3 : i / 12600 < 4 := by omega
  have h4 : i % 10 < 10 := Nat.mod_lt _ (by omega)
  omega

/-- The pieces of a check give agreement with the table for the BMP. -/
theorem gb_table {ext : M MbRet} (he : M.Good M.RetOK 1 ext) {idx : Nat → M MbRet} {w : Nat → W}
    (hgu : M.Good M.RetOK 1 (gb4 0x81 0x84 idx)) (hwg : ∀ wc, W.Fits (w wc))
    (hk : chkNone gbk_mbtowc 0x81 4 = true) (hx : chkNone ext 0x81 4 = true)
    {ps : List (Nat × Nat × List Tab)} {ds : List (Tab × Tab)} {ex : List (Nat × Nat)} {ls : List (Tab × Bool)}
    {more : List Nat}
    (hc : coverFrom 0 ps = true) (hw : ∀ p ∈ ps, chkWalk (gbTwo ext) p.1 p.2.1 p.2.2 = true)
    (hd : ds.map (·.1) = pieceTabs ps)
    (hrow : ∀ p ∈ ds, chkRows w p.1 p.2 = true)
    (hlin : LinOK idx w 0 ls) (hll : linLen ls = 39420) (hidx : ∀ i, 39420 ≤ i → idx i = .ret (.ilseq 0))
    (hlw : ∀ q ∈ ls, q.1.w = 16)
    (hex : chkEx (gbTwo ext) w ex = true) (hex4 : ∀ p ∈ ex, p.1 < 0x181000000 ∨ 0x185000000 ≤ p.1)
    (hexn : ex.Nodup)
    (hcnt : 63488 + more.length + (ds.map (·.2.len)).sum ≤
      (ds.map (·.1.len)).sum + ex.length + (ls.map fun p => if p.2 = false then p.1.len else 0).sum)
    (hout : ∀ wc, (w wc).res ≠ none → wc ∈ gbScalars more) :
    TableOK (gbBmp ext (gb4 0x81 0x84 idx)) w (tableOf (pieceTabs ps) ++ linRows 0 ls)
      (tableOf (ds.map (·.2)) ++ (linPart true 0 ls ++ irrOf ex)) ∧ ∀ wc ∈ gbScalars more, (w wc).res ≠ none := by
  have hg2 := gbTwo_good he
  have hL := pieces_lists hg2 hc hw
  have hdec := Lists.dec_iff hg2 hL
  obtain ⟨hB, G, hGn, hGl, hG, hGB⟩ := rows_split hL hd hrow
  obtain ⟨l1, l2, l3, l4⟩ := linRows_sound ls 0 hlin
  rw [hll] at l1 l2
  -- the function of the number
  let R : Nat → MbRet := fun i => match idx i with | .ret r => r | _ => .ilseq 0
  have hf : ∀ i, i < 50400 → idx i = .ret (R i) := by
    intro i _
    by_cases hi : i < 39420
    · obtain ⟨u, h1, _⟩ := l1 i (by omega) (by omega)
      show idx i = .ret (match idx i with | .ret r => r | _ => .ilseq 0)
      rw [h1]
    · show idx i = .ret (match idx i with | .ret r => r | _ => .ilseq 0)
      rw [hidx i (by omega)]
  have hRchar : ∀ i wc n, R i = .char wc n → i < 39420 ∧ n = 4 ∧ idx i = .ret (.char wc 4) := by
    intro i wc n h
    by_cases hi : i < 39420
    · obtain ⟨u, h1, _⟩ := l1 i (by omega) (by omega)
      have h : (match idx i with | .ret r => r | _ => .ilseq 0) = MbRet.char wc n := h
      rw [h1] at h
      simp only [MbRet.char.injEq] at h
      exact ⟨hi, h.2.symm, by rw [h1, h.1]⟩
    · have h : (match idx i with | .ret r => r | _ => .ilseq 0) = MbRet.char wc n := h
      rw [hidx i (by omega)] at h; cases h
  have hR : ∀ i wc n, R i = .char wc n → n = 4 := fun i wc n h => (hRchar i wc n h).2.1
  have h4 : ∀ {s : List Byte}, s ≠ [] → ∀ wc n, (gb4 0x81 0x84 idx).val s = .char wc n ↔
      n ≤ s.length ∧ (s.take n, wc) ∈ linRows 0 ls := by
    intro s hs wc n
    rw [gb4_char (lo := 0x81) (hi := 0x84) (by omega) hf hR hs]
    constructor
    · rintro ⟨h1, rfl, i, hi, h2, h3⟩
      obtain ⟨h5, _, h6⟩ := hRchar _ _ _ h3
      obtain ⟨u, h7, h8⟩ := l1 i (by omega) (by omega)
      rw [h6] at h7
      injection h7 with h7
      injection h7 with h7
      subst h7
      exact ⟨h1, by rw [h2]; exact h8⟩
    · rintro ⟨h1, h2⟩
      obtain ⟨i, _, h5, h6, h7⟩ := l2 _ h2
      have h6 : s.take n = gbB 0x81 i := h6
      have hl : (s.take n).length = 4 := by rw [h6]; rfl
      rw [List.length_take] at hl
      have hn : n = 4 := by omega
      subst hn
      refine ⟨h1, rfl, i, by omega, h6, ?_⟩
      show (match idx i with | .ret r => r | _ => .ilseq 0) = _
      rw [h7]
  have hbmp : ∀ s wc n, s ≠ [] → ((gbBmp ext (gb4 0x81 0x84 idx)).val s = .char wc n ↔
      n ≤ s.length ∧ (s.take n, wc) ∈ tableOf (pieceTabs ps) ++ linRows 0 ls) := by
    intro s wc n hs
    rw [gbBmp_char he hgu hk hx hf hR hs, hdec s wc n hs, h4 hs, List.mem_append]
    constructor
    · rintro (⟨a, b⟩ | ⟨a, b⟩)
      · exact ⟨a, .inl b⟩
      · exact ⟨a, .inr b⟩
    · rintro ⟨a, b | b⟩
      · exact .inl ⟨a, b⟩
      · exact .inr ⟨a, b⟩
  -- codes of four bytes are not among the others
  have hdisj : ∀ p ∈ linRows 0 ls, p ∉ tableOf (pieceTabs ps) := by
    intro p hp hq
    obtain ⟨i, _, h5, h6, _⟩ := l2 p hp
    have h7 := (hdec p.1 p.2 p.1.length (by rw [h6]; simp [gbB])).2 ⟨Nat.le_refl _, by rw [List.take_length]; exact hq⟩
    rw [h6] at h7
    obtain ⟨_, _, k3, k4, _⟩ := gbB_num (lo := 0x81) (i := i) (by omega)
    have hm : i / 10 / 126 % 10 < 10 := Nat.mod_lt _ (by omega)
    have h8 := gbTwo_none (ext := ext) he (a := u8 (i / 10 / 126 / 10 + 0x81)) (b := u8 (i / 10 / 126 % 10 + 0x30))
      (t := [u8 (i / 10 % 126 + 0x81), u8 (i % 10 + 0x30)])
      (chkNone_sound gbk_good hk (by omega) (by omega)) (chkNone_sound he hx (by omega) (by omega)) (by omega) (by omega)
    rw [show gbB 0x81 i = u8 (i / 10 / 126 / 10 + 0x81) :: u8 (i / 10 / 126 % 10 + 0x30) ::
      [u8 (i / 10 % 126 + 0x81), u8 (i % 10 + 0x30)] from rfl, h8] at h7
    cases h7
  -- pairs only the encoder produces
  have hX : ∀ p ∈ ex, unkey 8 p.1 ≠ [] ∧ (unkey 8 p.1).length < 8 ∧ keyOf (unkey 8 p.1) = p.1 ∧
      (w p.2).resN = p.1 ∧ (gbTwo ext).val (unkey 8 p.1) ≠ .char p.2 (unkey 8 p.1).length := by
    intro p hp
    have h2 := List.all_eq_true.1 hex p hp
    simp only [Bool.and_eq_true, beq_iff_eq, decide_eq_true_eq, Bool.not_eq_true', List.isEmpty_eq_false_iff] at h2
    obtain ⟨⟨⟨h3, h4⟩, h5⟩, h6, h7⟩ := h2
    refine ⟨h4, by omega, h5, ?_, ?_⟩
    · rwa [Nat.beq_eq] at h6
    · intro hv
      have h8 : unkeyF p.1 = (unkey 8 p.1).map (·.toNat) := by
        have := unkeyF_eq (unkey 8 p.1) (by omega)
        rwa [h5] at this
      rw [h8, M.evalN_eq hg2 h4, hv, codeN_char, List.length_map] at h7
      have : Nat.beq (8 * p.2 + (unkey 8 p.1).length + 2) (8 * p.2 + (unkey 8 p.1).length + 2) = true := by
        rw [Nat.beq_eq]
      rw [this] at h7
      cases h7
  have hXT : ∀ p ∈ irrOf ex, p ∉ tableOf (pieceTabs ps) ∧ p ∉ linRows 0 ls := by
    intro p hp
    obtain ⟨q, hq, rfl⟩ := List.mem_map.1 hp
    obtain ⟨g1, g2, g3, g4, g5⟩ := hX q hq
    refine ⟨fun h => ?_, fun h => ?_⟩
    · exact g5 ((hdec _ _ _ g1).2 ⟨Nat.le_refl _, by rw [List.take_length]; exact h⟩)
    · obtain ⟨i, _, h5, h6⟩ := linRows_num _ _ h
      rw [hll] at h5
      have := gbKey_range (i := i) (by omega)
      have h6 : unkey 8 q.1 = gbB 0x81 i := h6
      rw [← h6, g3] at this
      have := hex4 q hq
      omega
  -- what the encoder produces
  have hres : ∀ wc bs, bs.length < 8 → ((w wc).res = some bs ↔ (w wc).resN = keyOf bs) := by
    intro wc bs hb
    rw [W.resN_eq]
    cases hr : (w wc).res with
    | none => have := keyOf_pos bs; simp; omega
    | some cs =>
      simp only [Option.some.injEq]
      exact ⟨fun h => by rw [h], fun h => keyOf_inj (hwg wc cs hr).2 hb h⟩
  have hlin8 : ∀ p ∈ linRows 0 ls, p.1.length < 8 := by
    intro p hp
    obtain ⟨i, _, _, h6⟩ := linRows_num _ _ hp
    rw [h6]; simp [gbB]
  have hP : ∀ p ∈ G ++ (linPart false 0 ls ++ irrOf ex), (w p.2).res = some p.1 := by
      intro p hp
      rcases List.mem_append.1 hp with hp | hp
      · obtain ⟨_, h1, h2⟩ := hG p hp
        exact (hres _ _ h2).2 h1
      · rcases List.mem_append.1 hp with hp | hp
        · exact (hres _ _ (hlin8 p (linPart_sub hp))).2 (l4 p hp)
        · obtain ⟨q, hq, rfl⟩ := List.mem_map.1 hp
          obtain ⟨g1, g2, g3, g4, g5⟩ := hX q hq
          exact (hres _ _ g2).2 (by rw [g3]; exact g4)
  have hN : (G ++ (linPart false 0 ls ++ irrOf ex)).Nodup := by
      rw [List.nodup_append]
      refine ⟨hGn, ?_, ?_⟩
      · rw [List.nodup_append]
        refine ⟨linPart_nodup _ _ (by rw [hll]; omega), ?_, ?_⟩
        · unfold irrOf
          unfold List.Nodup at hexn ⊢
          rw [List.pairwise_map]
          refine List.Pairwise.imp_of_mem ?_ hexn
          intro p q hp hq hne h
          injection h with h1 h2
          have e1 := (hX p hp).2.2.1
          have e2 := (hX q hq).2.2.1
          exact hne (Prod.ext (by rw [← e1, ← e2, h1]) h2)
        · rintro p hp q hq rfl
          exact (hXT p hq).2 (linPart_sub hp)
      · rintro p hp q hq rfl
        rcases List.mem_append.1 hq with hq | hq
        · exact hdisj p (linPart_sub hq) (hG p hp).1
        · exact (hXT p hq).1 (hG p hp).1
  have hLen : (gbScalars more).length ≤ (G ++ (linPart false 0 ls ++ irrOf ex)).length := by
      simp only [gbScalars, List.length_append, List.length_range', linPart_length, irrOf, List.length_map]
      omega
  have hE := enc_of_rows hP hN hout hLen
  have hAll : ∀ wc ∈ gbScalars more, (w wc).res ≠ none := by
    intro wc hwc
    obtain ⟨p, hp, rfl⟩ := List.mem_map.1 (rows_all hP hN hout hLen wc hwc)
    rw [hP p hp]; simp
  refine ⟨⟨hbmp, ?_, ?_⟩, hAll⟩
  · intro wc bs
    rw [hE]
    simp only [List.mem_append]
    constructor
    · rintro (h | h | h)
      · refine .inl ⟨.inl (hG _ h).1, ?_⟩
        rintro (h' | h' | h')
        · exact (hB _ h').2 (hG _ h).2.1
        · exact l3 _ h' (hG _ h).2.1
        · exact (hXT _ h').1 (hG _ h).1
      · refine .inl ⟨.inr (linPart_sub h), ?_⟩
        rintro (h' | h' | h')
        · exact (hB _ h').2 (l4 _ h)
        · exact l3 _ h' (l4 _ h)
        · exact (hXT _ h').2 (linPart_sub h)
      · refine .inr ⟨?_, .inr (.inr h)⟩
        rintro (h' | h')
        · exact (hXT _ h).1 h'
        · exact (hXT _ h).2 h'
    · rintro (⟨h1, h2⟩ | ⟨h1, h2⟩)
      · rcases h1 with h1 | h1
        · rcases hGB _ h1 with h | h
          · exact .inl h
          · exact absurd (.inl h) h2
        · rcases (mem_linRows _ _).1 h1 with h | h
          · exact absurd (.inr (.inl h)) h2
          · exact .inr (.inl h)
      · rcases h2 with h2 | h2 | h2
        · exact absurd (.inl (hB _ h2).1) h1
        · exact absurd (.inr (linPart_sub h2)) h1
        · exact .inr (.inr h2)
  · intro bs wc h
    rcases List.mem_append.1 h with h | h
    · obtain ⟨x, _, h1⟩ := List.mem_map.1 h
      injection h1 with _ h1
      omega
    · have : ∀ (l : List (Tab × Bool)) (o : Nat), (∀ q ∈ l, q.1.w = 16) → ∀ p ∈ linRows o l, p.2 < 16777216 := by
        intro l
        induction l with
        | nil => intro o _ p hp; cases hp
        | cons q l ih =>
          obtain ⟨t, b⟩ := q
          intro o hq p hp
          simp only [linRows, List.mem_append, List.mem_map] at hp
          rcases hp with ⟨j, _, rfl⟩ | hp
          · have h16 : t.w = 16 := hq _ (List.mem_cons_self ..)
            show (t.dat >>> (t.w * j)) % 2 ^ t.w < 16777216
            rw [h16]
            exact Nat.lt_of_lt_of_le (Nat.mod_lt _ (by decide)) (by decide)
          · exact ih _ (fun q h => hq q (List.mem_cons_of_mem _ h)) p hp
      exact this ls 0 hlw _ h

/-! ## The other characters -/

/-- The codes for the characters outside the BMP. -/
def gbSup : List (List Byte × Nat) := (List.range 0x100000).map fun i => (gbB 0x90 i, 0x10000 + i)

theorem gb_sup_char {s : List Byte} (hs : s ≠ []) (wc n : Nat) :
    gb_sup.val s = .char wc n ↔ n ≤ s.length ∧ (s.take n, wc) ∈ gbSup := by
  unfold gb_sup
  rw [gb4_char (lo := 0x90) (hi := 0xe3) (R := fun i => if i < 0x100000 then .char (0x10000 + i) 4 else .ilseq 0)
    (by omega) (by intro i _; split <;> rfl) (by
      intro i wc n h
      split at h
      · injection h with _ h; exact h.symm
      · cases h) hs]
  simp only [gbSup, List.mem_map, List.mem_range, Prod.mk.injEq]
  constructor
  · rintro ⟨h1, rfl, i, hi, h2, h3⟩
    split at h3
    · next h => injection h3 with h3 _; exact ⟨h1, i, h, h2.symm, h3⟩
    · cases h3
  · rintro ⟨h1, i, hi, h2, h3⟩
    have hl : (s.take n).length = 4 := by rw [← h2]; rfl
    rw [List.length_take] at hl
    have hn : n = 4 := by omega
    subst hn
    exact ⟨h1, rfl, i, by omega, h2.symm, by rw [if_pos hi, h3]⟩

theorem gb_wsup_res (wc : Nat) (bs : List Byte) : (gb_wsup wc).res = some bs ↔ (bs, wc) ∈ gbSup := by
  simp only [gbSup, List.mem_map, List.mem_range, Prod.mk.injEq]
  have e : (gb_wsup wc).res = if wc ≥ 0x10000 ∧ wc < 0x110000 then some (gbB 0x90 (wc - 0x10000)) else none := by
    unfold gb_wsup
    show (if wc ≥ 0x10000 ∧ wc < 0x110000 then gbPut 0x90 (wc - 0x10000) else W.iluni).res = _
    split <;> rfl
  rw [e]
  constructor
  · intro h
    split at h
    · next hw => injection h with h; exact ⟨wc - 0x10000, by omega, h, by omega⟩
    · cases h
  · rintro ⟨i, hi, h1, rfl⟩
    rw [if_pos (by omega), show 0x10000 + i - 0x10000 = i by omega, h1]

theorem W.orElse_res_some {a b : W} {bs : List Byte} (h : a.res = some bs) : (a.orElse b).res = some bs := by
  induction a with
  | room j w ih => exact ih h
  | put l => exact h
  | iluni => cases h
  | ub => cases h
  | abort => cases h

/-- The encoder program gives bytes or `RET_ILUNI`. -/
def W.Plain : W → Prop
  | .room _ w => w.Plain
  | .put _ => True
  | .iluni => True
  | .ub => False
  | .abort => False

theorem W.orElse_res_none {a b : W} (hp : a.Plain) (h : a.res = none) : (a.orElse b).res = b.res := by
  induction a with
  | room j w ih => exact ih hp h
  | put l => cases h
  | iluni => rfl
  | ub => exact hp.elim
  | abort => exact hp.elim

/-- The table for the BMP and the codes for the other characters give the whole table. -/
theorem gb_all {m : M MbRet} {w : Nat → W} {T irr0 irr E : List (List Byte × Nat)} (h : TableOK m w T irr0)
    (hg : M.Good M.RetOK 1 m) (hpl : ∀ wc, (w wc).Plain)
    (hnone : ∀ (a b : Byte) t, 0x90 ≤ a.toNat → a.toNat ≤ 0xe3 → 0x30 ≤ b.toNat → b.toNat ≤ 0x39 →
      m.val (a :: b :: t) = .ilseq 0)
    (hirr : ∀ p, p ∈ irr0 ↔ p ∈ irr ∨ p ∈ E) (hE : ∀ p ∈ E, p ∈ gbSup)
    (hd : ∀ p ∈ irr, p ∈ T ∨ p.2 < 0x10000)
    (hw : ∀ p ∈ gbSup, (w p.2).res = none ∨ (w p.2).res = some p.1) :
    TableOK (m.first gb_sup) (fun wc => (w wc).orElse (gb_wsup wc)) (T ++ gbSup) irr := by
  -- the codes of `gbSup` are not among the others
  have hb : ∀ p ∈ gbSup, ∃ a b t, p.1 = a :: b :: t ∧ 0x90 ≤ a.toNat ∧ a.toNat ≤ 0xe3 ∧ 0x30 ≤ b.toNat ∧
      b.toNat ≤ 0x39 ∧ p.2 < 16777216 ∧ 0x10000 ≤ p.2 := by
    intro p hp
    simp only [gbSup, List.mem_map, List.mem_range] at hp
    obtain ⟨i, hi, rfl⟩ := hp
    obtain ⟨_, _, k3, k4, _⟩ := gbB_num (lo := 0x90) (i := i) (by omega)
    have hm : i / 10 / 126 % 10 < 10 := Nat.mod_lt _ (by omega)
    exact ⟨_, _, _, rfl, by omega, by omega, by omega, by omega, by show 0x10000 + i < _; omega, by
      show _ ≤ 0x10000 + i; omega⟩
  have hil : ∀ s wc n, s ≠ [] → gb_sup.val s = .char wc n → m.val s = .ilseq 0 := by
    intro s wc n hs hv
    obtain ⟨hn, hm⟩ := (gb_sup_char hs wc n).1 hv
    obtain ⟨a, b, t, h1, h2, h3, h4, h5, _⟩ := hb _ hm
    have h6 : s = a :: b :: (t ++ s.drop n) := by
      have := List.take_append_drop n s
      have h1 : s.take n = a :: b :: t := h1
      rw [h1] at this
      exact this.symm
    rw [h6]
    exact hnone a b _ h2 h3 h4 h5
  have hTS : ∀ p ∈ gbSup, p ∉ T := by
    intro p hp hT
    obtain ⟨a, b, t, h1, h2, h3, h4, h5, _⟩ := hb _ hp
    have h6 := (h.dec_iff p.1 p.2 p.1.length (by rw [h1]; simp)).2 ⟨Nat.le_refl _, by rw [List.take_length]; exact hT⟩
    rw [h1, hnone a b t h2 h3 h4 h5] at h6
    cases h6
  have hSi : ∀ p ∈ gbSup, p ∉ irr := by
    intro p hp hi
    rcases hd p hi with h' | h'
    · exact hTS p hp h'
    · obtain ⟨_, _, _, _, _, _, _, _, _, h6⟩ := hb _ hp
      omega
  refine ⟨?_, ?_, ?_⟩
  · intro s wc n hs
    rw [M.first_char hg hs, h.dec_iff s wc n hs, gb_sup_char hs, List.mem_append]
    constructor
    · rintro (⟨a, b⟩ | ⟨_, a, b⟩)
      · exact ⟨a, .inl b⟩
      · exact ⟨a, .inr b⟩
    · rintro ⟨a, b | b⟩
      · exact .inl ⟨a, b⟩
      · exact .inr ⟨hil s wc n hs ((gb_sup_char hs wc n).2 ⟨a, b⟩), a, b⟩
  · intro wc bs
    simp only [List.mem_append]
    constructor
    · intro hr
      cases hwr : (w wc).res with
      | some cs =>
        rw [W.orElse_res_some hwr] at hr
        injection hr with hr
        subst hr
        rcases (h.enc_iff wc cs).1 hwr with ⟨h1, h2⟩ | ⟨h1, h2⟩
        · exact .inl ⟨.inl h1, fun h3 => h2 ((hirr _).2 (.inl h3))⟩
        · rcases (hirr _).1 h2 with h3 | h3
          · exact .inr ⟨fun h4 => h4.elim h1 fun h5 => hSi _ h5 h3, h3⟩
          · exact .inl ⟨.inr (hE _ h3), hSi _ (hE _ h3)⟩
      | none =>
        rw [W.orElse_res_none (hpl wc) hwr, gb_wsup_res] at hr
        exact .inl ⟨.inr hr, hSi _ hr⟩
    · rintro (⟨h1 | h1, h2⟩ | ⟨h1, h2⟩)
      · refine W.orElse_res_some ((h.enc_iff wc bs).2 (.inl ⟨h1, fun h3 => ?_⟩))
        rcases (hirr _).1 h3 with h4 | h4
        · exact h2 h4
        · exact hTS _ (hE _ h4) h1
      · rcases hw _ h1 with h3 | h3
        · rw [W.orElse_res_none (hpl wc) h3]; exact (gb_wsup_res wc bs).2 h1
        · exact W.orElse_res_some h3
      · exact W.orElse_res_some ((h.enc_iff wc bs).2 (.inr ⟨fun h3 => h1 (.inl h3), (hirr _).2 (.inl h2)⟩))
  · intro bs wc hm
    rcases List.mem_append.1 hm with h1 | h1
    · exact h.small bs wc h1
    · obtain ⟨_, _, _, _, _, _, _, _, h5, _⟩ := hb _ h1
      exact h5

/-- In the decoder part for the BMP, the first bytes of the other characters give `RET_ILSEQ`. -/
theorem gbBmp_none {ext : M MbRet} (he : M.Good M.RetOK 1 ext) {idx : Nat → M MbRet}
    (hgu : M.Good M.RetOK 1 (gb4 0x81 0x84 idx)) (hk : chkNone gbk_mbtowc 0x90 84 = true)
    (hx : chkNone ext 0x90 84 = true) (a b : Byte) (t : List Byte) (h1 : 0x90 ≤ a.toNat) (h2 : a.toNat ≤ 0xe3)
    (h3 : 0x30 ≤ b.toNat) (h4 : b.toNat ≤ 0x39) : (gbBmp ext (gb4 0x81 0x84 idx)).val (a :: b :: t) = .ilseq 0 := by
  have e1 : (gbBmp ext (gb4 0x81 0x84 idx)).val (a :: b :: t) =
      (gbk_mbtowc.first (ext.first ((gb4 0x81 0x84 idx).first gb_user))).val (a :: b :: t) := by
    unfold gbBmp M.val
    simp only [M.run, List.getElem?_cons_zero, List.getElem?_cons_succ, List.length_cons]
    rw [if_neg (by omega)]
  rw [e1, M.first_val gbk_good (by simp), if_pos (chkNone_sound gbk_good hk (by omega) (by omega)),
    M.first_val he (by simp), if_pos (chkNone_sound he hx (by omega) (by omega)), M.first_val hgu (by simp),
    if_pos (gb4_other (by omega)), gb_user_other (.inr (by omega))]

theorem cntSweep_zero {w : Nat → W} {lo n : Nat} (h : cntSweep w lo n = 0) {wc : Nat} (h1 : lo ≤ wc) (h2 : wc < lo + n) :
    (w wc).res = none := by
  rw [cntSweep_eq, List.length_eq_zero_iff, List.filter_eq_nil_iff] at h
  have := h wc (by rw [List.mem_range'_1]; omega)
  cases hr : (w wc).res with
  | none => rfl
  | some x => rw [hr] at this; exact absurd rfl this

theorem gb_scalars {w : Nat → W} {more : List Nat} {rs : List (Nat × Nat × Nat)}
    (ho : ∀ wc, (w wc).res ≠ none → ∃ r ∈ rs, r.1 ≤ wc ∧ wc < r.1 + r.2.1)
    (hr : ∀ r ∈ rs, r.1 + r.2.1 ≤ 0x10000 ∨ (r.2.1 = 1 ∧ r.1 ∈ more))
    (h0 : cntSweep w 0xd800 512 = 0) (h1 : cntSweep w 0xda00 512 = 0) (h2 : cntSweep w 0xdc00 512 = 0)
    (h3 : cntSweep w 0xde00 512 = 0) (wc : Nat) (h : (w wc).res ≠ none) : wc ∈ gbScalars more := by
  unfold gbScalars
  rw [List.mem_append, List.mem_append, List.mem_range'_1, List.mem_range'_1]
  obtain ⟨r, hm, h4, h5⟩ := ho wc h
  rcases hr r hm with h6 | ⟨h6, h7⟩
  · have s0 : ¬ (0xd800 ≤ wc ∧ wc < 0xd800 + 512) := fun hh => h (cntSweep_zero h0 hh.1 hh.2)
    have s1 : ¬ (0xda00 ≤ wc ∧ wc < 0xda00 + 512) := fun hh => h (cntSweep_zero h1 hh.1 hh.2)
    have s2 : ¬ (0xdc00 ≤ wc ∧ wc < 0xdc00 + 512) := fun hh => h (cntSweep_zero h2 hh.1 hh.2)
    have s3 : ¬ (0xde00 ≤ wc ∧ wc < 0xde00 + 512) := fun hh => h (cntSweep_zero h3 hh.1 hh.2)
    omega
  · have : wc = r.1 := by omega
    subst this
    exact .inr (.inr h7)

/-! ## Encoder programs that may store more than they checked for -/

/-- The encoder program gives one to seven bytes or `RET_ILUNI`, with room for seven bytes. -/
def W.Fit : W → Prop
  | .room j w => j ≤ 7 ∧ w.Fit
  | .put bs => bs ≠ [] ∧ bs.length < 8
  | .iluni => True
  | .ub => False
  | .abort => False

theorem W.Fit.fits {w : W} (h : w.Fit) : w.Fits := by
  induction w with
  | room j w ih => exact ih h.2
  | put bs =>
    intro cs hr
    injection hr with hr
    subst hr
    exact ⟨fun h0 => h.1 (List.map_eq_nil_iff.1 h0), by rw [List.length_map]; exact h.2⟩
  | iluni => intro bs hr; cases hr
  | ub => exact h.elim
  | abort => exact h.elim

theorem W.Fit.plain {w : W} (h : w.Fit) : w.Plain := by
  induction w with
  | room j w ih => exact ih h.2
  | put bs => trivial
  | iluni => trivial
  | ub => exact h
  | abort => exact h

theorem W.Fit.orElse {a b : W} (ha : a.Fit) (hb : b.Fit) : (a.orElse b).Fit := by
  induction a with
  | room j w ih => exact ⟨ha.1, ih ha.2⟩
  | put bs => exact ha
  | iluni => exact hb
  | ub => exact ha
  | abort => exact ha

theorem W.Fit.ite {c : Prop} [Decidable c] {a b : W} (ha : a.Fit) (hb : b.Fit) : (if c then a else b).Fit := by
  split
  · exact ha
  · exact hb

theorem W.Good.fit : ∀ {w : W} {k : Nat}, W.Good k w → w.Fit := by
  intro w
  induction w with
  | room j w ih =>
    intro k h
    have h1 := W.good_need _ _ h
    exact ⟨by simp only [W.need] at h1; omega, ih h⟩
  | put bs =>
    intro k h
    have h1 := W.good_len _ _ _ h rfl
    have h2 := W.good_need _ _ h
    rw [List.length_map] at h1
    refine ⟨fun h0 => h1.1 (by rw [h0]; rfl), ?_⟩
    omega
  | iluni => intro k h; trivial
  | ub => intro k h; exact h.elim
  | abort => intro k h; exact h.elim

/-- With unlimited room the encoder stores the result of the program. -/
theorem W.Fit.full {w : Nat → W} {c : Nat} (h : (w c).Fit) (os : Nat) :
    (W.enc w).full os c = (w c).res.map fun bs => (bs, os) := by
  have key : ∀ v : W, v.Fit → v.run os 64 = .ok (match v.res with
      | some bs => .put bs os
      | none => .iluni os) := by
    intro v
    induction v with
    | room j v ih =>
      intro h1
      show (if j ≤ 64 then _ else _) = _
      rw [if_pos (by have := h1.1; omega)]
      exact ih h1.2
    | put bs => intro _; simp [W.run, W.res]
    | iluni => intro _; rfl
    | ub => intro h; exact h.elim
    | abort => intro h; exact h.elim
  unfold Encoder.full
  show (match (w c).run os 64 with
    | .ok ⟨.wrote _, ws, st⟩ => some (ws, st)
    | _ => none) = _
  rw [key _ h]
  cases (w c).res <;> rfl

theorem gbPut_fit (lo i : Nat) : (gbPut lo i).Fit := ⟨by simp, by simp⟩

theorem gb_wuser_fit (wc : Nat) : (gb_wuser wc).Fit := by
  unfold gb_wuser
  refine W.Fit.ite ?_ ?_ <;> exact ⟨by simp, by simp⟩

theorem gb2005_wuni_fit (wc : Nat) : (gb18030_2005_uni_wctomb wc).Fit := by
  have h1 : (gb_wuni wc).Fit := (gb_wuni_good rfl).fit
  have h2 := gbPut_fit
  refine ⟨by omega, ?_⟩
  show W.Fit (if _ then _ else _)
  refine W.Fit.ite (W.Fit.ite (h2 _ _) h1) (W.Fit.ite ?_ trivial)
  repeat' first | exact h2 _ _ | exact trivial | refine W.Fit.ite ?_ ?_

theorem pua2005Dir_ok (wc k : Nat) (hk : k < 35) : ∃ d, pua2005Dir wc k = .ok d := by
  have hl : gb18030_2005_pua_lo.len = 35 := rfl
  have hl2 : gb18030_2005_pua_hi.len = 35 := rfl
  unfold pua2005Dir
  rw [Tab.get_fast (by omega)]
  simp only [Outcome.bind]
  split
  · exact ⟨_, rfl⟩
  · rw [Tab.get_fast (by omega)]
    simp only
    split <;> exact ⟨_, rfl⟩

theorem gb_pua2005_fit {wc : Nat} {rest : W} (h : rest.Fit) : (gb_pua2005 wc rest).Fit := by
  have hl : gb18030_2005_pua_lo.len = 35 := rfl
  have hl2 : gb18030_2005_pua_charset.len = 35 := rfl
  obtain ⟨j, s, e, l, l2⟩ := bsearch_ok (pua2005Dir_ok wc) 36 0 35 (by omega) (by omega) (by omega)
  unfold gb_pua2005 Outcome.inW
  rw [e]
  simp only
  cases s with
  | false => exact h
  | true =>
    have := l2 rfl
    simp only [if_true]
    rw [Tab.rdW_eq (by omega), Tab.rdW_eq (by omega)]
    refine W.Fit.ite ?_ ?_ <;> exact ⟨by simp, by simp⟩

theorem gb18030_2005_wbmp_fit (wc : Nat) : (gb18030_2005_wbmp wc).Fit := by
  unfold gb18030_2005_wbmp
  refine W.Fit.orElse (W.Good.fit (ascii_w_good wc)) (W.Fit.orElse
    (W.Good.fit (W.Clean.good (by omega) (by omega) _ 0 (gbk_clean wc))) (W.Fit.orElse ?_ ?_))
  · exact W.Good.fit (CsEnc.good gb18030ext_enc_safe wc)
  · refine W.Fit.ite ⟨by omega, ?_⟩ (gb2005_wuni_fit wc)
    exact W.Fit.ite (gb_wuser_fit wc) (gb_pua2005_fit (gb2005_wuni_fit wc))

theorem gb18030_2005_fit (wc : Nat) : (gb18030_2005_wctomb wc).Fit :=
  W.Fit.orElse (gb18030_2005_wbmp_fit wc) (W.Good.fit (gb_wsup_good wc))

/-! ## Evaluation of the 2005 table of user-defined characters -/

noncomputable def pua2005G (wc k : Nat) : Nat :=
  Bool.rec (Bool.rec 2 1 (Nat.ble (Nat.succ (gb18030_2005_pua_hi.getF k)) wc)) 0
    (Nat.ble (Nat.succ wc) (gb18030_2005_pua_lo.getF k))

theorem pua2005G_ok (wc k : Nat) (hk : k < 35) : pua2005Dir wc k = .ok (dirOf (pua2005G wc k)) := by
  have hl : gb18030_2005_pua_lo.len = 35 := rfl
  have hl2 : gb18030_2005_pua_hi.len = 35 := rfl
  unfold pua2005Dir pua2005G
  rw [Tab.get_fast (by omega)]
  simp only [Outcome.bind]
  show (if wc + 1 ≤ gb18030_2005_pua_lo.getF k then _ else _) =
    Outcome.ok (dirOf (Bool.rec _ 0 (Nat.ble (wc + 1) (gb18030_2005_pua_lo.getF k))))
  rw [ite_le_fast]
  cases Nat.ble (wc + 1) (gb18030_2005_pua_lo.getF k) with
  | true => rfl
  | false =>
    rw [Tab.get_fast (by omega)]
    show (if gb18030_2005_pua_hi.getF k + 1 ≤ wc then _ else _) =
      Outcome.ok (dirOf (Bool.rec 2 1 (Nat.ble (gb18030_2005_pua_hi.getF k + 1) wc)))
    rw [ite_le_fast]
    cases Nat.ble (gb18030_2005_pua_hi.getF k + 1) wc <;> rfl

theorem gb_pua2005_fast (wc : Nat) (rest : W) : gb_pua2005 wc rest =
    bsThen (bsF (pua2005G wc) 36 0 35)
      (fun k => gb18030_2005_pua_charset.rdW k fun cs => gb18030_2005_pua_lo.rdW k fun lo =>
        let c := cs + (wc - lo)
        if c < 0x10000 then .put [c / 256, c % 256]
        else .put [c / 16777216, c / 65536 % 256, c / 256 % 256, c % 256]) (fun _ => rest) := by
  unfold gb_pua2005 Outcome.inW
  rw [bsearch_fast (pua2005G_ok wc) 36 0 35 (by omega) (by omega) (by omega), bsThen_eq]

/-! ## Both parts together -/

theorem gb_final {ext : M MbRet} {idx : Nat → M MbRet} {w : Nat → W} {ps : List (Nat × Nat × List Tab)}
    {ds : List (Tab × Tab)} {ex ex2 : List (Nat × Nat)} {ls : List (Tab × Bool)} {more : List Nat}
    {rs : List (Nat × Nat × Nat)}
    (h : TableOK (gbBmp ext (gb4 0x81 0x84 idx)) w (tableOf (pieceTabs ps) ++ linRows 0 ls)
      (tableOf (ds.map (·.2)) ++ (linPart true 0 ls ++ irrOf (ex ++ ex2))))
    (hfit : ∀ wc, (w wc).Fit)
    (he : M.Good M.RetOK 1 ext) (hgu : M.Good M.RetOK 1 (gb4 0x81 0x84 idx)) (hg : M.Good M.RetOK 1 (gbBmp ext (gb4 0x81 0x84 idx)))
    (hk : chkNone gbk_mbtowc 0x90 84 = true) (hx : chkNone ext 0x90 84 = true)
    (hd : ds.map (·.1) = pieceTabs ps) (hrow : ∀ p ∈ ds, chkRows w p.1 p.2 = true)
    (ho : ∀ wc, (w wc).res ≠ none → ∃ r ∈ rs, r.1 ≤ wc ∧ wc < r.1 + r.2.1)
    (hr : ∀ r ∈ rs, r.1 + r.2.1 ≤ 0x10000 ∨ (r.2.1 = 1 ∧ r.1 ∈ more))
    (hex : ∀ p ∈ ex, p.2 < 0x10000)
    (hex2 : ∀ p ∈ irrOf ex2, 0x10000 ≤ p.2 ∧ p.2 < 0x110000 ∧ p.1 = gbB 0x90 (p.2 - 0x10000))
    (hmore : ∀ c ∈ more, (w c).res = some (gbB 0x90 (c - 0x10000))) :
    TableOK ((gbBmp ext (gb4 0x81 0x84 idx)).first gb_sup) (fun wc => (w wc).orElse (gb_wsup wc))
      ((tableOf (pieceTabs ps) ++ linRows 0 ls) ++ gbSup)
      (tableOf (ds.map (·.2)) ++ (linPart true 0 ls ++ irrOf ex)) := by
  refine gb_all (E := irrOf ex2) h hg (fun wc => (hfit wc).plain) (gbBmp_none he hgu hk hx) ?_ ?_ ?_ ?_
  · intro p
    simp only [List.mem_append, irrOf, List.map_append]
    grind
  · intro p hp
    obtain ⟨h1, h2, h3⟩ := hex2 p hp
    simp only [gbSup, List.mem_map, List.mem_range]
    refine ⟨p.2 - 0x10000, by omega, ?_⟩
    rw [← h3]
    exact Prod.ext rfl (by simp only; omega)
  · intro p hp
    rcases List.mem_append.1 hp with hp | hp
    · refine .inl (List.mem_append.2 (.inl ?_))
      unfold tableOf at hp ⊢
      obtain ⟨x, hx, rfl⟩ := List.mem_map.1 hp
      rw [← chkRows_sound ds hrow, hd] at hx
      exact List.mem_map.2 ⟨x, (List.mem_filter.1 hx).1, rfl⟩
    · rcases List.mem_append.1 hp with hp | hp
      · exact .inl (List.mem_append.2 (.inr ((mem_linRows ..).2 (.inl hp))))
      · right
        unfold irrOf at hp
        obtain ⟨x, hx, rfl⟩ := List.mem_map.1 hp
        exact hex x hx
  · intro p hp
    simp only [gbSup, List.mem_map, List.mem_range] at hp
    obtain ⟨i, hi, rfl⟩ := hp
    by_cases hn : (w (0x10000 + i)).res = none
    · exact .inl hn
    · obtain ⟨r, h1, h2, h3⟩ := ho _ hn
      rcases hr r h1 with h4 | ⟨h4, h5⟩
      · omega
      · have h6 := hmore _ h5
        have h7 : r.1 = 0x10000 + i := by omega
        rw [h7] at h6
        refine .inr (h6.trans ?_)
        rw [show 0x10000 + i - 0x10000 = i by omega]

end Reiconv
