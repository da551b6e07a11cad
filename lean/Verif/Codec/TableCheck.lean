import Verif.Codec.Unroll

/-!
# Checking an encoding against a table

A table is a list of pairs (bytes, character). It is stored as rows `key * 2^24 + wc` packed into
`Tab`s, where `key` is the number with the digits 1 and the bytes in base 256. The checks walk through all byte sequences a
decoder program accepts in lexicographic order and compare them with the rows.
-/

namespace Reiconv

/-- The number with digits 1 and the bytes `s` in base 256. -/
def keyOf (s : List Byte) : Nat := s.foldl (fun k b => 256 * k + b.toNat) 1

/-- The bytes of a key. -/
def unkey : Nat → Nat → List Byte
  | 0, _ => []
  | fuel + 1, k => if k < 256 then [] else unkey fuel (k / 256) ++ [u8 k]

/-- Entry `i` of a packed table. -/
def Tab.row (t : Tab) (i : Nat) : Nat := (t.dat >>> (t.w * i)) % 2 ^ t.w

theorem Tab.row_eq (t : Tab) : t.row = t.getF := rfl

/-- The rows of a packed table. -/
def packed (ts : List Tab) : List Nat := ts.flatMap fun t => (List.range t.len).map t.row

/-- The table, as pairs (bytes, character). -/
def tableOf (ts : List Tab) : List (List Byte × Nat) :=
  (packed ts).map fun x => (unkey 8 (x / 16777216), x % 16777216)

theorem keyOf_append (s : List Byte) (b : Byte) : keyOf (s ++ [b]) = 256 * keyOf s + b.toNat := by
  simp [keyOf]

theorem keyOf_pos (s : List Byte) : 1 ≤ keyOf s := by
  suffices h : ∀ (s : List Byte) (k : Nat), 1 ≤ k → 1 ≤ s.foldl (fun k b => 256 * k + b.toNat) k from
    h s 1 (Nat.le_refl _)
  intro s
  induction s with
  | nil => intro k h; exact h
  | cons a s ih =>
    intro k h
    have : 1 ≤ 256 * k + a.toNat := by omega
    exact ih _ this

theorem unkey_keyOf : ∀ (fuel : Nat) (s : List Byte), s.length < fuel → unkey fuel (keyOf s) = s := by
  intro fuel
  induction fuel with
  | zero => intro s h; omega
  | succ fuel ih =>
    intro s h
    rcases List.eq_nil_or_concat s with rfl | ⟨s', b, rfl⟩
    · rfl
    · rw [List.concat_eq_append] at h ⊢
      rw [keyOf_append]
      have := keyOf_pos s'
      have hb := UInt8.toNat_lt b
      rw [unkey, if_neg (by omega), show (256 * keyOf s' + b.toNat) / 256 = keyOf s' by omega,
        ih s' (by simp at h; omega)]
      congr 2
      apply UInt8.toNat_inj.1
      rw [u8_toNat]
      omega

theorem keyOf_inj {s t : List Byte} (hs : s.length < 8) (ht : t.length < 8) (h : keyOf s = keyOf t) :
    s = t := by
  rw [← unkey_keyOf 8 s hs, ← unkey_keyOf 8 t ht, h]

/-! ## The checks -/

/-- Compare the next row with `x`. -/
noncomputable def popRow (ts : List Tab) (i x : Nat) (k : List Tab → Nat → Bool) : Bool :=
  List.rec false (fun t r _ => cond (Nat.beq (t.getF i) x)
    (cond (Nat.beq (Nat.succ i) t.len) (k r 0)
      (cond (Nat.ble (Nat.succ (Nat.succ i)) t.len) (forceN (Nat.succ i) (k (t :: r))) false)) false) ts

noncomputable def endRow (ts : List Tab) (_i : Nat) : Bool := List.rec true (fun _ _ _ => false) ts

noncomputable def snocF (l : List Nat) (b : Nat) : List Nat :=
  List.rec [b] (fun a _ ih => a :: ih) l

/-- The bytes `lo`, …, `lo + n - 1`, backwards from `hi = lo + n`. -/
noncomputable def walkLoop (f : (List Tab → Nat → Bool) → List Tab → Nat → Nat → Bool) (hi n : Nat)
    (k : List Tab → Nat → Bool) : List Tab → Nat → Bool :=
  Nat.rec k (fun n ih ts i => forceN (Nat.sub hi (Nat.succ n)) (f ih ts i)) n

/-- A walk through all inputs of a decoder program: `env` are the `len` bytes read so far, `nd` bytes
are known to be there, `key` is the number for `env`. A byte read for the first time takes all values. -/
noncomputable def walkT (m : M MbRet) :
    List Nat → Nat → Nat → Nat → (List Tab → Nat → Bool) → List Tab → Nat → Bool :=
  M.rec (motive := fun _ => List Nat → Nat → Nat → Nat → (List Tab → Nat → Bool) → List Tab → Nat → Bool)
    (fun r _ len nd key k ts i => MbRet.rec (motive := fun _ => Bool)
      (fun wc n => Bool.rec false (Bool.rec false (forceN wc fun wc => Bool.rec false
        (popRow ts i (Nat.add (Nat.mul key 16777216) wc) k)
        (Nat.ble (Nat.succ wc) 16777216)) (Nat.ble nd len)) (Nat.beq n len)) (fun _ => k ts i) (fun _ => false) r)
    (fun _ _ _ _ _ _ _ => false) (fun _ _ _ _ _ _ _ => false)
    (fun j _ ih env len nd key => Bool.rec (ih env len j key) (ih env len nd key) (Nat.ble j nd))
    (fun i _ ih env len nd key k => Bool.rec
      (Bool.rec (fun _ _ => false) (Bool.rec (fun _ _ => false)
        (walkLoop (fun k ts i b => forceN (Nat.add (Nat.mul 256 key) b) fun key =>
          ih b (snocF env b) (Nat.succ len) nd key k ts i) 256 256 k) (Nat.ble len 6)) (Nat.beq i len))
      (forceN (nthF env i) fun b => ih b env len nd key k) (Nat.ble (Nat.succ i) len)) m

/-- The byte sequences that start with a byte from `lo` to `lo + n - 1` and are characters are
exactly the rows `ts`. -/
noncomputable def chkWalk (m : M MbRet) (lo n : Nat) (ts : List Tab) : Bool :=
  walkLoop (fun k ts i b => walkT m [b] 1 1 (Nat.add 256 b) k ts i) (Nat.add lo n) n endRow ts 0

/-! ## Soundness -/

theorem nthF_eq (l : List Nat) : ∀ i, nthF l i = l.getD i 0 := by
  induction l with
  | nil => intro i; rfl
  | cons a l ih =>
    intro i
    cases i with
    | zero => rfl
    | succ i => show nthF l i = _; rw [ih]; simp

theorem lenF_eq (l : List Nat) : lenF l = l.length := by
  induction l with
  | nil => rfl
  | cons a l ih => show Nat.succ (lenF l) = _; rw [ih]; rfl

theorem snocF_eq (l : List Nat) (b : Nat) : snocF l b = l ++ [b] := by
  induction l with
  | nil => rfl
  | cons a l ih => show a :: snocF l b = _; rw [ih]; rfl

theorem M.evalN_run {P : Nat → MbRet → Prop} : ∀ (m : M MbRet) (k : Nat) (s : List Byte),
    M.Good P k m → k ≤ s.length → m.evalN (s.map (·.toNat)) =
      match m.run s with
      | .ok (some r) => codeN r
      | _ => 0 := by
  intro m
  induction m with
  | ret a => intro k s _ _; rfl
  | ub => intro k s h; exact h.elim
  | abort => intro k s h; exact h.elim
  | need j t ih =>
    intro k s h hk
    have e : M.evalN (s.map (·.toNat)) (.need j t) =
      cond (Nat.ble j (lenF (s.map (·.toNat)))) (M.evalN (s.map (·.toNat)) t) 0 := rfl
    rw [e, ← ite_le_fast, lenF_eq, List.length_map, M.run]
    by_cases hj : j ≤ s.length
    · rw [if_pos hj, if_pos hj]; exact ih (max k j) s h (by omega)
    · rw [if_neg hj, if_neg hj]
  | byte i f ih =>
    intro k s h hk
    have hi : i < s.length := Nat.lt_of_lt_of_le h.1 hk
    have e : M.evalN (s.map (·.toNat)) (.byte i f) =
      forceN (nthF (s.map (·.toNat)) i) (fun b => M.evalN (s.map (·.toNat)) (f b)) := rfl
    rw [e, forceN_eq, nthF_eq]
    simp only [M.run, List.getElem?_eq_getElem hi]
    have : (s.map (·.toNat)).getD i 0 = s[i].toNat := by simp [List.getD, hi]
    rw [this]
    exact ih _ k s (h.2 _ (UInt8.toNat_lt _)) hk

theorem M.evalN_eq {m : M MbRet} (hg : M.Good M.RetOK 1 m) {s : List Byte} (hs : s ≠ []) :
    m.evalN (s.map (·.toNat)) = codeN (m.val s) := by
  have hl : 1 ≤ s.length := by cases s with | nil => exact absurd rfl hs | cons _ _ => simp
  rw [M.evalN_run m 1 s hg hl]
  unfold M.val
  obtain ⟨o, h1, _⟩ := M.good_run m 1 s hg hl
  rw [h1]
  cases o <;> rfl

/-- A result is final: more input does not change it. -/
theorem M.val_ext {m : M MbRet} (hg : M.Good M.RetOK 1 m) {s t : List Byte} (hs : s ≠ [])
    (h : ∀ k, m.val s ≠ .toofew k) : m.val (s ++ t) = m.val s :=
  (M.simple m hg).ext s t hs (fun h0 => h 0 h0)

theorem M.val_len {m : M MbRet} (hg : M.Good M.RetOK 1 m) {s : List Byte} (hs : s ≠ []) {wc n : Nat}
    (h : m.val s = .char wc n) : 1 ≤ n ∧ n ≤ s.length := (M.simple m hg).char_ok s wc n hs h

/-- The rows from position `i` of the first table on. -/
def rowsFrom : List Tab → Nat → List Nat
  | [], _ => []
  | t :: r, i => ((List.range t.len).drop i).map t.row ++ packed r

theorem rowsFrom_zero (ts : List Tab) : rowsFrom ts 0 = packed ts := by
  cases ts with
  | nil => rfl
  | cons t r => simp [rowsFrom, packed]

theorem popRow_sound {ts : List Tab} {i x : Nat} {k : List Tab → Nat → Bool}
    (h : popRow ts i x k = true) :
    ∃ ts' i', rowsFrom ts i = x :: rowsFrom ts' i' ∧ k ts' i' = true := by
  cases ts with
  | nil => cases h
  | cons t r =>
    have h : cond (Nat.beq (t.getF i) x) (cond (Nat.beq (Nat.succ i) t.len) (k r 0)
      (cond (Nat.ble (Nat.succ (Nat.succ i)) t.len) (forceN (Nat.succ i) (k (t :: r))) false)) false = true := h
    rw [cond_eq_true, Nat.beq_eq] at h
    obtain ⟨h1, h2⟩ := h
    cases he : Nat.beq (Nat.succ i) t.len with
    | true =>
      rw [he, cond_true] at h2
      rw [Nat.beq_eq] at he
      refine ⟨r, 0, ?_, h2⟩
      rw [rowsFrom_zero, rowsFrom, ← he, List.drop_eq_getElem_cons (by simp)]
      simp [h1, Tab.row_eq]
    | false =>
      rw [he, cond_false, cond_eq_true, Nat.ble_eq, forceN_eq] at h2
      refine ⟨t :: r, i + 1, ?_, h2.2⟩
      rw [rowsFrom, rowsFrom, List.drop_eq_getElem_cons (by simp; omega)]
      simp [h1, Tab.row_eq]

theorem endRow_sound {ts : List Tab} {i : Nat} (h : endRow ts i = true) : rowsFrom ts i = [] := by
  cases ts with
  | nil => rfl
  | cons t r => cases h

/-- `L` lists the characters whose bytes continue `pre` by a byte in `S`. -/
structure Lists (m : M MbRet) (pre : List Byte) (S : Byte → Prop) (L : List Nat) : Prop where
  mem : ∀ x ∈ L, ∃ b t wc, S b ∧ wc < 16777216 ∧ (pre ++ b :: t).length < 8 ∧
    x = keyOf (pre ++ b :: t) * 16777216 + wc ∧ m.val (pre ++ b :: t) = .char wc (pre ++ b :: t).length
  all : ∀ b t wc n, S b → m.val (pre ++ b :: t) = .char wc n →
    pre.length < n ∧ n < 8 ∧ wc < 16777216 ∧ keyOf ((pre ++ b :: t).take n) * 16777216 + wc ∈ L
  nodup : L.Nodup

/-- `L` lists the characters whose bytes start with `env`. -/
structure ListsE (m : M MbRet) (env : List Byte) (L : List Nat) : Prop where
  mem : ∀ x ∈ L, ∃ t wc, wc < 16777216 ∧ (env ++ t).length < 8 ∧
    x = keyOf (env ++ t) * 16777216 + wc ∧ m.val (env ++ t) = .char wc (env ++ t).length
  all : ∀ t wc n, m.val (env ++ t) = .char wc n →
    env.length ≤ n ∧ n < 8 ∧ wc < 16777216 ∧ keyOf ((env ++ t).take n) * 16777216 + wc ∈ L
  nodup : L.Nodup

theorem ListsE.lists {m : M MbRet} {pre : List Byte} {b : Byte} {L : List Nat} (h : ListsE m (pre ++ [b]) L) :
    Lists m pre (fun c => c = b) L := by
  have happ : ∀ t, pre ++ b :: t = pre ++ [b] ++ t := by simp
  refine ⟨?_, ?_, h.nodup⟩
  · intro x hx
    obtain ⟨t, wc, h1⟩ := h.mem x hx
    exact ⟨b, t, wc, rfl, by rw [happ]; exact h1⟩
  · rintro c t wc n rfl hv
    rw [happ] at hv ⊢
    obtain ⟨h1, h2⟩ := h.all t wc n hv
    exact ⟨by simp at h1; omega, h2⟩

theorem codeN_char (wc n : Nat) : codeN (.char wc n) = 8 * wc + n + 2 := rfl

theorem walkLoop_sound {m : M MbRet} {pre : List Byte}
    {f : (List Tab → Nat → Bool) → List Tab → Nat → Nat → Bool} {hi : Nat} (hhi : hi ≤ 256)
    (hf : ∀ (b : Byte) k ts i, f k ts i b.toNat = true →
      ∃ L ts' i', rowsFrom ts i = L ++ rowsFrom ts' i' ∧ k ts' i' = true ∧
        Lists m pre (fun c => c = b) L) :
    ∀ (n : Nat) (k : List Tab → Nat → Bool) (ts : List Tab) (i : Nat), n ≤ hi →
      walkLoop f hi n k ts i = true →
      ∃ L ts' i', rowsFrom ts i = L ++ rowsFrom ts' i' ∧ k ts' i' = true ∧
        Lists m pre (fun c => hi - n ≤ c.toNat ∧ c.toNat < hi) L := by
  intro n
  induction n with
  | zero =>
    intro k ts i _ h
    exact ⟨[], ts, i, rfl, h, fun x hx => absurd hx (by simp), fun b t wc n hb => by omega, List.nodup_nil⟩
  | succ n ih =>
    intro k ts i hn h
    have h : forceN (Nat.sub hi (Nat.succ n)) (f (walkLoop f hi n k) ts i) = true := h
    rw [forceN_eq] at h
    have hb : Nat.sub hi (Nat.succ n) = (u8 (hi - (n + 1))).toNat := by
      rw [u8_toNat, Nat.mod_eq_of_lt (by omega)]; rfl
    rw [hb] at h
    obtain ⟨L1, ts1, i1, h1, h2, h3⟩ := hf _ _ _ _ h
    obtain ⟨L2, ts2, i2, h4, h5, h6⟩ := ih k ts1 i1 (by omega) h2
    refine ⟨L1 ++ L2, ts2, i2, by rw [h1, h4, List.append_assoc], h5, ?_, ?_, ?_⟩
    · intro x hx
      rcases List.mem_append.1 hx with hx | hx
      · obtain ⟨b, t, wc, h7, h8⟩ := h3.mem x hx
        refine ⟨b, t, wc, ?_, h8⟩
        rw [h7, u8_toNat, Nat.mod_eq_of_lt (by omega)]; omega
      · obtain ⟨b, t, wc, h7, h8⟩ := h6.mem x hx
        exact ⟨b, t, wc, by omega, h8⟩
    · intro b t wc n' hb hv
      by_cases hbn : b.toNat = hi - (n + 1)
      · have : b = u8 (hi - (n + 1)) := by
          apply UInt8.toNat_inj.1
          rw [u8_toNat, Nat.mod_eq_of_lt (by omega), hbn]
        obtain ⟨h7, h8, h9, h10⟩ := h3.all b t wc n' this hv
        exact ⟨h7, h8, h9, List.mem_append.2 (.inl h10)⟩
      · obtain ⟨h7, h8, h9, h10⟩ := h6.all b t wc n' (by omega) hv
        exact ⟨h7, h8, h9, List.mem_append.2 (.inr h10)⟩
    · rw [List.nodup_append]
      refine ⟨h3.nodup, h6.nodup, ?_⟩
      rintro x hx y hy rfl
      obtain ⟨b, t, wc, h7, h8, h9, h10, _⟩ := h3.mem x hx
      obtain ⟨b', t', wc', h7', h8', h9', h10', _⟩ := h6.mem x hy
      have := keyOf_inj h9 h9' (by omega)
      simp only [List.append_cancel_left_eq, List.cons.injEq] at this
      rw [← this.1, h7, u8_toNat, Nat.mod_eq_of_lt (by omega)] at h7'
      omega

theorem M.val_none {m : M MbRet} {s : List Byte} (h : m.run s = .ok none) : m.val s = .toofew 0 := by
  unfold M.val; rw [h]

theorem walkT_sound {m : M MbRet} : ∀ (t : M MbRet) (env : List Byte) (nd : Nat),
    M.Good M.RetOK nd t → env.length < 8 →
    (∀ s, nd ≤ (env ++ s).length → m.run (env ++ s) = t.run (env ++ s)) →
    (∀ s, (env ++ s).length < nd → m.run (env ++ s) = .ok none) →
    ∀ (k : List Tab → Nat → Bool) (ts : List Tab) (i : Nat),
    walkT t (env.map (·.toNat)) env.length nd (keyOf env) k ts i = true →
      ∃ L ts' i', rowsFrom ts i = L ++ rowsFrom ts' i' ∧ k ts' i' = true ∧ ListsE m env L := by
  intro t
  induction t with
  | ret r =>
    intro env nd hg hl H1 H2 k ts i h
    have hval : ∀ s, m.val (env ++ s) = r ∨ m.val (env ++ s) = .toofew 0 := by
      intro s
      by_cases hs : nd ≤ (env ++ s).length
      · exact .inl (M.val_of_run (H1 s hs))
      · exact .inr (M.val_none (H2 s (by omega)))
    cases r with
    | toofew j => cases h
    | ilseq j =>
      refine ⟨[], ts, i, rfl, h, fun x hx => absurd hx (by simp), ?_, List.nodup_nil⟩
      intro s wc n hv
      rcases hval s with h1 | h1 <;> rw [h1] at hv <;> cases hv
    | char wc n =>
      have h : (Bool.rec false (Bool.rec false (forceN wc fun wc => Bool.rec false
        (popRow ts i (Nat.add (Nat.mul (keyOf env) 16777216) wc) k)
        (Nat.ble (Nat.succ wc) 16777216)) (Nat.ble nd env.length)) (Nat.beq n env.length) : Bool) = true := h
      rw [forceN_eq, bool_rec_beq, bool_rec_ble, bool_rec_ble] at h
      by_cases hn : n = env.length
      case neg => rw [if_neg hn] at h; cases h
      rw [if_pos hn] at h
      by_cases hnd : nd ≤ env.length
      case neg => rw [if_neg hnd] at h; cases h
      rw [if_pos hnd] at h
      by_cases hwc : Nat.succ wc ≤ 16777216
      case neg => rw [if_neg hwc] at h; cases h
      rw [if_pos hwc] at h
      obtain ⟨ts', i', h4, h5⟩ := popRow_sound h
      refine ⟨[_], ts', i', h4, h5, ?_, ?_, by simp⟩
      · intro x hx
        rw [List.mem_singleton] at hx
        refine ⟨[], wc, hwc, by simpa using hl, by simpa using hx, ?_⟩
        have := H1 [] (by simpa using hnd)
        rw [M.val_of_run this, hn]
        simp
      · intro s wc' n' hv
        rcases hval s with h1 | h1
        · rw [h1] at hv
          simp only [MbRet.char.injEq] at hv
          obtain ⟨rfl, rfl⟩ := hv
          refine ⟨by omega, by omega, hwc, ?_⟩
          rw [hn, List.take_left, List.mem_singleton]
          rfl
        · rw [h1] at hv; cases hv
  | ub => intro env nd hg; exact hg.elim
  | abort => intro env nd hg; exact hg.elim
  | need j t ih =>
    intro env nd hg hl H1 H2 k ts i h
    have h : (Bool.rec (walkT t (env.map (·.toNat)) env.length j (keyOf env))
      (walkT t (env.map (·.toNat)) env.length nd (keyOf env)) (Nat.ble j nd) :
        (List Tab → Nat → Bool) → List Tab → Nat → Bool) k ts i = true := h
    rw [bool_rec_ble] at h
    have hr : ∀ s : List Byte, (M.need j t).run s = if j ≤ s.length then t.run s else .ok none := fun _ => rfl
    by_cases hj : j ≤ nd
    · rw [if_pos hj] at h
      refine ih env nd ?_ hl (fun s hs => ?_) H2 k ts i h
      · have hg : M.Good M.RetOK (max nd j) t := hg
        rwa [Nat.max_eq_left hj] at hg
      · rw [H1 s hs, hr, if_pos (by omega)]
    · rw [if_neg hj] at h
      refine ih env j ?_ hl (fun s hs => ?_) (fun s hs => ?_) k ts i h
      · have hg : M.Good M.RetOK (max nd j) t := hg
        rwa [Nat.max_eq_right (by omega)] at hg
      · rw [H1 s (by omega), hr, if_pos hs]
      · by_cases h2 : nd ≤ (env ++ s).length
        · rw [H1 s h2, hr, if_neg (by omega)]
        · exact H2 s (by omega)
  | byte j f ih =>
    intro env nd hg hl H1 H2 k ts i h
    have h : (Bool.rec
      (Bool.rec (fun _ _ => false) (Bool.rec (fun _ _ => false) (walkLoop (fun k ts i b => forceN (Nat.add (Nat.mul 256 (keyOf env)) b) fun key =>
        walkT (f b) (snocF (env.map (·.toNat)) b) (Nat.succ env.length) nd key k ts i) 256 256 k)
        (Nat.ble env.length 6)) (Nat.beq j env.length))
      (forceN (nthF (env.map (·.toNat)) j) fun b => walkT (f b) (env.map (·.toNat)) env.length nd (keyOf env) k)
      (Nat.ble (Nat.succ j) env.length) : List Tab → Nat → Bool) ts i = true := h
    rw [bool_rec_ble, bool_rec_beq, bool_rec_ble] at h
    by_cases hj : j < env.length
    · rw [if_pos (Nat.succ_le_of_lt hj), forceN_eq, nthF_eq] at h
      have e : (env.map (·.toNat)).getD j 0 = env[j].toNat := by simp [List.getD, hj]
      rw [e] at h
      refine ih _ env nd (hg.2 _ (UInt8.toNat_lt _)) hl (fun s hs => ?_) H2 k ts i h
      rw [H1 s hs]
      simp only [M.run]
      rw [List.getElem?_append_left hj, List.getElem?_eq_getElem hj]
    · rw [if_neg (by omega)] at h
      by_cases hj2 : j = env.length
      case neg => rw [if_neg hj2] at h; cases h
      rw [if_pos hj2] at h
      have hjn : j < nd := hg.1
      have hl8 : ∀ {b : Byte} {k ts i}, walkT (f b.toNat) ((env ++ [b]).map (·.toNat)) (env ++ [b]).length nd
          (keyOf (env ++ [b])) k ts i = true → (env ++ [b]).length < 8 →
          ∃ L ts' i', rowsFrom ts i = L ++ rowsFrom ts' i' ∧ k ts' i' = true ∧ ListsE m (env ++ [b]) L := by
        intro b k ts i hb h8
        refine ih _ (env ++ [b]) nd (hg.2 _ (UInt8.toNat_lt _)) h8 (fun s hs => ?_) (fun s hs => ?_) k ts i hb
        · rw [List.append_assoc] at hs ⊢
          rw [H1 _ hs]
          simp only [M.run]
          rw [hj2, List.getElem?_append_right (Nat.le_refl _)]
          simp
        · rw [List.append_assoc] at hs ⊢
          exact H2 _ hs
      by_cases h7 : env.length ≤ 6
      · rw [if_pos h7] at h
        obtain ⟨L, ts', i', h1, h2, h3⟩ := walkLoop_sound (pre := env) (m := m) (Nat.le_refl 256)
          (fun b k ts i hb => by
            rw [forceN_eq, snocF_eq, nat_add_eq, nat_mul_eq, ← keyOf_append] at hb
            have e : env.map (·.toNat) ++ [b.toNat] = (env ++ [b]).map (·.toNat) := by simp
            rw [e, show Nat.succ env.length = (env ++ [b]).length by simp] at hb
            obtain ⟨L, ts', i', h1, h2, h3⟩ := hl8 hb (by simp; omega)
            exact ⟨L, ts', i', h1, h2, h3.lists⟩)
          256 k ts i (Nat.le_refl 256) h
        refine ⟨L, ts', i', h1, h2, ?_, ?_, h3.nodup⟩
        · intro x hx
          obtain ⟨b, t, wc, _, h8⟩ := h3.mem x hx
          exact ⟨b :: t, wc, h8⟩
        · intro s wc n hv
          cases s with
          | nil =>
            rw [M.val_none (H2 [] (by simp; omega))] at hv; cases hv
          | cons b s =>
            have := UInt8.toNat_lt b
            obtain ⟨h4, h5⟩ := h3.all b s wc n (by omega) hv
            exact ⟨by omega, h5⟩
      · rw [if_neg h7] at h; cases h

theorem chkWalk_sound {m : M MbRet} (hg : M.Good M.RetOK 1 m) {lo n : Nat} {ts : List Tab}
    (hn : lo + n ≤ 256) (h : chkWalk m lo n ts = true) :
    Lists m [] (fun c => lo ≤ c.toNat ∧ c.toNat < lo + n) (packed ts) := by
  have h : walkLoop (fun k ts i b => walkT m [b] 1 1 (Nat.add 256 b) k ts i) (lo + n) n endRow ts 0 = true := h
  obtain ⟨L, ts', i', h1, h2, h3⟩ := walkLoop_sound (pre := []) (m := m) (by omega)
    (fun b k ts i hb => by
      have e : keyOf [b] = 256 + b.toNat := by simp [keyOf]
      rw [nat_add_eq, ← e] at hb
      obtain ⟨L, ts', i', h1, h2, h3⟩ := walkT_sound m [b] 1 hg (by simp) (fun s _ => rfl)
        (fun s hs => by simp at hs) k ts i hb
      exact ⟨L, ts', i', h1, h2, ListsE.lists (pre := []) h3⟩)
    n endRow ts 0 (by omega) h
  rw [endRow_sound h2, List.append_nil, rowsFrom_zero] at h1
  rw [h1]
  simpa using h3

/-! ## The encoder -/

noncomputable def unkeyF (k : Nat) : List Nat :=
  (Nat.rec (fun _ l => l) (fun _ ih k l => cond (Nat.ble 256 k)
    (forceN (Nat.div k 256) fun q => ih q (Nat.mod k 256 :: l)) l) 8 : Nat → List Nat → List Nat) k []

/-- The encoder gives the bytes of each row, except the rows `d`. -/
noncomputable def rowsF (w : Nat → W) (t d : Tab) (n : Nat) : Nat → Bool :=
  Nat.rec (motive := fun _ => Nat → Bool) (fun j => Nat.beq j d.len)
    (fun n ih j => forceN (t.getF (Nat.sub t.len (Nat.succ n))) fun x =>
      forceN (Nat.mod x 16777216) fun wc => Bool.rec
        (Bool.rec false (forceN (Nat.succ j) ih) (Nat.beq (d.getF j) x)) (ih j)
        (Nat.beq ((w wc).resN) (Nat.div x 16777216))) n

noncomputable def chkRows (w : Nat → W) (t d : Tab) : Bool := rowsF w t d t.len 0

/-- Whether the encoder accepts the character. -/
noncomputable def W.isN (w : W) : Bool := W.rec (fun _ _ ih => ih) (fun _ => true) false false false w

noncomputable def cntF (f : Nat → Bool) (lo n : Nat) : Nat → Nat :=
  Nat.rec (motive := fun _ => Nat → Nat) (fun acc => acc)
    (fun n ih acc => Bool.rec (ih acc) (forceN (Nat.succ acc) ih) (forceN (Nat.add lo n) f)) n

/-- The number of characters from `lo` to `lo + n - 1` that the encoder accepts. -/
noncomputable def cntSweep (w : Nat → W) (lo n : Nat) : Nat := cntF (fun wc => (w wc).isN) lo n 0

/-- Pairs that the encoder produces and the decoder does not. -/
noncomputable def chkEx (m : M MbRet) (w : Nat → W) (ex : List (Nat × Nat)) : Bool :=
  ex.all fun p => ((unkey 8 p.1).length - 1 < 7 && !(unkey 8 p.1).isEmpty && keyOf (unkey 8 p.1) == p.1) &&
    (Nat.beq ((w p.2).resN) p.1 &&
      !(Nat.beq (m.evalN (unkeyF p.1)) (8 * p.2 + (unkeyF p.1).length + 2)))

theorem keyF_eq : ∀ (l : List Nat) (k : Nat), keyF l k =
    (l.map u8).foldl (fun k b => 256 * k + b.toNat) k := by
  intro l
  induction l with
  | nil => intro k; rfl
  | cons a l ih =>
    intro k
    show keyF l (256 * k + a % 256) = _
    rw [ih]
    simp [u8_toNat]

theorem W.resN_eq (w : W) : w.resN = match w.res with
    | some bs => keyOf bs
    | none => 0 := by
  induction w with
  | room k w ih => exact ih
  | put bs => exact keyF_eq bs 1
  | iluni => rfl
  | ub => rfl
  | abort => rfl

theorem unkeyF_eq (s : List Byte) (h : s.length < 8) : unkeyF (keyOf s) = s.map (·.toNat) := by
  have key : ∀ (n : Nat) (s : List Byte) (l : List Nat), s.length < n →
      (Nat.rec (fun _ l => l) (fun _ ih k l => cond (Nat.ble 256 k)
        (forceN (Nat.div k 256) fun q => ih q (Nat.mod k 256 :: l)) l) n : Nat → List Nat → List Nat)
        (keyOf s) l = s.map (·.toNat) ++ l := by
    intro n
    induction n with
    | zero => intro s l h; omega
    | succ n ih =>
      intro s l hn
      rcases List.eq_nil_or_concat s with rfl | ⟨s', b, rfl⟩
      · rfl
      · rw [List.concat_eq_append] at hn ⊢
        simp only [← ite_le_fast, forceN_eq, nat_div_eq, nat_mod_eq] at ih ⊢
        have := keyOf_pos s'
        have hb := UInt8.toNat_lt b
        rw [keyOf_append, if_pos (by omega), show (256 * keyOf s' + b.toNat) / 256 = keyOf s' by omega,
          show (256 * keyOf s' + b.toNat) % 256 = b.toNat by omega, ih s' _ (by simp at hn; omega)]
        simp
  have := key 8 s [] h
  rw [List.append_nil] at this
  exact this

/-- A row that the encoder does not give. -/
noncomputable def badRow (w : Nat → W) (x : Nat) : Bool :=
  !(Nat.beq ((w (x % 16777216)).resN) (x / 16777216))

theorem rowsF_sound {w : Nat → W} {t d : Tab} : ∀ (n j : Nat), n ≤ t.len → rowsF w t d n j = true →
    j ≤ d.len ∧ (((List.range t.len).drop (t.len - n)).map t.row).filter (badRow w) =
      ((List.range d.len).drop j).map d.row := by
  intro n
  induction n with
  | zero =>
    intro j _ h
    have h : Nat.beq j d.len = true := h
    rw [Nat.beq_eq] at h
    subst h
    have e : ∀ k, (List.range k).drop k = [] := fun k => List.drop_eq_nil_of_le (by simp)
    rw [Nat.sub_zero, e, e]
    exact ⟨Nat.le_refl _, rfl⟩
  | succ n ih =>
    intro j hn h
    have h : (forceN (t.getF (Nat.sub t.len (Nat.succ n))) fun x =>
      forceN (Nat.mod x 16777216) fun wc => Bool.rec
        (Bool.rec false (forceN (Nat.succ j) (rowsF w t d n)) (Nat.beq (d.getF j) x)) (rowsF w t d n j)
        (Nat.beq ((w wc).resN) (Nat.div x 16777216)) : Bool) = true := h
    simp only [forceN_eq] at h
    rw [List.drop_eq_getElem_cons (by simp; omega), show t.len - (n + 1) + 1 = t.len - n by omega,
      List.map_cons, List.getElem_range, List.filter_cons]
    have e : t.getF (Nat.sub t.len (Nat.succ n)) = t.row (t.len - (n + 1)) := rfl
    rw [e] at h
    cases hb : Nat.beq ((w (Nat.mod (t.row (t.len - (n + 1))) 16777216)).resN)
        (Nat.div (t.row (t.len - (n + 1))) 16777216) with
    | true =>
      rw [hb] at h
      obtain ⟨h1, h2⟩ := ih j (by omega) h
      rw [if_neg, h2]
      · exact ⟨h1, rfl⟩
      · unfold badRow
        rw [nat_mod_eq, nat_div_eq] at hb
        rw [hb]; decide
    | false =>
      rw [hb] at h
      have h : (Bool.rec false (rowsF w t d n (Nat.succ j)) (Nat.beq (d.getF j) (t.row (t.len - (n + 1)))) : Bool) = true := h
      rw [bool_rec_beq] at h
      by_cases hd : d.getF j = t.row (t.len - (n + 1))
      case neg => rw [if_neg hd] at h; cases h
      rw [if_pos hd] at h
      obtain ⟨h1, h2⟩ := ih _ (by omega) h
      rw [if_pos, h2]
      · refine ⟨by omega, ?_⟩
        rw [List.drop_eq_getElem_cons (i := j) (by simp; omega)]
        simp only [List.map_cons, List.getElem_range, Tab.row_eq] at hd ⊢
        rw [hd]
      · unfold badRow
        rw [nat_mod_eq, nat_div_eq] at hb
        rw [hb]; rfl

theorem chkRows_sound {w : Nat → W} : ∀ (l : List (Tab × Tab)), (∀ p ∈ l, chkRows w p.1 p.2 = true) →
    (packed (l.map (·.1))).filter (badRow w) = packed (l.map (·.2)) := by
  intro l
  induction l with
  | nil => intro _; rfl
  | cons p l ih =>
    intro h
    have h1 := (rowsF_sound p.1.len 0 (Nat.le_refl _) (h p (List.mem_cons_self ..))).2
    have h2 := ih fun q hq => h q (List.mem_cons_of_mem _ hq)
    rw [Nat.sub_self, List.drop_zero, List.drop_zero] at h1
    simp only [packed, List.map_cons, List.flatMap_cons, List.filter_append] at h2 ⊢
    rw [h1, h2]

theorem W.isN_eq (w : W) : w.isN = w.res.isSome := by
  induction w with
  | room k w ih => exact ih
  | put bs => rfl
  | iluni => rfl
  | ub => rfl
  | abort => rfl

theorem cntF_eq (f : Nat → Bool) (lo : Nat) : ∀ (n acc : Nat),
    cntF f lo n acc = acc + ((List.range' lo n).filter f).length := by
  intro n
  induction n with
  | zero => intro acc; rfl
  | succ n ih =>
    intro acc
    have e : cntF f lo (n + 1) acc = (Bool.rec (cntF f lo n acc) (forceN (Nat.succ acc) (cntF f lo n))
      (forceN (Nat.add lo n) f) : Nat) := rfl
    rw [e, forceN_eq, forceN_eq, nat_add_eq, List.range'_concat, List.filter_append, List.length_append]
    simp only [Nat.one_mul, List.filter_cons, List.filter_nil]
    cases hf : f (lo + n) with
    | true => simp only [ih, if_true]; simp; omega
    | false => simp only [ih]; simp

theorem cntSweep_eq (w : Nat → W) (lo n : Nat) :
    cntSweep w lo n = ((List.range' lo n).filter fun wc => (w wc).res.isSome).length := by
  unfold cntSweep
  rw [cntF_eq, Nat.zero_add]
  simp only [W.isN_eq]

theorem cntSweep_full (w : Nat → W) (lo n : Nat) : cntSweep w lo n ≤ n := by
  rw [cntSweep_eq]
  exact Nat.le_trans (List.length_filter_le ..) (by simp)

theorem sum_map_le {α : Type} {f g : α → Nat} : ∀ (l : List α), (∀ x ∈ l, f x ≤ g x) →
    (l.map f).sum ≤ (l.map g).sum := by
  intro l
  induction l with
  | nil => intro _; exact Nat.le_refl _
  | cons a l ih =>
    intro h
    have h1 := h a (List.mem_cons_self ..)
    have h2 := ih fun x hx => h x (List.mem_cons_of_mem _ hx)
    simp only [List.map_cons, List.sum_cons]
    omega

theorem subset_of_length {α : Type} [DecidableEq α] : ∀ (l e : List α), l.Nodup → (∀ x ∈ l, x ∈ e) →
    e.length ≤ l.length → ∀ x ∈ e, x ∈ l := by
  intro l
  induction l with
  | nil => intro e _ _ h x hx; cases e with | nil => exact hx | cons _ _ => simp at h
  | cons a l ih =>
    intro e hn hs hl x hx
    rw [List.nodup_cons] at hn
    have ha := hs a (List.mem_cons_self ..)
    by_cases hxa : x = a
    · rw [hxa]; exact List.mem_cons_self ..
    · refine List.mem_cons_of_mem _ (ih (e.erase a) hn.2 (fun y hy => ?_) ?_ x ?_)
      · have : y ≠ a := by rintro rfl; exact hn.1 hy
        exact (List.mem_erase_of_ne this).2 (hs y (List.mem_cons_of_mem _ hy))
      · rw [List.length_erase_of_mem ha]; simp at hl; omega
      · exact (List.mem_erase_of_ne hxa).2 hx

/-- The table with the bytes of the irreversible pairs. -/
def irrOf (irr : List (Nat × Nat)) : List (List Byte × Nat) := irr.map fun p => (unkey 8 p.1, p.2)

/-- A decoder and an encoder program agree with the table `T` of pairs (bytes, character), up to the
irreversible pairs `irr`: pairs of `T` that the encoder does not produce, and pairs not in `T` that it
produces. -/
structure TableOK (m : M MbRet) (w : Nat → W) (T irr : List (List Byte × Nat)) : Prop where
  dec_iff : ∀ s wc n, s ≠ [] → (m.val s = .char wc n ↔ n ≤ s.length ∧ (s.take n, wc) ∈ T)
  enc_iff : ∀ wc bs, (w wc).res = some bs ↔
    ((bs, wc) ∈ T ∧ (bs, wc) ∉ irr) ∨ ((bs, wc) ∉ T ∧ (bs, wc) ∈ irr)
  small : ∀ bs wc, (bs, wc) ∈ T → wc < 16777216

/-- The pieces of the walk cover all first bytes. -/
def coverFrom : Nat → List (Nat × Nat × List Tab) → Bool
  | a, [] => a == 256
  | a, p :: ps => (p.1 == a) && (a + p.2.1 ≤ 256 : Bool) && coverFrom (a + p.2.1) ps

theorem coverFrom_mem : ∀ (ps : List (Nat × Nat × List Tab)) (a : Nat), coverFrom a ps = true →
    (∀ p ∈ ps, p.1 + p.2.1 ≤ 256) ∧
    ∀ b, a ≤ b → b < 256 → ∃ p ∈ ps, p.1 ≤ b ∧ b < p.1 + p.2.1 := by
  intro ps
  induction ps with
  | nil =>
    intro a h
    simp only [coverFrom, beq_iff_eq] at h
    exact ⟨by simp, fun b h1 h2 => by omega⟩
  | cons p ps ih =>
    intro a h
    simp only [coverFrom, Bool.and_eq_true, beq_iff_eq, decide_eq_true_eq] at h
    obtain ⟨⟨h1, h2⟩, h3⟩ := h
    obtain ⟨h4, h5⟩ := ih _ h3
    refine ⟨by simp only [List.forall_mem_cons]; exact ⟨by omega, h4⟩, fun b hb hb2 => ?_⟩
    by_cases hc : b < a + p.2.1
    · exact ⟨p, List.mem_cons_self .., by omega, by omega⟩
    · obtain ⟨q, hq, h6⟩ := h5 b (by omega) hb2
      exact ⟨q, List.mem_cons_of_mem _ hq, h6⟩

/-- The rows of all pieces. -/
def pieceTabs (ps : List (Nat × Nat × List Tab)) : List Tab := ps.flatMap fun p => p.2.2

/-- A piece lists the characters of its first bytes. -/
def PieceOK (m : M MbRet) (p : Nat × Nat × List Tab) : Prop :=
  p.1 + p.2.1 ≤ 256 → Lists m [] (fun c => p.1 ≤ c.toNat ∧ c.toNat < p.1 + p.2.1) (packed p.2.2)

theorem chkWalk_piece {m : M MbRet} (hg : M.Good M.RetOK 1 m) {lo n : Nat} {ts : List Tab}
    (h : chkWalk m lo n ts = true) : PieceOK m (lo, n, ts) := fun hn => chkWalk_sound hg hn h

theorem pieces_nodup {m : M MbRet} : ∀ (ps : List (Nat × Nat × List Tab)) (a : Nat),
    coverFrom a ps = true → (∀ p ∈ ps, PieceOK m p) →
    (packed (pieceTabs ps)).Nodup ∧ ∀ x ∈ packed (pieceTabs ps), ∃ b t wc, a ≤ UInt8.toNat b ∧
      (b :: t).length < 8 ∧ wc < 16777216 ∧ x = keyOf (b :: t) * 16777216 + wc := by
  intro ps
  induction ps with
  | nil => intro a _ _; exact ⟨List.nodup_nil, fun x hx => absurd hx (by simp [packed, pieceTabs])⟩
  | cons p ps ih =>
    intro a hc hw
    simp only [coverFrom, Bool.and_eq_true, beq_iff_eq, decide_eq_true_eq] at hc
    obtain ⟨⟨h1, h2⟩, h3⟩ := hc
    obtain ⟨h4, h5⟩ := ih _ h3 fun q hq => hw q (List.mem_cons_of_mem _ hq)
    have h6 := hw p (List.mem_cons_self ..) (by omega)
    have e : packed (pieceTabs (p :: ps)) = packed p.2.2 ++ packed (pieceTabs ps) := by
      simp [packed, pieceTabs]
    rw [e]
    constructor
    · rw [List.nodup_append]
      refine ⟨h6.nodup, h4, ?_⟩
      rintro x hx y hy rfl
      obtain ⟨b, t, wc, h7, h8, h9, h10, _⟩ := h6.mem x hx
      obtain ⟨b', t', wc', h7', h9', h8', h10'⟩ := h5 x hy
      have := keyOf_inj h9 h9' (by simp only [List.nil_append] at h10 ⊢; omega)
      simp only [List.nil_append, List.cons.injEq] at this
      rw [this.1] at h7
      omega
    · intro x hx
      rcases List.mem_append.1 hx with hx | hx
      · obtain ⟨b, t, wc, h7, h8, h9, h10, _⟩ := h6.mem x hx
        exact ⟨b, t, wc, by omega, h9, h8, h10⟩
      · obtain ⟨b, t, wc, h7, h8⟩ := h5 x hx
        exact ⟨b, t, wc, by omega, h8⟩

theorem pieces_lists' {m : M MbRet} {ps : List (Nat × Nat × List Tab)}
    (hc : coverFrom 0 ps = true) (hw : ∀ p ∈ ps, PieceOK m p) :
    Lists m [] (fun _ => True) (packed (pieceTabs ps)) := by
  obtain ⟨h1, h2⟩ := coverFrom_mem ps 0 hc
  have hmem : ∀ x, x ∈ packed (pieceTabs ps) ↔ ∃ p ∈ ps, x ∈ packed p.2.2 := by
    intro x
    simp only [packed, pieceTabs, List.mem_flatMap]
    constructor
    · rintro ⟨t, ⟨p, hp, ht⟩, hx⟩; exact ⟨p, hp, t, ht, hx⟩
    · rintro ⟨p, hp, t, ht, hx⟩; exact ⟨t, ⟨p, hp, ht⟩, hx⟩
  refine ⟨?_, ?_, ?_⟩
  · intro x hx
    obtain ⟨p, hp, hx⟩ := (hmem x).1 hx
    obtain ⟨b, t, wc, _, h⟩ := (hw p hp (h1 p hp)).mem x hx
    exact ⟨b, t, wc, trivial, h⟩
  · intro b t wc n _ hv
    obtain ⟨p, hp, h3⟩ := h2 b.toNat (by omega) (UInt8.toNat_lt _)
    obtain ⟨h4, h5, h6, h7⟩ := (hw p hp (h1 p hp)).all b t wc n h3 hv
    exact ⟨h4, h5, h6, (hmem _).2 ⟨p, hp, h7⟩⟩
  · exact (pieces_nodup ps 0 hc hw).1

theorem pieces_lists {m : M MbRet} (hg : M.Good M.RetOK 1 m) {ps : List (Nat × Nat × List Tab)}
    (hc : coverFrom 0 ps = true) (hw : ∀ p ∈ ps, chkWalk m p.1 p.2.1 p.2.2 = true) :
    Lists m [] (fun _ => True) (packed (pieceTabs ps)) :=
  pieces_lists' hc fun p hp hn => chkWalk_sound hg hn (hw p hp)

/-- The program on inputs whose second byte is from `lo` to `lo + n - 1`. -/
noncomputable def only2 (m : M MbRet) (lo n : Nat) : M MbRet :=
  .need 2 <| .byte 1 fun b => cond (Nat.ble lo b) (cond (Nat.ble (Nat.succ b) (Nat.add lo n)) m (.ret (.ilseq 0)))
    (.ret (.ilseq 0))

theorem only2_eq (m : M MbRet) (lo n : Nat) : only2 m lo n =
    .need 2 (.byte 1 fun b => if lo ≤ b ∧ b < lo + n then m else .ret (.ilseq 0)) := by
  unfold only2
  congr 2
  funext b
  by_cases h1 : lo ≤ b
  · rw [Nat.ble_eq_true_of_le h1, cond_true]
    by_cases h2 : b < lo + n
    · rw [Nat.ble_eq_true_of_le (show Nat.succ b ≤ Nat.add lo n from h2), cond_true, if_pos ⟨h1, h2⟩]
    · have : Nat.ble (Nat.succ b) (Nat.add lo n) = false := by
        rw [← Bool.not_eq_true, Nat.ble_eq]; exact h2
      rw [this, cond_false, if_neg (by omega)]
  · have : Nat.ble lo b = false := by rw [← Bool.not_eq_true, Nat.ble_eq]; exact h1
    rw [this, cond_false, if_neg (by omega)]

theorem only2_good {m : M MbRet} (hg : M.Good M.RetOK 1 m) (lo n : Nat) : M.Good M.RetOK 1 (only2 m lo n) := by
  rw [only2_eq]
  refine M.good_need (M.good_byte (by omega) fun b _ => M.good_ite (fun _ => ?_) (fun _ => ?_))
  · exact M.good_at hg (by omega)
  · exact M.retOK_ilseq (by omega)

theorem only2_one (m : M MbRet) (lo n : Nat) (a : Byte) : (only2 m lo n).val [a] = .toofew 0 := by
  rw [only2_eq]; rfl

theorem only2_val (m : M MbRet) (lo n : Nat) (a b : Byte) (t : List Byte) : (only2 m lo n).val (a :: b :: t) =
    if lo ≤ b.toNat ∧ b.toNat < lo + n then m.val (a :: b :: t) else .ilseq 0 := by
  rw [only2_eq]
  by_cases h : lo ≤ b.toNat ∧ b.toNat < lo + n
  · rw [if_pos h]; simp [M.val, M.run, h]
  · rw [if_neg h]; simp [M.val, M.run, h]

/-- The walk for the first byte `a` in parts by the second byte. -/
theorem walk_parts {m : M MbRet} (hg : M.Good M.RetOK 1 m) {a : Nat} {qs : List (Nat × Nat × List Tab)}
    (hc : coverFrom 0 qs = true) (hw : ∀ q ∈ qs, chkWalk (only2 m q.1 q.2.1) a 1 q.2.2 = true) :
    PieceOK m (a, 1, pieceTabs qs) := by
  intro ha
  simp only at ha
  have hL : ∀ q ∈ qs, Lists (only2 m q.1 q.2.1) [] (fun c => a ≤ c.toNat ∧ c.toNat < a + 1) (packed q.2.2) :=
    fun q hq => chkWalk_sound (only2_good hg _ _) ha (hw q hq)
  -- every row of a part has a second byte in its range
  have hmem : ∀ q ∈ qs, ∀ x ∈ packed q.2.2, ∃ c b t wc, a ≤ UInt8.toNat c ∧ UInt8.toNat c < a + 1 ∧
      q.1 ≤ UInt8.toNat b ∧ UInt8.toNat b < q.1 + q.2.1 ∧ wc < 16777216 ∧ (c :: b :: t).length < 8 ∧
      x = keyOf (c :: b :: t) * 16777216 + wc ∧ m.val (c :: b :: t) = .char wc (c :: b :: t).length := by
    intro q hq x hx
    obtain ⟨c, t, wc, h1, h2, h3, h4, h5⟩ := (hL q hq).mem x hx
    simp only [List.nil_append] at h3 h4 h5
    cases t with
    | nil => rw [only2_one] at h5; cases h5
    | cons b t =>
      rw [only2_val] at h5
      by_cases h : q.1 ≤ b.toNat ∧ b.toNat < q.1 + q.2.1
      · rw [if_pos h] at h5
        exact ⟨c, b, t, wc, h1.1, h1.2, h.1, h.2, h2, h3, h4, h5⟩
      · rw [if_neg h] at h5; cases h5
  obtain ⟨_, hcov⟩ := coverFrom_mem qs 0 hc
  have hpk : ∀ x, x ∈ packed (pieceTabs qs) ↔ ∃ p ∈ qs, x ∈ packed p.2.2 := by
    intro x
    simp only [packed, pieceTabs, List.mem_flatMap]
    constructor
    · rintro ⟨t, ⟨p, hp, ht⟩, hx⟩; exact ⟨p, hp, t, ht, hx⟩
    · rintro ⟨p, hp, t, ht, hx⟩; exact ⟨t, ⟨p, hp, ht⟩, hx⟩
  have hall : ∀ (c b : Byte) t wc n, a ≤ c.toNat ∧ c.toNat < a + 1 → m.val (c :: b :: t) = .char wc n →
      ∃ q ∈ qs, 0 < n ∧ n < 8 ∧ wc < 16777216 ∧ keyOf ((c :: b :: t).take n) * 16777216 + wc ∈ packed q.2.2 := by
    intro c b t wc n hca hv
    obtain ⟨q, hq, h3⟩ := hcov b.toNat (by omega) (UInt8.toNat_lt _)
    obtain ⟨h4, h5, h6, h7⟩ := (hL q hq).all c (b :: t) wc n hca
      (by rw [List.nil_append, only2_val, if_pos h3]; exact hv)
    exact ⟨q, hq, h4, h5, h6, h7⟩
  refine ⟨?_, ?_, ?_⟩
  · intro x hx
    obtain ⟨q, hq, hx⟩ := (hpk x).1 hx
    obtain ⟨c, b, t, wc, h1, h2, h3, h4, h5, h6, h7, h8⟩ := hmem q hq x hx
    exact ⟨c, b :: t, wc, ⟨h1, h2⟩, h5, h6, h7, h8⟩
  · intro c t wc n hca hv
    rw [List.nil_append] at hv ⊢
    cases t with
    | nil =>
      exfalso
      have hn := M.val_len hg (by simp) hv
      have hn1 : n = 1 := by have := hn.2; simp at this; omega
      subst hn1
      have hv' : m.val (c :: 0 :: []) = .char wc 1 := by
        have := M.val_ext (t := [0]) hg (s := [c]) (by simp) (by rw [hv]; simp)
        rw [hv] at this; exact this
      obtain ⟨q, hq, _, _, h6, h7⟩ := hall c 0 [] wc 1 hca hv'
      obtain ⟨c', b', t', wc', _, _, _, _, h8, h9, h10, _⟩ := hmem q hq _ h7
      have := keyOf_inj (s := [c]) (t := c' :: b' :: t') (by simp) h9 (by simp only [List.take] at h10; omega)
      simp at this
    | cons b t =>
      obtain ⟨q, hq, h4, h5, h6, h7⟩ := hall c b t wc n hca hv
      exact ⟨h4, h5, h6, (hpk _).2 ⟨q, hq, h7⟩⟩
  · have key : ∀ (qs' : List (Nat × Nat × List Tab)) (lo : Nat), coverFrom lo qs' = true →
        (∀ q ∈ qs', q ∈ qs) → (packed (pieceTabs qs')).Nodup ∧ ∀ x ∈ packed (pieceTabs qs'), ∃ c b t wc,
          lo ≤ UInt8.toNat b ∧ wc < 16777216 ∧ (c :: b :: t).length < 8 ∧ x = keyOf (c :: b :: t) * 16777216 + wc := by
      intro qs'
      induction qs' with
      | nil => intro lo _ _; exact ⟨List.nodup_nil, fun x hx => absurd hx (by simp [packed, pieceTabs])⟩
      | cons q qs' ih =>
        intro lo hc' hs
        simp only [coverFrom, Bool.and_eq_true, beq_iff_eq, decide_eq_true_eq] at hc'
        obtain ⟨⟨h1, h2⟩, h3⟩ := hc'
        obtain ⟨h4, h5⟩ := ih _ h3 fun r hr => hs r (List.mem_cons_of_mem _ hr)
        have hq := hs q (List.mem_cons_self ..)
        have e : packed (pieceTabs (q :: qs')) = packed q.2.2 ++ packed (pieceTabs qs') := by
          simp [packed, pieceTabs]
        rw [e]
        constructor
        · rw [List.nodup_append]
          refine ⟨(hL q hq).nodup, h4, ?_⟩
          rintro x hx y hy rfl
          obtain ⟨c, b, t, wc, _, _, h6, h7, h8, h9, h10, _⟩ := hmem q hq x hx
          obtain ⟨c', b', t', wc', h6', h8', h9', h10'⟩ := h5 x hy
          have := keyOf_inj h9 h9' (by omega)
          simp only [List.cons.injEq] at this
          rw [this.2.1] at h7
          omega
        · intro x hx
          rcases List.mem_append.1 hx with hx | hx
          · obtain ⟨c, b, t, wc, _, _, h6, h7, h8, h9, h10, _⟩ := hmem q hq x hx
            exact ⟨c, b, t, wc, by omega, h8, h9, h10⟩
          · obtain ⟨c, b, t, wc, h6, h7⟩ := h5 x hx
            exact ⟨c, b, t, wc, by omega, h7⟩
    exact (key qs 0 hc fun _ h => h).1

theorem Lists.dec_iff {m : M MbRet} (hg : M.Good M.RetOK 1 m) {ts : List Tab}
    (h : Lists m [] (fun _ => True) (packed ts)) (s : List Byte) (wc n : Nat) (hs : s ≠ []) :
    m.val s = .char wc n ↔ n ≤ s.length ∧ (s.take n, wc) ∈ tableOf ts := by
  unfold tableOf
  simp only [List.mem_map, Prod.mk.injEq]
  constructor
  · intro hv
    refine ⟨(M.val_len hg hs hv).2, ?_⟩
    obtain ⟨b, t, rfl⟩ := List.exists_cons_of_ne_nil hs
    obtain ⟨_, h1, h2, h3⟩ := h.all b t wc n trivial hv
    rw [List.nil_append] at h3
    refine ⟨_, h3, ?_, by omega⟩
    rw [show (keyOf (List.take n (b :: t)) * 16777216 + wc) / 16777216 = keyOf (List.take n (b :: t)) by omega]
    exact unkey_keyOf 8 _ (by rw [List.length_take]; omega)
  · rintro ⟨hn, x, hx, h1, h2⟩
    obtain ⟨b, t, wc', _, h3, h4, h5, h6⟩ := h.mem x hx
    rw [List.nil_append] at h4 h5 h6
    rw [h5, show (keyOf (b :: t) * 16777216 + wc') / 16777216 = keyOf (b :: t) by omega,
      unkey_keyOf 8 _ h4] at h1
    have h2 : wc' = wc := by omega
    subst h2
    have hl : (b :: t).length = n := by rw [h1, List.length_take]; omega
    rw [h1] at h6
    have := M.val_ext hg (s := s.take n) (t := s.drop n) (by rw [← h1]; simp) (by rw [h6]; simp)
    rw [List.take_append_drop, h6] at this
    rw [this, List.length_take]
    congr 1
    omega

/-- The encoder stores one to seven bytes. -/
def W.Fits (w : W) : Prop := ∀ bs, w.res = some bs → bs ≠ [] ∧ bs.length < 8

theorem W.fits {w : W} (h : W.Good 0 w) : W.Fits w := fun bs hr => by
  have h1 := W.good_len _ _ _ h hr
  have h2 := W.good_need _ _ h
  exact ⟨h1.1, by omega⟩

/-- The pieces of a check give agreement with the table. `ds`: the tables of rows, each with the rows
of it that the encoder does not produce. `ex`: the pairs that only the encoder produces. `rs`: ranges of
characters, with the number of those that the encoder accepts. -/
theorem table_ok' {m : M MbRet} {w : Nat → W} (hg : M.Good M.RetOK 1 m) (hwg : ∀ wc, W.Fits (w wc))
    {ps : List (Nat × Nat × List Tab)} {ds : List (Tab × Tab)} {ex : List (Nat × Nat)}
    {rs : List (Nat × Nat × Nat)}
    (hc : coverFrom 0 ps = true) (hw : ∀ p ∈ ps, PieceOK m p)
    (hd : ds.map (·.1) = pieceTabs ps)
    (hrow : ∀ p ∈ ds, chkRows w p.1 p.2 = true)
    (hex : chkEx m w ex = true) (hexn : ex.Nodup)
    (hsw : ∀ r ∈ rs, cntSweep w r.1 r.2.1 ≤ r.2.2)
    (hcnt : (rs.map (·.2.2)).sum + (ds.map (·.2.len)).sum = (ds.map (·.1.len)).sum + ex.length)
    (hout : ∀ wc, (w wc).res ≠ none → ∃ r ∈ rs, r.1 ≤ wc ∧ wc < r.1 + r.2.1) :
    TableOK m w (tableOf (pieceTabs ps)) (tableOf (ds.map (·.2)) ++ irrOf ex) := by
  have hlen : ∀ wc bs, (w wc).res = some bs → bs.length < 8 := fun wc bs h => (hwg wc bs h).2
  have hL := pieces_lists' hc hw
  have hdec := Lists.dec_iff hg hL
  have hbad := chkRows_sound ds hrow
  rw [hd] at hbad
  have hmemx : ∀ bs wc, bs.length < 8 → ((bs, wc) ∈ irrOf ex ↔ (keyOf bs, wc) ∈ ex) := by
    intro bs wc hb
    simp only [irrOf, List.mem_map, Prod.mk.injEq]
    constructor
    · rintro ⟨p, hp, h1, rfl⟩
      have h2 := List.all_eq_true.1 hex p hp
      simp only [Bool.and_eq_true, beq_iff_eq] at h2
      rw [← h1, h2.1.2]; exact hp
    · intro h; exact ⟨_, h, unkey_keyOf 8 bs hb, rfl⟩
  -- the rows have fewer than eight bytes
  have hP : ∀ x ∈ packed (pieceTabs ps), ∃ bs wc, bs ≠ [] ∧ bs.length < 8 ∧ wc < 16777216 ∧
      x = keyOf bs * 16777216 + wc ∧ m.val bs = .char wc bs.length := by
    intro x hx
    obtain ⟨b, t, wc', _, h3, h4, h5, h6⟩ := hL.mem x hx
    exact ⟨b :: t, wc', by simp, h4, h3, h5, h6⟩
  have hrowOf : ∀ (ts : List Tab), (∀ x ∈ packed ts, x ∈ packed (pieceTabs ps)) → ∀ bs wc,
      (bs, wc) ∈ tableOf ts → bs ≠ [] ∧ bs.length < 8 ∧ m.val bs = .char wc bs.length ∧
        keyOf bs * 16777216 + wc ∈ packed ts ∧ wc < 16777216 := by
    intro ts hts bs wc h
    simp only [tableOf, List.mem_map, Prod.mk.injEq] at h
    obtain ⟨x, hx, h1, h2⟩ := h
    obtain ⟨bs', wc', h0, h3, h4, h5, h6⟩ := hP x (hts x hx)
    have e : (keyOf bs' * 16777216 + wc') / 16777216 = keyOf bs' := by omega
    rw [h5, e, unkey_keyOf 8 _ h3] at h1
    have h2 : wc' = wc := by omega
    subst h1 h2
    exact ⟨h0, h3, h6, h5 ▸ hx, h4⟩
  have hdm : ∀ x ∈ packed (ds.map (·.2)), x ∈ packed (pieceTabs ps) := by
    intro x hx
    rw [← hbad] at hx
    exact (List.mem_filter.1 hx).1
  have hT := hrowOf (pieceTabs ps) (fun _ h => h)
  have hD := hrowOf (ds.map (·.2)) hdm
  have hmemT : ∀ (ts : List Tab) bs wc, bs.length < 8 → wc < 16777216 →
      keyOf bs * 16777216 + wc ∈ packed ts → (bs, wc) ∈ tableOf ts := by
    intro ts bs wc hl hw h
    simp only [tableOf, List.mem_map, Prod.mk.injEq]
    refine ⟨_, h, ?_, by omega⟩
    rw [show (keyOf bs * 16777216 + wc) / 16777216 = keyOf bs by omega]
    exact unkey_keyOf 8 bs hl
  refine ⟨hdec, ?_, fun bs wc h => (hT bs wc h).2.2.2.2⟩
  have hdecT : ∀ bs wc, bs ≠ [] → ((bs, wc) ∈ tableOf (pieceTabs ps) ↔ m.val bs = .char wc bs.length) := by
    intro bs wc hb
    have := hdec bs wc bs.length hb
    rw [List.take_length] at this
    rw [this]; simp
  have hres : ∀ wc bs, bs.length < 8 → ((w wc).res = some bs ↔ (w wc).resN = keyOf bs) := by
    intro wc bs hb
    rw [W.resN_eq]
    cases hr : (w wc).res with
    | none => have := keyOf_pos bs; simp; omega
    | some cs =>
      simp only [Option.some.injEq]
      exact ⟨fun h => by rw [h], fun h => keyOf_inj (hlen wc cs hr) hb h⟩
  have hne : ∀ wc bs, (w wc).res = some bs → bs ≠ [] := fun wc bs h => (hwg wc bs h).1
  have hgood : ∀ x, badRow w x = false ↔ (w (x % 16777216)).resN = x / 16777216 := by
    intro x; unfold badRow; rw [Bool.not_eq_false', Nat.beq_eq]
  -- pairs only the encoder produces
  have hX : ∀ p ∈ ex, ∃ bs, bs ≠ [] ∧ bs.length < 8 ∧ p.1 = keyOf bs ∧ (w p.2).resN = keyOf bs ∧
      m.val bs ≠ .char p.2 bs.length := by
    intro p hp
    have h2 := List.all_eq_true.1 hex p hp
    simp only [Bool.and_eq_true, beq_iff_eq, decide_eq_true_eq, Bool.not_eq_true',
      List.isEmpty_eq_false_iff] at h2
    obtain ⟨⟨⟨h3, h4⟩, h5⟩, h6, h7⟩ := h2
    refine ⟨unkey 8 p.1, h4, by omega, h5.symm, ?_, ?_⟩
    · rw [Nat.beq_eq] at h6; rw [h5, h6]
    · intro hv
      have h8 : unkeyF p.1 = (unkey 8 p.1).map (·.toNat) := by
        have := unkeyF_eq (unkey 8 p.1) (by omega)
        rwa [h5] at this
      rw [h8, M.evalN_eq hg h4, hv, codeN_char, List.length_map] at h7
      have : Nat.beq (8 * p.2 + (unkey 8 p.1).length + 2) (8 * p.2 + (unkey 8 p.1).length + 2) = true := by
        rw [Nat.beq_eq]
      rw [this] at h7
      cases h7
  -- the characters of good rows and of `ex`
  have hgn : ((packed (pieceTabs ps)).filter fun x => !badRow w x).Nodup := hL.nodup.filter _
  have hRn : (((packed (pieceTabs ps)).filter fun x => !badRow w x).map (· % 16777216) ++
      ex.map Prod.snd).Nodup := by
    rw [List.nodup_append]
    refine ⟨?_, ?_, ?_⟩
    · unfold List.Nodup at hgn ⊢
      rw [List.pairwise_map]
      refine List.Pairwise.imp_of_mem ?_ hgn
      intro x y hx hy hxy he
      rw [List.mem_filter, Bool.not_eq_true', hgood] at hx hy
      have h1 := hx.2; have h2 := hy.2
      rw [he] at h1
      apply hxy
      have : x / 16777216 = y / 16777216 := h1.symm.trans h2
      omega
    · unfold List.Nodup at hexn ⊢
      rw [List.pairwise_map]
      refine List.Pairwise.imp_of_mem ?_ hexn
      intro p q hp hq hpq he
      obtain ⟨bs, _, _, h1, h2, _⟩ := hX p hp
      obtain ⟨cs, _, _, h3, h4, _⟩ := hX q hq
      apply hpq
      have : p.1 = q.1 := by rw [h1, h3, ← h2, ← h4, he]
      exact Prod.ext this he
    · rintro x hx y hy rfl
      obtain ⟨z, hz, rfl⟩ := List.mem_map.1 hx
      obtain ⟨p, hp, h1⟩ := List.mem_map.1 hy
      rw [List.mem_filter, Bool.not_eq_true', hgood] at hz
      obtain ⟨bs, h0, h2, h3, h4, h5⟩ := hX p hp
      obtain ⟨cs, wc, _, h6, h7, h8, h9⟩ := hP z hz.1
      have h10 := hz.2
      rw [← h1, h4, h8, show (keyOf cs * 16777216 + wc) / 16777216 = keyOf cs by omega] at h10
      have := keyOf_inj h2 h6 h10
      subst this
      apply h5
      rw [h9, h1, h8, show (keyOf bs * 16777216 + wc) % 16777216 = wc by omega]
  have hEl : (rs.flatMap fun r => (List.range' r.1 r.2.1).filter fun wc => (w wc).res.isSome).length ≤
      (rs.map (·.2.2)).sum := by
    rw [List.length_flatMap]
    refine sum_map_le rs fun r hr => ?_
    rw [← cntSweep_eq]
    exact hsw r hr
  have hpl : ∀ ts : List Tab, (packed ts).length = (ts.map (·.len)).sum := by
    intro ts
    unfold packed
    rw [List.length_flatMap]
    simp
  have hRl : (((packed (pieceTabs ps)).filter fun x => !badRow w x).map (· % 16777216) ++
      ex.map Prod.snd).length = (rs.map (·.2.2)).sum := by
    have h1 : (packed (pieceTabs ps)).length = ((packed (pieceTabs ps)).filter (badRow w)).length +
        ((packed (pieceTabs ps)).filter fun x => !badRow w x).length := by
      have : ∀ l : List Nat, l.length = (l.filter (badRow w)).length + (l.filter fun x => !badRow w x).length := by
        intro l
        induction l with
        | nil => rfl
        | cons a l ih =>
          rw [List.filter_cons, List.filter_cons]
          cases badRow w a <;> simp <;> omega
      exact this _
    rw [hbad, hpl, hpl, ← hd] at h1
    simp only [List.map_map, Function.comp_def] at h1
    rw [List.length_append, List.length_map, List.length_map, ← hd]
    omega
  have hE : ∀ wc, wc ∈ (rs.flatMap fun r => (List.range' r.1 r.2.1).filter fun wc => (w wc).res.isSome) ↔
      (w wc).res ≠ none := by
    intro wc
    simp only [List.mem_flatMap, List.mem_filter, List.mem_range'_1]
    constructor
    · rintro ⟨r, hr, _, h⟩ hn
      rw [hn] at h; cases h
    · intro h
      obtain ⟨r, hr, h1⟩ := hout wc h
      exact ⟨r, hr, h1, by rwa [Option.isSome_iff_ne_none]⟩
  have hsub := subset_of_length _ _ hRn (fun wc hwc => by
    rw [hE]
    intro hn
    have h0 : (w wc).resN = 0 := by rw [W.resN_eq, hn]
    rcases List.mem_append.1 hwc with h | h
    · obtain ⟨z, hz, rfl⟩ := List.mem_map.1 h
      rw [List.mem_filter, Bool.not_eq_true', hgood] at hz
      obtain ⟨cs, wc, _, h6, h7, h8, h9⟩ := hP z hz.1
      have := keyOf_pos cs
      omega
    · obtain ⟨p, hp, rfl⟩ := List.mem_map.1 h
      obtain ⟨bs, _, _, _, h4, _⟩ := hX p hp
      have := keyOf_pos bs
      omega) (by rw [hRl]; exact hEl)
  have hDbad : ∀ x, x ∈ packed (ds.map (·.2)) ↔ x ∈ packed (pieceTabs ps) ∧ badRow w x = true := by
    intro x; rw [← hbad, List.mem_filter]
  intro wc bs
  rw [List.mem_append]
  constructor
  · intro h
    have hb := hne wc bs h
    have hl := hlen wc bs h
    have hk := (hres wc bs hl).1 h
    rcases List.mem_append.1 (hsub wc ((hE wc).2 (by rw [h]; simp))) with h1 | h1
    · obtain ⟨z, hz, hzw⟩ := List.mem_map.1 h1
      rw [List.mem_filter, Bool.not_eq_true'] at hz
      have hzg := (hgood z).1 hz.2
      rw [hzw, hk] at hzg
      have hz2 : z = keyOf bs * 16777216 + wc := by omega
      have hwc : wc < 16777216 := by omega
      refine .inl ⟨hmemT _ _ _ hl hwc (hz2 ▸ hz.1), ?_⟩
      rintro (h2 | h2)
      · have h3 := ((hDbad _).1 (hD bs wc h2).2.2.2.1).2
        rw [← hz2, hz.2] at h3; cases h3
      · rw [hmemx bs wc hl] at h2
        obtain ⟨cs, h4, h5, h6, _, h7⟩ := hX _ h2
        have := keyOf_inj hl h5 h6
        subst this
        apply h7
        rw [← hdecT _ _ hb]
        exact hmemT _ _ _ hl hwc (hz2 ▸ hz.1)
    · obtain ⟨p, hp, rfl⟩ := List.mem_map.1 h1
      obtain ⟨cs, h4, h5, h6, h8, h7⟩ := hX _ hp
      have := keyOf_inj hl h5 (hk.symm.trans h8)
      subst this
      refine .inr ⟨fun hm => h7 ((hdecT _ _ hb).1 hm), .inr ?_⟩
      rw [hmemx _ _ hl, ← h6]
      exact hp
  · rintro (⟨h1, h2⟩ | ⟨h1, h2⟩)
    · obtain ⟨hb, hl, hv, hx, hwc⟩ := hT bs wc h1
      rw [hres wc bs hl]
      cases hbr : badRow w (keyOf bs * 16777216 + wc) with
      | true => exact absurd (.inl (hmemT _ _ _ hl hwc ((hDbad _).2 ⟨hx, hbr⟩))) h2
      | false =>
        rw [hgood, show (keyOf bs * 16777216 + wc) / 16777216 = keyOf bs by omega,
          show (keyOf bs * 16777216 + wc) % 16777216 = wc by omega] at hbr
        exact hbr
    · rcases h2 with h2 | h2
      · obtain ⟨hb, hl, hv, hx, hwc⟩ := hD bs wc h2
        exact absurd ((hdecT _ _ hb).2 hv) h1
      · have h2' := h2
        simp only [irrOf, List.mem_map, Prod.mk.injEq] at h2
        obtain ⟨p, hp, h3, rfl⟩ := h2
        obtain ⟨cs, h4, h5, h6, h8, h7⟩ := hX _ hp
        rw [h6, unkey_keyOf 8 _ h5] at h3
        subst h3
        rw [hres _ _ h5, h8]

/-- The pairs of ASCII. -/
def asciiPairs : List (List Byte × Nat) := (List.range 128).map fun b => ([u8 b], b)

noncomputable def chkAscii (m : M MbRet) (w : Nat → W) : Bool :=
  allF (fun b => cond (Nat.beq (m.evalN [b]) (Nat.add (Nat.mul 8 b) 3)) (Nat.beq ((w b).resN) (Nat.add 256 b)) false) 0 128

theorem TableOK.ascii {m : M MbRet} {w : Nat → W} {T irr} (h : TableOK m w T irr)
    (hg : M.Good M.RetOK 1 m) (hwg : ∀ wc, W.Fits (w wc)) (hc : chkAscii m w = true) :
    ∀ p ∈ asciiPairs, p ∈ T ∧ p ∉ irr := by
  intro p hp
  unfold asciiPairs at hp
  obtain ⟨b, hb, rfl⟩ := List.mem_map.1 hp
  have hb := List.mem_range.1 hb
  have h1 := (allF_iff ..).1 hc b (by omega) (by omega)
  cases h2 : Nat.beq (m.evalN [b]) (Nat.add (Nat.mul 8 b) 3) with
  | false => rw [h2] at h1; cases h1
  | true =>
    rw [h2] at h1
    have h1 : Nat.beq ((w b).resN) (256 + b) = true := h1
    have h2 := Nat.eq_of_beq_eq_true h2
    have h1 := Nat.eq_of_beq_eq_true h1
    have hu : (u8 b).toNat = b := by rw [u8_toNat]; omega
    have h3 := M.evalN_eq hg (s := [u8 b]) (by simp)
    simp only [List.map_cons, List.map_nil, hu] at h3
    rw [h3] at h2
    have hv : m.val [u8 b] = .char b 1 := by
      cases hv : m.val [u8 b] with
      | char wc n =>
        have hn := M.val_len hg (by simp) hv
        rw [hv, codeN_char] at h2
        have h2 : 8 * wc + n + 2 = 8 * b + 3 := h2
        simp only [List.length_cons, List.length_nil] at hn
        rw [show wc = b by omega, show n = 1 by omega]
      | ilseq k => rw [hv] at h2; have h2 : 1 = 8 * b + 3 := h2; omega
      | toofew k => rw [hv] at h2; have h2 : 0 = 8 * b + 3 := h2; omega
    have h4 := (h.dec_iff [u8 b] b 1 (by simp)).1 hv
    rw [W.resN_eq] at h1
    have h5 : (w b).res = some [u8 b] := by
      cases hr : (w b).res with
      | none => rw [hr] at h1; have h1 : 0 = 256 + b := h1; omega
      | some bs =>
        rw [hr] at h1
        have hl : bs.length < 8 := (hwg b bs hr).2
        have h6 : keyOf [u8 b] = 256 + b := by simp [keyOf, hu]
        exact congrArg some (keyOf_inj hl (by simp) (h1.trans h6.symm))
    refine ⟨by simpa using h4.2, fun hi => ?_⟩
    rcases (h.enc_iff b [u8 b]).1 h5 with h6 | h6
    · exact h6.2 hi
    · exact h6.1 (by simpa using h4.2)

/-! ## Characters outside the ranges of the tables -/

theorem csegF_outside (k : Codes) : ∀ (l : List CSeg) (wc : Nat),
    (∀ s ∈ l, ¬ (s.lo ≤ wc ∧ wc < s.hi)) → csegF k l wc = 0 := by
  intro l wc
  induction l with
  | nil => intro _; rfl
  | cons r rs ih =>
    intro h
    rw [csegF_cons, if_neg (h r (List.mem_cons_self ..))]
    exact ih fun s hs => h s (List.mem_cons_of_mem _ hs)

/-- `rs`, a list of ranges (start, length, _) in ascending order, covers everything from `lo` to `hi`. -/
def rangeCover (hi : Nat) : Nat → List (Nat × Nat × Nat) → Bool
  | lo, [] => hi ≤ lo
  | lo, r :: rs => if r.1 ≤ lo ∧ lo < r.1 + r.2.1 then rangeCover hi (r.1 + r.2.1) rs
      else if hi ≤ lo then true else rangeCover hi lo rs

theorem rangeCover_sound {hi : Nat} : ∀ (rs : List (Nat × Nat × Nat)) (lo : Nat), rangeCover hi lo rs = true →
    ∀ wc, lo ≤ wc → wc < hi → ∃ r ∈ rs, r.1 ≤ wc ∧ wc < r.1 + r.2.1 := by
  intro rs
  induction rs with
  | nil => intro lo h wc h1 h2; simp only [rangeCover, decide_eq_true_eq] at h; omega
  | cons r rs ih =>
    intro lo h wc h1 h2
    simp only [rangeCover] at h
    by_cases hc : r.1 ≤ lo ∧ lo < r.1 + r.2.1
    · rw [if_pos hc] at h
      by_cases hw : wc < r.1 + r.2.1
      · exact ⟨r, List.mem_cons_self .., by omega, hw⟩
      · obtain ⟨q, hq, h3⟩ := ih _ h wc (by omega) h2
        exact ⟨q, List.mem_cons_of_mem _ hq, h3⟩
    · rw [if_neg hc] at h
      by_cases hh : hi ≤ lo
      · omega
      · rw [if_neg hh] at h
        obtain ⟨q, hq, h3⟩ := ih _ h wc h1 h2
        exact ⟨q, List.mem_cons_of_mem _ hq, h3⟩

theorem CsEnc.outside {e : CsEnc} {rs : List (Nat × Nat × Nat)} {wc : Nat}
    (h : (e.segs.all fun s => rangeCover s.hi s.lo rs) = true)
    (hn : ∀ r ∈ rs, ¬ (r.1 ≤ wc ∧ wc < r.1 + r.2.1)) : e.encF wc = 0 := by
  apply csegF_outside
  rintro s hs ⟨h1, h2⟩
  obtain ⟨r, hr, h3⟩ := rangeCover_sound rs s.lo (List.all_eq_true.1 h s hs) wc h1 h2
  exact hn r hr h3

theorem W.res_ite (c : Prop) [Decidable c] (a b : W) : (if c then a else b).res = if c then a.res else b.res := by
  by_cases h : c <;> simp [h]

theorem W.res_room (k : Nat) (w : W) : (W.room k w).res = w.res := rfl
theorem W.res_put (bs : List Nat) : (W.put bs).res = some (bs.map u8) := rfl
theorem W.res_iluni : W.iluni.res = none := rfl
theorem W.res_ub : W.ub.res = none := rfl
theorem W.res_abort : W.abort.res = none := rfl

theorem CsEnc.on_zero {e : CsEnc} (h : e.safeF = true) {wc : Nat} (h0 : e.encF wc = 0) (k : Int → List Nat → W) :
    (e.wctomb wc).on 2 k = k (-1) [] := by
  rw [CsEnc.on_fast h, h0]; rfl

theorem CsEnc.zero {e : CsEnc} (h : e.safeF = true) {wc : Nat} (h0 : e.encF wc = 0) :
    e.wctomb wc = .room 2 .iluni := by
  rw [CsEnc.fast h, h0]; rfl

theorem W.on_room_iluni (k : Int → List Nat → W) : (W.room 2 .iluni).on 2 k = k (-1) [] := rfl

theorem all_nil {α : Type} {P : α → Prop} : ∀ x ∈ ([] : List α), P x := by simp

theorem all_cons {α : Type} {P : α → Prop} {a : α} {l : List α} (h : P a) (hl : ∀ x ∈ l, P x) :
    ∀ x ∈ a :: l, P x := List.forall_mem_cons.2 ⟨h, hl⟩

theorem table_ok {m : M MbRet} {w : Nat → W} (hg : M.Good M.RetOK 1 m) (hwg : ∀ wc, W.Fits (w wc))
    {ps : List (Nat × Nat × List Tab)} {ds : List (Tab × Tab)} {ex : List (Nat × Nat)}
    {rs : List (Nat × Nat × Nat)}
    (hc : coverFrom 0 ps = true) (hw : ∀ p ∈ ps, chkWalk m p.1 p.2.1 p.2.2 = true)
    (hd : ds.map (·.1) = pieceTabs ps)
    (hrow : ∀ p ∈ ds, chkRows w p.1 p.2 = true)
    (hex : chkEx m w ex = true) (hexn : ex.Nodup)
    (hsw : ∀ r ∈ rs, cntSweep w r.1 r.2.1 ≤ r.2.2)
    (hcnt : (rs.map (·.2.2)).sum + (ds.map (·.2.len)).sum = (ds.map (·.1.len)).sum + ex.length)
    (hout : ∀ wc, (w wc).res ≠ none → ∃ r ∈ rs, r.1 ≤ wc ∧ wc < r.1 + r.2.1) :
    TableOK m w (tableOf (pieceTabs ps)) (tableOf (ds.map (·.2)) ++ irrOf ex) :=
  table_ok' hg hwg hc (fun p hp => chkWalk_piece hg (hw p hp)) hd hrow hex hexn hsw hcnt hout

/-- Shows that an encoder program rejects a character, from facts in the context. -/
macro "wnone" : tactic => `(tactic|
  (simp only [W.on_room_iluni, W.on_iluni, ascii_w_orElse, ne_eq, ite_not, iluni_fast, ite_self, W.res_ite, W.res_room, W.res_put, W.res_iluni] <;>
   (try repeat' split) <;> first | rfl | omega))

end Reiconv
