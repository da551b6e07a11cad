import Verif.World

/-!
# C50, C51: programs with many descriptors
-/

namespace Reiconv

variable {lib : Nat → Nat → Bool → Conv}

/-- Who owns the memory: the allocated blocks are the descriptors the program holds handles of, and data blocks, each
pointed to by one pointer variable; all other pointer variables are NULL. -/
structure Owned (w : World) (held : List Nat) : Prop where
  null : w.heap 0 = none
  desc : ∀ a, (∃ d, w.heap a = some (.desc d)) ↔ a ∈ held
  data : ∀ a bs, w.heap a = some (.data bs) → ∃ v, w.var v = a
  var : ∀ v, w.var v ≠ 0 → ∃ bs, w.heap (w.var v) = some (.data bs)
  inj : ∀ v v', w.var v ≠ 0 → w.var v = w.var v' → v = v'

@[simp] theorem setAt_same {α : Type} (f : Nat → α) (a : Nat) (x : α) : setAt f a x a = x := by simp [setAt]
theorem setAt_ne {α : Type} (f : Nat → α) {a b : Nat} (x : α) (h : b ≠ a) : setAt f a x b = f b := by simp [setAt, h]

/-- The descriptors are the same, except perhaps their states. -/
def Keeps (w w' : World) : Prop := ∀ h d, w.heap h = some (.desc d) → w'.heap h = some (.desc d)

/-- The program's variable `v` is set to `p`, which is NULL or a block of data that was not allocated before or was the
one `v` pointed to; the block that `v` pointed to is freed. -/
theorem Owned.assign {w : World} {held : List Nat} (hw : Owned w held) (v p : Nat) (bs : List Byte)
    (hp : w.heap p = none ∨ p = w.var v) :
    Owned ⟨setAt (setAt w.heap (w.var v) none) p (if p = 0 then none else some (.data bs)), setAt w.var v p⟩ held ∧
    Keeps w ⟨setAt (setAt w.heap (w.var v) none) p (if p = 0 then none else some (.data bs)), setAt w.var v p⟩ := by
  have hnd : ∀ a d, w.heap a = some (.desc d) → a ≠ p ∧ a ≠ w.var v := by
    intro a d ha
    have h1 : a ≠ w.var v := by
      rintro rfl
      by_cases h0 : w.var v = 0
      · rw [h0, hw.null] at ha; cases ha
      · obtain ⟨x, hx⟩ := hw.var v h0
        rw [hx] at ha; cases ha
    refine ⟨?_, h1⟩
    rintro rfl
    rcases hp with hp | hp
    · rw [hp] at ha; cases ha
    · exact h1 hp
  have hk : Keeps w ⟨setAt (setAt w.heap (w.var v) none) p (if p = 0 then none else some (.data bs)), setAt w.var v p⟩ := by
    intro a d ha
    obtain ⟨h1, h2⟩ := hnd a d ha
    simp only [setAt_ne _ _ h1, setAt_ne _ _ h2, ha]
  refine ⟨⟨?_, fun a => ⟨?_, ?_⟩, ?_, ?_, ?_⟩, hk⟩
  · by_cases h0 : (0 : Nat) = p
    · simp only [← h0]; simp
    · simp only [setAt_ne _ _ h0]
      by_cases h1 : (0 : Nat) = w.var v
      · rw [h1]; simp
      · rw [setAt_ne _ _ h1, hw.null]
  · rintro ⟨d, hd⟩
    refine (hw.desc a).1 ⟨d, ?_⟩
    simp only at hd
    by_cases h1 : a = p
    · subst h1
      rw [setAt_same] at hd
      split at hd <;> cases hd
    · rw [setAt_ne _ _ h1] at hd
      by_cases h2 : a = w.var v
      · subst h2; rw [setAt_same] at hd; cases hd
      · rwa [setAt_ne _ _ h2] at hd
  · intro ha
    obtain ⟨d, hd⟩ := (hw.desc a).2 ha
    exact ⟨d, hk a d hd⟩
  · intro a x ha
    simp only at ha ⊢
    by_cases h1 : a = p
    · exact ⟨v, by rw [setAt_same, h1]⟩
    · rw [setAt_ne _ _ h1] at ha
      by_cases h2 : a = w.var v
      · subst h2; rw [setAt_same] at ha; cases ha
      · rw [setAt_ne _ _ h2] at ha
        obtain ⟨v', rfl⟩ := hw.data a x ha
        refine ⟨v', setAt_ne _ _ ?_⟩
        rintro rfl
        exact h2 rfl
  · intro v' h0
    simp only at h0 ⊢
    by_cases h1 : v' = v
    · subst h1
      rw [setAt_same] at h0 ⊢
      exact ⟨bs, by rw [setAt_same, if_neg h0]⟩
    · rw [setAt_ne _ _ h1] at h0 ⊢
      obtain ⟨x, hx⟩ := hw.var v' h0
      have h2 : w.var v' ≠ w.var v := fun h => h1 (hw.inj _ _ h0 h)
      have h3 : w.var v' ≠ p := by
        rcases hp with hp | hp
        · rintro h; rw [h, hp] at hx; cases hx
        · rw [hp]; exact h2
      exact ⟨x, by rw [setAt_ne _ _ h3, setAt_ne _ _ h2, hx]⟩
  · intro v1 v2 h0 h
    simp only at h0 h
    have hv : ∀ v', v' ≠ v → w.var v' ≠ 0 → w.var v' ≠ p := by
      intro v' h1 h0 h
      rcases hp with hp | hp
      · obtain ⟨x, hx⟩ := hw.var v' h0
        rw [h, hp] at hx; cases hx
      · exact h1 (hw.inj _ _ h0 (h.trans hp))
    by_cases h1 : v1 = v <;> by_cases h2 : v2 = v
    · rw [h1, h2]
    · subst h1
      rw [setAt_same, setAt_ne _ _ h2] at h
      rw [setAt_same] at h0
      exact absurd h.symm (hv v2 h2 (h ▸ h0))
    · subst h2
      rw [setAt_same, setAt_ne _ _ h1] at h
      rw [setAt_ne _ _ h1] at h0
      exact absurd h (hv v1 h1 h0)
    · rw [setAt_ne _ _ h1, setAt_ne _ _ h2] at h
      rw [setAt_ne _ _ h1] at h0
      exact hw.inj _ _ h0 h

/-- The result of `malloc` or `realloc` in `reiconv_convert`. -/
theorem alloc_eq {w : World} {held : List Nat} (hw : Owned w held) {v n : Nat} {got : Option Grant}
    (hg : ∀ g, got = some g → Granted w (w.var v) n g) (hn : 0 < n → got ≠ none) :
    w.allocOut v n got =
      match (generalizing := false) got with
      | some g => .ok (g.addr, ⟨setAt (setAt w.heap (w.var v) none) g.addr (some (.data g.bytes)), w.var⟩)
      | none => .ok (0, ⟨setAt w.heap (w.var v) none, w.var⟩) := by
  have hnull : ∀ a, a = 0 → setAt w.heap a none = w.heap := by
    rintro a rfl
    funext b
    by_cases h : b = 0
    · subst h; rw [setAt_same, hw.null]
    · rw [setAt_ne _ _ h]
  unfold World.allocOut
  split
  · next h0 =>
    rw [hnull _ h0]
    cases got <;> rfl
  · next h0 =>
    obtain ⟨bs, hx⟩ := hw.var v h0
    unfold World.realloc
    rw [hx]
    cases got with
    | some g => rfl
    | none =>
      have : n = 0 := by
        rcases Nat.eq_zero_or_pos n with h | h
        · exact h
        · exact absurd rfl (hn h)
      simp only [this, if_true]

/-! ## The output pointer stays NULL or not NULL -/

theorem store_null {b b' : Buf} {ws : List Byte} (h : b.store ws = .ok b') : b'.null = b.null := by
  unfold Buf.store at h
  (repeat' split at h) <;> cases h <;> rfl

theorem advance_null {b b' : Buf} {n : Nat} (h : b.advance n = .ok b') : b'.null = b.null := by
  unfold Buf.advance at h
  (repeat' split at h) <;> cases h <;> rfl

theorem callWctomb_null {c : Conv} {os wc : Nat} {b : Buf} {x} (h : callWctomb c os wc b = .ok x) :
    x.2.2.null = b.null := by
  unfold callWctomb at h
  obtain ⟨r, _, h⟩ := bind_ok_inv h
  obtain ⟨b', hb, h⟩ := bind_ok_inv h
  cases h
  exact store_null hb

theorem outcountOk_null {oc : Int} {os : Nat} {b : Buf} {i : Nat} {x} (h : outcountOk oc os b i = .ok x) :
    x.2.2.null = b.null := by
  unfold outcountOk at h
  split at h
  · cases h; rfl
  · obtain ⟨b', hb, h⟩ := bind_ok_inv h
    cases h
    exact advance_null hb

theorem putChar_null {c : Conv} {os wc : Nat} {b : Buf} {x} (h : putChar c os wc b = .ok x) :
    x.2.2.null = b.null := by
  unfold putChar at h
  obtain ⟨⟨oc, os1, b1⟩, h1, h⟩ := bind_ok_inv h
  have e1 := callWctomb_null h1
  simp only at h e1
  split at h
  · exact (outcountOk_null h).trans e1
  · split at h
    · cases h; exact e1
    · split at h
      · exact (outcountOk_null h).trans e1
      · obtain ⟨⟨oc2, os2, b2⟩, h2, h⟩ := bind_ok_inv h
        have e2 := callWctomb_null h2
        simp only at h e2
        split at h
        · exact (outcountOk_null h).trans (e2.trans e1)
        · cases h; exact e2.trans e1

theorem loop_null {c : Conv} : ∀ (fuel : Nat) (s : St) (inp : List Byte) (b : Buf) (res : Nat) (r : CallRes),
    loopConvert c fuel s inp b res = .ok r → r.buf.null = b.null := by
  intro fuel
  induction fuel with
  | zero => intro s inp b res r h; cases h
  | succ fuel ih =>
    intro s inp b res r h
    unfold loopConvert at h
    split at h
    · cases h; rfl
    · obtain ⟨⟨m, is⟩, _, h⟩ := bind_ok_inv h
      simp only at h
      split at h
      · split at h
        · split at h
          · obtain ⟨i, _, h⟩ := bind_ok_inv h
            exact ih _ _ _ _ _ h
          · split at h <;> cases h
            rfl
        · split at h
          · cases h; rfl
          · obtain ⟨i, _, h⟩ := bind_ok_inv h
            exact ih _ _ _ _ _ h
      · split at h
        · cases h; rfl
        · obtain ⟨⟨p, os, b'⟩, hp, h⟩ := bind_ok_inv h
          have e := putChar_null hp
          cases p with
          | err x => cases h; exact e
          | done i =>
            obtain ⟨i, _, h⟩ := bind_ok_inv h
            exact (ih _ _ _ _ _ h).trans e

theorem resetOut_null {c : Conv} {s : St} {b : Buf} {n : Nat} {r : CallRes} (h : resetOut c s b n = .ok r) :
    r.buf.null = b.null := by
  unfold resetOut at h
  split at h
  · cases h; rfl
  · obtain ⟨x, _, h⟩ := bind_ok_inv h
    obtain ⟨b1, hb, h⟩ := bind_ok_inv h
    split at h
    · cases h; exact store_null hb
    · obtain ⟨b2, hb2, h⟩ := bind_ok_inv h
      cases h
      exact (advance_null hb2).trans (store_null hb)

theorem reset_null {c : Conv} {s : St} {b : Buf} {r : CallRes} (h : loopReset c s b = .ok r) :
    r.buf.null = b.null := by
  unfold loopReset at h
  split at h
  · cases h; rfl
  · split at h
    · exact resetOut_null h
    · simp only at h
      split at h
      · exact resetOut_null h
      · obtain ⟨⟨p, os, b'⟩, hp, h⟩ := bind_ok_inv h
        have e := putChar_null hp
        cases p with
        | err x => cases h; exact e
        | done i => exact (resetOut_null h).trans e

theorem staticFlush_null {c : Conv} {s : St} {b : Buf} {x} (h : staticFlush c s b = .ok x) : x.2.2.null = b.null := by
  unfold staticFlush at h
  obtain ⟨r, hr, h⟩ := bind_ok_inv h
  have e := reset_null hr
  split at h <;> cases h <;> exact e

theorem staticLoop_null {c : Conv} : ∀ (fuel : Nat) (s : St) (inp : List Byte) (b : Buf) (x),
    staticLoop c fuel s inp b = .ok x → x.2.2.null = b.null := by
  intro fuel
  induction fuel with
  | zero => intro s inp b x h; cases h
  | succ fuel ih =>
    intro s inp b x h
    unfold staticLoop at h
    split at h
    · exact staticFlush_null h
    · obtain ⟨r, hr, h⟩ := bind_ok_inv h
      have e : r.buf.null = b.null := loop_null _ _ _ _ _ _ hr
      split at h
      · exact (ih _ _ _ _ h).trans e
      · exact (staticFlush_null h).trans e
      · cases h; exact e

/-! ## One call -/

/-- `reiconv_convert` gives the same reply with and without the heap, and keeps the memory in order. -/
theorem convertHeap_spec {c : Conv} {s : St} {inp : List Byte} {v : Option Nat} {lp : Bool} {got : Nat → Option Grant}
    {w : World} {held : List Nat} (hw : Owned w held)
    (hg : ∀ u, v = some u → ∀ n, (∀ g, got n = some g → Granted w (w.var u) n g) ∧ (0 < n → got n ≠ none)) :
    match (HCall.convert inp v lp got).toCall.reply c s with
    | .ok (a, s') => ∃ w', convertHeap c s inp v lp got w = .ok (a, s', w') ∧ Owned w' held ∧ Keeps w w'
    | _ => ∀ x, convertHeap c s inp v lp got w ≠ .ok x := by
  have hid : ∀ {α : Type} (f : Nat → α) (a : Nat) (x y : α), setAt (setAt f a x) a y = setAt f a y := by
    intro α f a x y; funext b; unfold setAt; split <;> rfl
  simp only [HCall.toCall, Call.reply, convert, convertHeap]
  cases hs : resultSize c s inp with
  | ub => intro x h; cases h
  | abort => intro x h; cases h
  | diverge => intro x h; cases h
  | ok z =>
    obtain ⟨sz, s1⟩ := z
    simp only [Outcome.bind_ok]
    cases sz with
    | error e => exact ⟨w, rfl, hw, fun _ _ h => h⟩
    | ok n =>
      cases v with
      | none => exact ⟨w, rfl, hw, fun _ _ h => h⟩
      | some v =>
        obtain ⟨hg1, hg2⟩ := hg v rfl n
        simp only [alloc_eq hw hg1 hg2, Option.isSome_some, Bool.not_true, Bool.false_eq_true, if_false]
        cases hgot : got n with
        | none =>
          have h1 := hw.assign v 0 [] (Or.inl hw.null)
          have heq : setAt (setAt w.heap (w.var v) none) 0 (if (0 : Nat) = 0 then none else some (Obj.data [])) =
              setAt w.heap (w.var v) none := by
            funext b
            by_cases h : b = 0
            · subst h
              rw [setAt_same]
              by_cases h2 : (0 : Nat) = w.var v
              · rw [h2]; simp
              · rw [setAt_ne _ _ h2, hw.null]; rfl
            · rw [setAt_ne _ _ h]
          rw [heq] at h1
          simp only [Outcome.bind_ok, Option.map_none]
          cases hx : convertStatic c s1 inp ⟨true, [], List.replicate n 0⟩ with
          | ub => intro x h; cases h
          | abort => intro x h; cases h
          | diverge => intro x h; cases h
          | ok y =>
            obtain ⟨r, s2, b⟩ := y
            have hb : b.null = true := staticLoop_null _ _ _ _ _ hx
            simp only [Outcome.bind_ok]
            cases r with
            | error e =>
              refine ⟨_, rfl, ?_⟩
              simp only [hid]
              exact h1
            | ok u =>
              simp only [hb, if_true]
              exact ⟨_, rfl, h1⟩
        | some g =>
          obtain ⟨g1, g2, g3⟩ := hg1 g hgot
          simp only [Outcome.bind_ok, Option.map_some]
          cases hx : convertStatic c s1 inp ⟨false, [], g.bytes⟩ with
          | ub => intro x h; cases h
          | abort => intro x h; cases h
          | diverge => intro x h; cases h
          | ok y =>
            obtain ⟨r, s2, b⟩ := y
            have hb : b.null = false := staticLoop_null _ _ _ _ _ hx
            simp only [Outcome.bind_ok]
            cases r with
            | error e =>
              simp only [World.free, if_neg g1, setAt_same, Outcome.bind_ok]
              refine ⟨_, rfl, ?_⟩
              simp only [hid]
              have h1 := hw.assign v 0 [] (Or.inl hw.null)
              have heq : setAt (setAt w.heap (w.var v) none) 0 (if (0 : Nat) = 0 then none else some (Obj.data [])) =
                  setAt (setAt w.heap (w.var v) none) g.addr none := by
                funext b
                by_cases h : b = 0
                · subst h
                  rw [setAt_same, setAt_ne _ _ (Ne.symm g1)]
                  by_cases h2 : (0 : Nat) = w.var v
                  · rw [h2]; simp
                  · rw [setAt_ne _ _ h2, hw.null]; rfl
                · rw [setAt_ne _ _ h]
                  by_cases h3 : b = g.addr
                  · subst h3
                    rw [setAt_same]
                    rcases g2 with g2 | g2
                    · by_cases h4 : g.addr = w.var v
                      · rw [h4, setAt_same]
                      · rw [setAt_ne _ _ h4, g2]
                    · rw [g2, setAt_same]
                  · rw [setAt_ne _ _ h3]
              rw [heq] at h1
              exact h1
            | ok u =>
              simp only [hb, Bool.false_eq_true, if_false]
              refine ⟨_, rfl, ?_⟩
              have h1 := hw.assign v g.addr (b.out ++ b.room) g2
              simp only [hid]
              rw [if_neg g1] at h1
              exact h1

theorem Owned.of {f : Nat → Option Obj} {g : Nat → Nat} {held : List Nat} (null : f 0 = none)
    (desc : ∀ a, (∃ d, f a = some (.desc d)) ↔ a ∈ held) (data : ∀ a bs, f a = some (.data bs) → ∃ v, g v = a)
    (var : ∀ v, g v ≠ 0 → ∃ bs, f (g v) = some (.data bs)) (inj : ∀ v v', g v ≠ 0 → g v = g v' → v = v') :
    Owned ⟨f, g⟩ held := ⟨null, desc, data, var, inj⟩

theorem Owned.setDesc {w : World} {held : List Nat} (hw : Owned w held) {h : Nat} {d : Desc} (hd : w.heap h = some (.desc d))
    (d' : Desc) : Owned { w with heap := setAt w.heap h (some (.desc d')) } held := by
  have hv : ∀ v bs, w.heap (w.var v) = some (.data bs) → w.var v ≠ h := by
    rintro v bs hb rfl
    rw [hd] at hb; cases hb
  refine Owned.of ?_ (fun a => ⟨?_, ?_⟩) ?_ ?_ hw.inj
  · by_cases h0 : (0 : Nat) = h
    · rw [← h0, hw.null] at hd; cases hd
    · rw [setAt_ne _ _ h0]; exact hw.null
  · rintro ⟨d1, h1⟩
    by_cases h0 : a = h
    · exact (hw.desc a).1 ⟨d, h0 ▸ hd⟩
    · rw [setAt_ne _ _ h0] at h1
      exact (hw.desc a).1 ⟨d1, h1⟩
  · intro ha
    by_cases h0 : a = h
    · exact ⟨d', by rw [h0, setAt_same]⟩
    · obtain ⟨d1, h1⟩ := (hw.desc a).2 ha
      exact ⟨d1, by rw [setAt_ne _ _ h0, h1]⟩
  · intro a bs ha
    by_cases h0 : a = h
    · subst h0; rw [setAt_same] at ha; cases ha
    · rw [setAt_ne _ _ h0] at ha
      exact hw.data a bs ha
  · intro v h0
    obtain ⟨bs, hb⟩ := hw.var v h0
    exact ⟨bs, by rw [setAt_ne _ _ (hv v bs hb), hb]⟩

theorem Owned.open {w : World} {held : List Nat} (hw : Owned w held) {h : Nat} (hn : w.heap h = none) (h0 : h ≠ 0)
    (d : Desc) : Owned { w with heap := setAt w.heap h (some (.desc d)) } (h :: held) := by
  refine Owned.of ?_ (fun a => ⟨?_, ?_⟩) ?_ ?_ hw.inj
  · rw [setAt_ne _ _ (Ne.symm h0)]; exact hw.null
  · rintro ⟨d1, h1⟩
    by_cases h0 : a = h
    · rw [h0]; exact List.mem_cons_self ..
    · rw [setAt_ne _ _ h0] at h1
      exact List.mem_cons_of_mem _ ((hw.desc a).1 ⟨d1, h1⟩)
  · intro ha
    by_cases h0 : a = h
    · exact ⟨d, by rw [h0, setAt_same]⟩
    · obtain ⟨d1, h1⟩ := (hw.desc a).2 ((List.mem_cons.1 ha).resolve_left h0)
      exact ⟨d1, by rw [setAt_ne _ _ h0, h1]⟩
  · intro a bs ha
    by_cases h0 : a = h
    · subst h0; rw [setAt_same] at ha; cases ha
    · rw [setAt_ne _ _ h0] at ha
      exact hw.data a bs ha
  · intro v h1
    obtain ⟨bs, hb⟩ := hw.var v h1
    refine ⟨bs, ?_⟩
    rw [setAt_ne _ _ (by rintro rfl; rw [hn] at hb; cases hb), hb]

theorem Owned.close {w : World} {held : List Nat} (hw : Owned w held) {h : Nat} (hh : h ∈ held) :
    Owned { w with heap := setAt w.heap h none } (held.filter (· != h)) := by
  obtain ⟨d, hd⟩ := (hw.desc h).2 hh
  refine Owned.of ?_ (fun a => ⟨?_, ?_⟩) ?_ ?_ hw.inj
  · by_cases h0 : (0 : Nat) = h
    · rw [← h0, setAt_same]
    · rw [setAt_ne _ _ h0]; exact hw.null
  · rintro ⟨d1, h1⟩
    by_cases h0 : a = h
    · subst h0; rw [setAt_same] at h1; cases h1
    · rw [setAt_ne _ _ h0] at h1
      exact List.mem_filter.2 ⟨(hw.desc a).1 ⟨d1, h1⟩, by simpa using h0⟩
  · intro ha
    obtain ⟨h1, h2⟩ := List.mem_filter.1 ha
    obtain ⟨d1, h3⟩ := (hw.desc a).2 h1
    exact ⟨d1, by rw [setAt_ne _ _ (by simpa using h2), h3]⟩
  · intro a bs ha
    by_cases h0 : a = h
    · subst h0; rw [setAt_same] at ha; cases ha
    · rw [setAt_ne _ _ h0] at ha
      exact hw.data a bs ha
  · intro v h1
    obtain ⟨bs, hb⟩ := hw.var v h1
    refine ⟨bs, ?_⟩
    rw [setAt_ne _ _ (by rintro rfl; rw [hd] at hb; cases hb), hb]

theorem Owned.start : Owned World.start [] :=
  ⟨rfl, fun _ => ⟨fun ⟨_, h⟩ => (nomatch h), fun h => (nomatch h)⟩, fun _ _ h => (nomatch h), fun _ h => absurd rfl h, fun _ _ h => absurd rfl h⟩

/-- A call on a descriptor does what it does without the heap. -/
theorem step_on {w : World} {held : List Nat} (hw : Owned w held) {h : Nat} {d : Desc} (hd : w.heap h = some (.desc d))
    {k : HCall} (ha : (ApiCall.on h k).Allocates w) :
    match k.toCall.reply (lib d.iindex d.oindex d.discard) d.st with
    | .ok (a, s') => ∃ w', step lib w (.on h k) = .ok (.on a, w') ∧ Owned w' held ∧
        w'.heap h = some (.desc { d with st := s' }) ∧
        ∀ h' d', h' ≠ h → w.heap h' = some (.desc d') → w'.heap h' = some (.desc d')
    | _ => ∀ x, step lib w (.on h k) ≠ .ok x := by
  have other : ∀ (w' : World) (s' : St), Keeps w w' → ∀ h' d', h' ≠ h → w.heap h' = some (.desc d') →
      setAt w'.heap h (some (.desc { d with st := s' })) h' = some (.desc d') := by
    intro w' s' hk h' d' hne hd'
    rw [setAt_ne _ _ hne]
    exact hk h' d' hd'
  have key : match k.toCall.reply (lib d.iindex d.oindex d.discard) d.st with
      | .ok (a, s') => ∃ w', onDesc (lib d.iindex d.oindex d.discard) d.st w k = .ok (a, s', w') ∧ Owned w' held ∧ Keeps w w'
      | _ => ∀ x, onDesc (lib d.iindex d.oindex d.discard) d.st w k ≠ .ok x := by
    have plain : ∀ x : Outcome (Reply × St), match x with
        | .ok (a, s') => ∃ w', (x >>= fun y => Outcome.ok (y.1, y.2, w)) = .ok (a, s', w') ∧ Owned w' held ∧ Keeps w w'
        | _ => ∀ z, (x >>= fun y => Outcome.ok (y.1, y.2, w)) ≠ .ok z := by
      intro x
      cases x with
      | ub => intro y h; cases h
      | abort => intro y h; cases h
      | diverge => intro y h; cases h
      | ok z => exact ⟨_, rfl, hw, fun _ _ h => h⟩
    cases k with
    | iconv inp out => exact plain _
    | size inp => exact plain _
    | static inp b => exact plain _
    | convert inp v lp got => exact convertHeap_spec hw (by rintro u rfl; exact ha)
  simp only [step, hd]
  split at key
  · next a s' he =>
    obtain ⟨w', h1, h2, h3⟩ := key
    rw [h1]
    exact ⟨_, rfl, h2.setDesc (h3 _ _ hd) _, setAt_same .., other w' _ h3⟩
  · intro x hx
    obtain ⟨y, h1, _⟩ := bind_ok_inv hx
    exact key y h1

/-! ## C50 -/

/-- Every call of a program that uses only its handles keeps the memory in order. -/
theorem step_owned {w w' : World} {held : List Nat} {k : ApiCall} {a : ApiReply} (hw : Owned w held) (hu : k.Uses held)
    (ha : k.Allocates w) (h : step lib w k = .ok (a, w')) : Owned w' (heldAfter held k a) := by
  cases k with
  | «open» f t flags addr =>
    obtain ⟨r, h1, h⟩ := bind_ok_inv h
    cases r with
    | error e => cases h; exact hw
    | ok d =>
      cases h
      refine hw.open ha ?_ d
      rintro rfl
      cases h1
  | on x k =>
    obtain ⟨d, hd⟩ := (hw.desc x).2 hu
    have := step_on (lib := lib) hw hd ha
    split at this
    · obtain ⟨w1, h1, h2, _⟩ := this
      rw [h1] at h; cases h
      exact h2
    · exact absurd h (this _)
  | close x =>
    obtain ⟨w1, h1, h⟩ := bind_ok_inv h
    cases h
    obtain ⟨d, hd⟩ := (hw.desc x).2 hu
    have h0 : x ≠ 0 := by rintro rfl; rw [hw.null] at hd; cases hd
    simp only [World.free, if_neg h0, hd] at h1
    cases h1
    exact hw.close hu
  | release v =>
    obtain ⟨w1, h1, h⟩ := bind_ok_inv h
    cases h
    have h2 := (hw.assign v 0 [] (.inl hw.null)).1
    unfold World.free at h1
    split at h1
    · next h0 =>
      cases h1
      have : setAt w.var v 0 = w.var := by
        funext u
        by_cases hu : u = v
        · rw [hu, setAt_same, h0]
        · rw [setAt_ne _ _ hu]
      rw [this]
      exact hw
    · next h0 =>
      split at h1
      · cases h1
        have heq : setAt (setAt w.heap (w.var v) none) 0 (if (0 : Nat) = 0 then none else some (Obj.data [])) =
            setAt w.heap (w.var v) none := by
          funext b
          by_cases h : b = 0
          · subst h
            rw [setAt_same, setAt_ne _ _ (Ne.symm h0), hw.null]; rfl
          · rw [setAt_ne _ _ h]
        rw [heq] at h2
        exact h2
      · cases h1

theorem trace_owned {w w' : World} {held held' : List Nat} {t : List (ApiCall × ApiReply)}
    (h : Trace lib w held t w' held') (hw : Owned w held) : Owned w' held' := by
  induction h with
  | nil => exact hw
  | cons hu ha hs _ ih => exact ih (step_owned hw hu ha hs)

/-- C50. A program makes any calls of the library, on any number of descriptors, one after the other, and frees the
results of `reiconv_convert` whenever it likes. It uses only handles it got and did not close, and there is memory when
`reiconv_convert` asks for it. Then at any time exactly the following memory is allocated: the descriptors it holds
handles of, and one block for each of its pointer variables that is not NULL. -/
theorem C50_no_leak_partial {t : List (ApiCall × ApiReply)} {w : World} {held : List Nat}
    (h : Trace lib World.start [] t w held) :
    (∀ a, (∃ d, w.heap a = some (.desc d)) ↔ a ∈ held) ∧
    (∀ a bs, w.heap a = some (.data bs) → ∃ v, w.var v = a ∧ ∀ v', w.var v' = a → v' = v) ∧
    (∀ v, w.var v ≠ 0 → ∃ bs, w.heap (w.var v) = some (.data bs)) := by
  have hw := trace_owned h Owned.start
  refine ⟨hw.desc, fun a bs ha => ?_, hw.var⟩
  obtain ⟨v, rfl⟩ := hw.data a bs ha
  refine ⟨v, rfl, fun v' hv => (hw.inj v v' ?_ hv.symm).symm⟩
  intro h0
  rw [h0, hw.null] at ha
  cases ha

/-- C50: if such a program has closed all its descriptors and all its pointers are NULL, no memory is allocated. -/
theorem C50_all_freed_partial {t : List (ApiCall × ApiReply)} {w : World}
    (h : Trace lib World.start [] t w []) (hv : ∀ v, w.var v = 0) : ∀ a, w.heap a = none := by
  have hw := trace_owned h Owned.start
  intro a
  cases ha : w.heap a with
  | none => rfl
  | some x =>
    cases x with
    | desc d => exact absurd ((hw.desc a).1 ⟨d, ha⟩) (by simp)
    | data bs =>
      obtain ⟨v, rfl⟩ := hw.data a bs ha
      rw [hv, hw.null] at ha
      cases ha

/-- C50: closing a descriptor, freeing a result and opening a descriptor for registered encodings always work; a call on
a descriptor works whenever the conversion itself has no undefined behaviour: nothing is freed twice, and no memory is
used that is not allocated. -/
theorem C50_no_bad_free_partial {t : List (ApiCall × ApiReply)} {w : World} {held : List Nat}
    (h : Trace lib World.start [] t w held) :
    (∀ x ∈ held, ∃ y, step lib w (.close x) = .ok y) ∧ (∀ v, ∃ y, step lib w (.release v) = .ok y) ∧
    (∀ f o flags addr, f < ei_end → o < ei_end → ∃ y, step lib w (.open (f : Nat) (o : Nat) flags addr) = .ok y) ∧
    (∀ x ∈ held, ∃ d, w.heap x = some (.desc d) ∧ ∀ k, (ApiCall.on x k).Allocates w →
      ∀ z, k.toCall.reply (lib d.iindex d.oindex d.discard) d.st = .ok z → ∃ y, step lib w (.on x k) = .ok y) := by
  have hw := trace_owned h Owned.start
  refine ⟨fun x hx => ?_, fun v => ?_, fun f o flags addr hf ho => ?_, fun x hx => ?_⟩
  · obtain ⟨d, hd⟩ := (hw.desc x).2 hx
    simp only [step, World.free, hd]
    split <;> exact ⟨_, rfl⟩
  · simp only [step, World.free]
    split
    · exact ⟨_, rfl⟩
    · next h0 =>
      obtain ⟨bs, hb⟩ := hw.var v h0
      rw [hb]
      exact ⟨_, rfl⟩
  · have h1 : (0 : Int) ≤ f ∧ (f : Int) < ei_end := ⟨by omega, by exact_mod_cast hf⟩
    have h2 : (0 : Int) ≤ o ∧ (o : Int) < ei_end := ⟨by omega, by exact_mod_cast ho⟩
    have h3 : ∃ r, openFromIndex (addr != 0) f o flags = .ok r := by
      unfold openFromIndex encodingAt
      rw [if_pos h1, if_pos h2]
      split <;> exact ⟨_, rfl⟩
    obtain ⟨r, h3⟩ := h3
    simp only [step, h3]
    cases r <;> exact ⟨_, rfl⟩
  · obtain ⟨d, hd⟩ := (hw.desc x).2 hx
    refine ⟨d, hd, fun k ha z hz => ?_⟩
    have := step_on (lib := lib) hw hd ha
    rw [hz] at this
    obtain ⟨w', h1, _⟩ := this
    exact ⟨_, h1⟩

/-! ## C51 -/

/-- The calls on the descriptor `h`. -/
def callsOn (h : Nat) : List (ApiCall × ApiReply) → List Call
  | [] => []
  | (.on x k, _) :: t => if x = h then k.toCall :: callsOn h t else callsOn h t
  | _ :: t => callsOn h t

/-- The replies to the calls on the descriptor `h`. -/
def repliesOn (h : Nat) : List (ApiCall × ApiReply) → List Reply
  | [] => []
  | (.on x _, .on a) :: t => if x = h then a :: repliesOn h t else repliesOn h t
  | _ :: t => repliesOn h t

theorem reply_after {c : Conv} {s s' : St} {k : Call} {a : Reply} (h : k.reply c s = .ok (a, s')) : k.after c s = .ok s' := by
  cases k <;> (obtain ⟨r, h1, h⟩ := bind_ok_inv h; cases h; simp only [Call.after, h1]; rfl)

theorem trace_replies {w w' : World} {held held' : List Nat} {t : List (ApiCall × ApiReply)}
    (h : Trace lib w held t w' held') : Owned w held → ∀ x d, w.heap x = some (.desc d) → (∀ y ∈ t, y.1 ≠ .close x) →
      replies (lib d.iindex d.oindex d.discard) d.st (callsOn x t) = .ok (repliesOn x t) ∧
      ∃ s', afterAll (lib d.iindex d.oindex d.discard) d.st (callsOn x t) = .ok s' ∧
        w'.heap x = some (.desc { d with st := s' }) := by
  induction h with
  | nil w held => intro _ x d hd _; exact ⟨rfl, d.st, rfl, hd⟩
  | @cons w held k a w1 t w2 held2 hu ha hs _ ih =>
    intro hw x d hd hc
    have hw1 := step_owned hw hu ha hs
    have hc1 : ∀ y ∈ t, y.1 ≠ .close x := fun y hy => hc y (List.mem_cons_of_mem _ hy)
    cases k with
    | «open» f o flags addr =>
      refine ih hw1 x d ?_ hc1
      obtain ⟨r, _, hs⟩ := bind_ok_inv hs
      cases r with
      | error e => cases hs; exact hd
      | ok d' =>
        cases hs
        refine (setAt_ne _ _ ?_).trans hd
        rintro rfl
        rw [show w.heap x = none from ha] at hd
        cases hd
    | close y =>
      refine ih hw1 x d ?_ hc1
      obtain ⟨w3, h3, hs⟩ := bind_ok_inv hs
      cases hs
      unfold World.free at h3
      split at h3
      · cases h3; exact hd
      · split at h3
        · cases h3
          refine (setAt_ne _ _ ?_).trans hd
          rintro rfl
          exact hc _ (List.mem_cons_self ..) rfl
        · cases h3
    | release v =>
      refine ih hw1 x d ?_ hc1
      obtain ⟨w3, h3, hs⟩ := bind_ok_inv hs
      cases hs
      unfold World.free at h3
      split at h3
      · cases h3; exact hd
      · next h0 =>
        split at h3
        · cases h3
          refine (setAt_ne _ _ ?_).trans hd
          rintro rfl
          obtain ⟨bs, hb⟩ := hw.var v h0
          rw [hd] at hb; cases hb
        · cases h3
    | on y k =>
      obtain ⟨d1, hd1⟩ := (hw.desc y).2 hu
      have := step_on (lib := lib) hw hd1 ha
      split at this
      · next a1 s1 hr =>
        obtain ⟨w3, h3, h4, h5, h6⟩ := this
        rw [hs] at h3
        cases h3
        by_cases hy : y = x
        · subst hy
          rw [hd] at hd1; cases hd1
          obtain ⟨h7, s', h8, h9⟩ := ih hw1 y { d with st := s1 } h5 hc1
          simp only [callsOn, repliesOn, if_true, replies, afterAll, hr, reply_after hr, Outcome.bind_ok]
          exact ⟨by rw [h7]; rfl, s', h8, h9⟩
        · simp only [callsOn, repliesOn, if_neg hy]
          exact ih hw1 x d (h6 x d (Ne.symm hy) hd) hc1
      · exact absurd hs (this _)

/-- C51. A program opens a descriptor `x` and then makes any calls, on this descriptor and on others, in any order,
without closing it. The replies to the calls on `x` are those a program gets that makes only these calls, on a new
descriptor: calls on other descriptors have no influence. -/
theorem C51_independent {t t' : List (ApiCall × ApiReply)} {w : World} {held : List Nat} {f o : Nat} {flags x : Nat}
    (h : Trace lib World.start [] (t ++ (.open (f : Nat) (o : Nat) flags x, .opened (.ok x)) :: t') w held)
    (hc : ∀ y ∈ t', y.1 ≠ .close x) :
    replies (lib f o (Nat.testBit flags 0)) St.init (callsOn x t') = .ok (repliesOn x t') := by
  have split : ∀ (t : List (ApiCall × ApiReply)) {w w' held held' t2}, Trace lib w held (t ++ t2) w' held' →
      ∃ w1 held1, Trace lib w held t w1 held1 ∧ Trace lib w1 held1 t2 w' held' := by
    intro t
    induction t with
    | nil => intro w w' held held' t2 h; exact ⟨w, held, .nil _ _, h⟩
    | cons y t ih =>
      intro w w' held held' t2 h
      cases h with
      | cons hu ha hs h =>
        obtain ⟨w1, held1, h1, h2⟩ := ih h
        exact ⟨w1, held1, .cons hu ha hs h1, h2⟩
  obtain ⟨w1, held1, h1, h2⟩ := split t h
  cases h2 with
  | cons hu ha hs h2 =>
    have hw1 := trace_owned h1 Owned.start
    have hw2 := step_owned hw1 hu ha hs
    obtain ⟨r, hr, hs⟩ := bind_ok_inv hs
    cases r with
    | error e => cases hs
    | ok d =>
      cases hs
      have hd : d = ⟨f, o, Nat.testBit flags 0, St.init⟩ := by
        unfold openFromIndex encodingAt at hr
        split at hr
        · obtain ⟨i, hi, hr⟩ := bind_ok_inv hr
          obtain ⟨j, hj, hr⟩ := bind_ok_inv hr
          split at hi
          · split at hj
            · cases hi; cases hj; cases hr; rfl
            · cases hj
          · cases hi
        · cases hr
      subst hd
      exact (trace_replies h2 hw2 x _ (setAt_same ..) hc).1

end Reiconv
