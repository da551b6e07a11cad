import Verif.Threads
import Verif.Props.World
import Verif.Codec.Utf7

/-!
# C61: conversions in several threads at the same time
-/

namespace Reiconv.Threads

/-! ## Specification -/

/-- An address in the `n` bytes from `p` on. -/
def In (p n a : Nat) : Prop := p ≤ a ∧ a < p + n

/-- What a thread may use: the addresses it may read and those it may read and write, its descriptors. -/
structure Area where
  rd : Nat → Prop
  wr : Nat → Prop
  ds : Nat → Prop

/-- The action uses nothing outside the area: the input of a conversion is in the readable part, the output in the
writable part. -/
def Act.Within (F : Area) : Act → Prop
  | .call j => F.ds j.cd ∧ (∀ a, In j.inptr j.inleft a → F.rd a ∨ F.wr a) ∧ ∀ a, In j.outptr j.outleft a → F.wr a
  | .reset h none => F.ds h
  | .reset h (some (p, n)) => F.ds h ∧ ∀ a, In p n a → F.wr a
  | .store p bs => ∀ a, In p bs.length a → F.wr a
  | .load p n => ∀ a, In p n a → F.rd a ∨ F.wr a

/-- The threads do not write what another one reads or writes, and do not use each other's descriptors. Reading the same
memory is allowed. -/
def Apart (F : Nat → Area) : Prop := ∀ i j, i ≠ j →
  (∀ a, (F i).wr a → ¬ (F j).rd a ∧ ¬ (F j).wr a) ∧ ∀ h, (F i).ds h → ¬ (F j).ds h

/-- In a call, the output does not overlap the input. -/
def Act.Clear : Act → Prop
  | .call j => ∀ a, In j.inptr j.inleft a → ¬ In j.outptr j.outleft a
  | _ => True

/-- An action as a whole, nothing else happening at the same time: what the thread sees, and the memory after it. A call
of `reiconv_iconv` is the function `iconv` of the model with one thread. -/
def Act.alone (conv : Nat → Conv) (m : Mem) : Act → Outcome (Seen × Mem)
  | .call j => do
    let r ← iconv (conv j.cd) (m.desc j.cd) (some (m.read j.inptr j.inleft)) (some ⟨false, [], m.read j.outptr j.outleft⟩)
    .ok (.called r.ret ⟨j.cd, j.inptr + (j.inleft - r.inp.length), r.inp.length,
        j.outptr + r.buf.out.length, r.buf.room.length⟩,
      (m.write j.outptr (r.buf.out ++ r.buf.room)).setDesc j.cd r.st)
  | .reset h out => resetAt (conv h) m h out
  | .store p bs => .ok (.stored, m.write p bs)
  | .load p n => .ok (.loaded (m.read p n), m)

/-- After `k` actions of a thread that runs alone from the memory `m` on, the memory is `m'` and the thread has seen
`log`. -/
inductive After (conv : Nat → Conv) (prog : Prog) (m : Mem) : Nat → Mem → List Seen → Prop
  | zero : After conv prog m 0 m []
  | succ {k m1 log a x m2} : After conv prog m k m1 log → prog log = some a → a.alone conv m1 = .ok (x, m2) →
      After conv prog m (k + 1) m2 (log ++ [x])

/-- A thread that runs alone has no undefined behaviour: the output of a call does not overlap its input, and every action
returns. -/
def Fine (conv : Nat → Conv) (prog : Prog) (m : Mem) : Prop := ∀ k m1 log a, After conv prog m k m1 log →
  prog log = some a → a.Clear ∧ ∃ x, a.alone conv m1 = .ok x

/-- The memories agree in the area. -/
def Agree (F : Area) (m m' : Mem) : Prop :=
  (∀ a, F.rd a ∨ F.wr a → m.byte a = m'.byte a) ∧ ∀ h, F.ds h → m.desc h = m'.desc h

/-- All threads at their start. -/
def atStart : Nat → Thread := fun _ => ⟨.idle, []⟩

/-! ## The memory -/

theorem Mem.ext' {m m' : Mem} (h1 : ∀ a, m.byte a = m'.byte a) (h2 : ∀ h, m.desc h = m'.desc h) : m = m' := by
  cases m; cases m'
  simp only [Mem.mk.injEq]
  exact ⟨funext h1, funext h2⟩

@[simp] theorem Mem.length_read (m : Mem) (p n : Nat) : (m.read p n).length = n := by simp [Mem.read]

theorem Mem.read_get (m : Mem) (p n i : Nat) (h : i < n) : (m.read p n)[i]? = some (m.byte (p + i)) := by
  simp [Mem.read, h]

theorem Mem.read_congr {m m' : Mem} {p n : Nat} (h : ∀ a, In p n a → m.byte a = m'.byte a) :
    m.read p n = m'.read p n := by
  unfold Mem.read
  apply List.map_congr_left
  intro i hi
  exact h _ ⟨by omega, by have := List.mem_range.1 hi; omega⟩

theorem Mem.read_drop (m : Mem) (p n k : Nat) : (m.read p n).drop k = m.read (p + k) (n - k) := by
  apply List.ext_getElem?
  intro i
  rw [List.getElem?_drop]
  by_cases h : k + i < n
  · rw [Mem.read_get _ _ _ _ h, Mem.read_get _ _ _ _ (by omega), Nat.add_assoc]
  · rw [List.getElem?_eq_none (by simp; omega), List.getElem?_eq_none (by simp; omega)]

theorem Mem.write_in (m : Mem) (p : Nat) (ws : List Byte) (i : Nat) (h : i < ws.length) :
    (m.write p ws).byte (p + i) = ws[i] := by
  simp only [Mem.write, Nat.le_add_right, if_true, Nat.add_sub_cancel_left, List.getElem?_eq_getElem h, Option.getD_some]

theorem Mem.write_out (m : Mem) (p : Nat) (ws : List Byte) (a : Nat) (h : ¬ In p ws.length a) :
    (m.write p ws).byte a = m.byte a := by
  simp only [Mem.write]
  split
  · next h1 => rw [List.getElem?_eq_none (by simp only [In] at h; omega), Option.getD_none]
  · rfl

theorem Mem.write_byte (m : Mem) (p : Nat) (ws : List Byte) (a : Nat) :
    (m.write p ws).byte a = if p ≤ a then (ws[a - p]?).getD (m.byte a) else m.byte a := rfl

@[simp] theorem Mem.write_desc (m : Mem) (p : Nat) (ws : List Byte) : (m.write p ws).desc = m.desc := rfl
@[simp] theorem Mem.setDesc_byte (m : Mem) (h : Nat) (s : St) : (m.setDesc h s).byte = m.byte := rfl
@[simp] theorem Mem.setDesc_same (m : Mem) (h : Nat) (s : St) : (m.setDesc h s).desc h = s := by simp [Mem.setDesc, setAt]
theorem Mem.setDesc_ne (m : Mem) {h h' : Nat} (s : St) (hh : h' ≠ h) : (m.setDesc h s).desc h' = m.desc h' := by
  simp [Mem.setDesc, setAt, hh]
@[simp] theorem Mem.setDesc_setDesc (m : Mem) (h : Nat) (s s' : St) : (m.setDesc h s).setDesc h s' = m.setDesc h s' := by
  apply Mem.ext'
  · intro a; rfl
  · intro h'
    by_cases hh : h' = h
    · subst hh; simp
    · simp only [Mem.setDesc_ne _ _ hh]
@[simp] theorem Mem.setDesc_write (m : Mem) (h p : Nat) (s : St) (ws : List Byte) :
    (m.setDesc h s).write p ws = (m.write p ws).setDesc h s := rfl
@[simp] theorem Mem.setDesc_read (m : Mem) (h p n : Nat) (s : St) : (m.setDesc h s).read p n = m.read p n := rfl
@[simp] theorem Mem.setDesc_self (m : Mem) (h : Nat) : m.setDesc h (m.desc h) = m := by
  apply Mem.ext'
  · intro a; rfl
  · intro h'
    by_cases hh : h' = h
    · subst hh; simp
    · simp only [Mem.setDesc_ne _ _ hh]

theorem Mem.read_add (m : Mem) (p n k : Nat) : m.read p (n + k) = m.read p n ++ m.read (p + n) k := by
  apply List.ext_getElem?
  intro i
  by_cases h : i < n
  · rw [List.getElem?_append_left (by simpa using h), Mem.read_get _ _ _ _ h, Mem.read_get _ _ _ _ (by omega)]
  · rw [List.getElem?_append_right (by simp; omega), Mem.length_read]
    by_cases h2 : i < n + k
    · rw [Mem.read_get _ _ _ _ h2, Mem.read_get _ _ _ _ (by omega), show p + n + (i - n) = p + i by omega]
    · rw [List.getElem?_eq_none (by simp; omega), List.getElem?_eq_none (by simp; omega)]

/-- What is read where something was written, possibly less than is read. -/
theorem Mem.read_write (m : Mem) (p n : Nat) (ws : List Byte) (h : ws.length ≤ n) :
    (m.write p ws).read p n = ws ++ (m.read p n).drop ws.length := by
  rw [Mem.read_drop]
  apply List.ext_getElem?
  intro i
  by_cases h1 : i < n
  · rw [Mem.read_get _ _ _ _ h1]
    by_cases h2 : i < ws.length
    · rw [Mem.write_in _ _ _ _ h2, List.getElem?_append_left h2, List.getElem?_eq_getElem h2]
    · rw [Mem.write_out _ _ _ _ (by simp only [In]; omega), List.getElem?_append_right (by omega),
        Mem.read_get _ _ _ _ (by omega), show p + ws.length + (i - ws.length) = p + i by omega]
  · rw [List.getElem?_eq_none (by simp; omega), List.getElem?_eq_none (by simp; omega)]

/-- `m'` is `m` after writing `ws` at `p`. -/
theorem Mem.eq_write {m m' : Mem} {p h : Nat} {s : St} {ws : List Byte} (hr : m'.read p ws.length = ws)
    (ho : ∀ a, ¬ In p ws.length a → m'.byte a = m.byte a) (hs : m'.desc h = s)
    (hd : ∀ h', h' ≠ h → m'.desc h' = m.desc h') : m' = (m.write p ws).setDesc h s := by
  apply Mem.ext'
  · intro a
    rw [Mem.setDesc_byte]
    by_cases ha : In p ws.length a
    · obtain ⟨h1, h2⟩ := ha
      have h3 : a - p < ws.length := by omega
      have := Mem.read_get m' p ws.length (a - p) h3
      rw [hr, show p + (a - p) = a by omega] at this
      rw [Mem.write_byte, if_pos h1, this]; rfl
    · rw [Mem.write_out _ _ _ _ ha, ho a ha]
  · intro h'
    by_cases hh : h' = h
    · subst hh; simp [hs]
    · rw [Mem.setDesc_ne _ _ hh, hd h' hh]; rfl

/-! ## A call in many steps is the call in one step -/

/-- `n` steps in a call. -/
inductive Steps (c : Conv) : Nat → Mem × Pc → Mem × Pc → Prop
  | refl {x} : Steps c 0 x x
  | step {n x y z} : stepCall c x.1 x.2 = .ok y → Steps c n y z → Steps c (n + 1) x z

/-- Nothing was changed but the descriptor `h` and the `n` bytes from `p` on. -/
structure Upd (m m' : Mem) (h p n : Nat) : Prop where
  byte : ∀ a, ¬ In p n a → m'.byte a = m.byte a
  desc : ∀ h', h' ≠ h → m'.desc h' = m.desc h'

theorem Upd.trans {m m1 m2 : Mem} {h p n q k : Nat} (h1 : Upd m m1 h p n) (h2 : Upd m1 m2 h q k)
    (hq : ∀ a, In q k a → In p n a) : Upd m m2 h p n :=
  ⟨fun a ha => (h2.byte a (fun h => ha (hq a h))).trans (h1.byte a ha), fun h' hh => (h2.desc h' hh).trans (h1.desc h' hh)⟩

theorem Upd.setDesc (m : Mem) (h p n : Nat) (s : St) : Upd m (m.setDesc h s) h p n :=
  ⟨fun _ _ => rfl, fun _ hh => Mem.setDesc_ne _ _ hh⟩

/-- The call of `wctomb`. -/
theorem wctombAt_eq {c : Conv} {m : Mem} {j : Io} {wc : Nat} {b : Buf} {x : Int × Nat × Buf}
    (hn : b.null = false) (hb : b.room = m.read j.outptr j.outleft)
    (hx : callWctomb c (m.desc j.cd).os wc b = .ok x) :
    ∃ m', wctombAt c m j wc = .ok (x.1, m') ∧ m'.desc j.cd = ⟨(m.desc j.cd).is, x.2.1⟩ ∧
      x.2.2 = ⟨false, b.out, m'.read j.outptr j.outleft⟩ ∧ Upd m m' j.cd j.outptr j.outleft := by
  unfold callWctomb at hx
  obtain ⟨r, hr, hx⟩ := bind_ok_inv hx
  obtain ⟨b', hb', hx⟩ := bind_ok_inv hx
  cases hx
  rw [hb, Mem.length_read] at hr
  have hle : r.ws.length ≤ j.outleft ∧ b' = ⟨false, b.out, r.ws ++ b.room.drop r.ws.length⟩ := by
    unfold Buf.store at hb'
    split at hb'
    · next h0 =>
      cases hb'
      refine ⟨by simp [h0], ?_⟩
      cases b
      simp only at hn
      simp [h0, hn]
    · split at hb'
      · cases hb'
      · next h1 =>
        cases hb'
        simp only [hn, Bool.false_or, decide_eq_true_eq, hb, Mem.length_read] at h1
        refine ⟨by omega, ?_⟩
        cases b
        simp only at hn
        simp [hn]
  refine ⟨(m.write j.outptr r.ws).setDesc j.cd ⟨(m.desc j.cd).is, r.st⟩, ?_, by simp, ?_, ?_, ?_⟩
  · unfold wctombAt
    rw [hr, Outcome.bind_ok, if_neg (by omega)]
  · rw [hle.2, Mem.setDesc_read, Mem.read_write _ _ _ _ hle.1, hb]
  · intro a ha
    rw [Mem.setDesc_byte]
    exact Mem.write_out _ _ _ _ (by simp only [In] at ha ⊢; omega)
  · intro h' hh
    rw [Mem.setDesc_ne _ _ hh]; rfl

theorem Io.skip_eq {j : Io} {m : Mem} {inp inp' : List Byte} {n : Int} (hi : inp = m.read j.inptr j.inleft)
    (h : advanceIn inp n = .ok inp') :
    n.toNat ≤ j.inleft ∧ j.skip n = .ok ⟨j.cd, j.inptr + n.toNat, j.inleft - n.toNat, j.outptr, j.outleft⟩ ∧
      inp' = m.read (j.inptr + n.toNat) (j.inleft - n.toNat) := by
  unfold advanceIn at h
  split at h
  · next h1 =>
    rw [hi, Mem.length_read] at h1
    cases h
    refine ⟨by omega, ?_, by rw [hi, Mem.read_drop]⟩
    unfold Io.skip
    rw [if_pos h1]
  · cases h

/-- The output pointer moves on by `k` bytes. -/
def Io.wrote (j : Io) (k : Nat) : Io := { j with outptr := j.outptr + k, outleft := j.outleft - k }

theorem countOk_eq {m : Mem} {j : Io} {out : List Byte} {oc n : Int} {os res irr last : Nat} {x : PutRes × Nat × Buf}
    (hx : outcountOk oc os ⟨false, out, m.read j.outptr j.outleft⟩ irr = .ok x) :
    x.2.1 = os ∧
    ((x.1 = .err .E2BIG ∧ x.2.2 = ⟨false, out, m.read j.outptr j.outleft⟩ ∧
        countOk m j res last n oc = .ok (m.restore j.cd last, .ret (.error .E2BIG) j)) ∨
      ∃ k, x.1 = .done irr ∧ k ≤ j.outleft ∧
        x.2.2 = ⟨false, out ++ m.read j.outptr k, m.read (j.outptr + k) (j.outleft - k)⟩ ∧
        ∀ j1, (j.wrote k).skip n = .ok j1 → countOk m j res last n oc = .ok (m, .top j1 res)) := by
  unfold outcountOk at hx
  unfold countOk
  split at hx
  · next h => cases hx; exact ⟨rfl, Or.inl ⟨rfl, rfl, by rw [if_pos h]⟩⟩
  · next h =>
    obtain ⟨b, hb, hx⟩ := bind_ok_inv hx
    cases hx
    unfold Buf.advance at hb
    simp only [Mem.length_read] at hb
    split at hb
    · next h1 =>
      cases hb
      refine ⟨rfl, Or.inr ⟨oc.toNat, rfl, h1, ?_, ?_⟩⟩
      · simp only [Mem.read_drop]
        have : m.read j.outptr j.outleft = m.read j.outptr oc.toNat ++ m.read (j.outptr + oc.toNat) (j.outleft - oc.toNat) := by
          rw [← Mem.read_add, show oc.toNat + (j.outleft - oc.toNat) = j.outleft by omega]
        rw [this, List.take_left' (by simp)]
      · intro j1 hj
        rw [if_neg h, if_pos h1]
        simp only [Io.wrote] at hj
        rw [hj]; rfl
    · cases hb

theorem Steps.le_one {c : Conv} {x y : Mem × Pc} (h : stepCall c x.1 x.2 = .ok y) : ∃ k, 1 ≤ k ∧ k ≤ 2 ∧ Steps c k x y :=
  ⟨1, by omega, by omega, .step h .refl⟩

/-- The steps from the call of `wctomb` on. -/
theorem put_eq {c : Conv} {m : Mem} {j : Io} {out : List Byte} {res last wc : Nat} {n : Int} {x : PutRes × Nat × Buf}
    (hx : putChar c (m.desc j.cd).os wc ⟨false, out, m.read j.outptr j.outleft⟩ = .ok x) :
    ∃ m', Upd m m' j.cd j.outptr j.outleft ∧
    ((∃ e, x.1 = .err e ∧ x.2.2 = ⟨false, out, m'.read j.outptr j.outleft⟩ ∧
        m'.desc j.cd = ⟨{ (m.desc j.cd).is with st := last }, x.2.1⟩ ∧
        ∃ k, 1 ≤ k ∧ k ≤ 2 ∧ Steps c k (m, .put j res last wc n) (m', .ret (.error e) j)) ∨
      ∃ irr k, x.1 = .done irr ∧ k ≤ j.outleft ∧ m'.desc j.cd = ⟨(m.desc j.cd).is, x.2.1⟩ ∧
        x.2.2 = ⟨false, out ++ m'.read j.outptr k, m'.read (j.outptr + k) (j.outleft - k)⟩ ∧
        ∀ j1, (j.wrote k).skip n = .ok j1 →
          ∃ k, 1 ≤ k ∧ k ≤ 2 ∧ Steps c k (m, .put j res last wc n) (m', .top j1 (res + irr))) := by
  unfold putChar at hx
  obtain ⟨⟨oc, os, b⟩, h1, hx⟩ := bind_ok_inv hx
  obtain ⟨m1, h2, h3, h4, h5⟩ := wctombAt_eq (j := j) rfl rfl h1
  simp only at h2 h3 h4 hx
  subst h4
  have restore : ∀ {m1 : Mem}, Upd m m1 j.cd j.outptr j.outleft → m1.desc j.cd = ⟨(m.desc j.cd).is, x.2.1⟩ →
      Upd m (m1.restore j.cd last) j.cd j.outptr j.outleft ∧
      (m1.restore j.cd last).desc j.cd = ⟨{ (m.desc j.cd).is with st := last }, x.2.1⟩ := by
    intro m1 hu hd
    refine ⟨hu.trans (Upd.setDesc _ _ _ _ _) (fun _ h => h), ?_⟩
    simp [Mem.restore, hd]
  by_cases ho : oc ≠ RET_ILUNI
  · rw [if_pos ho] at hx
    obtain ⟨rfl, h6 | ⟨k, h6, h7, h8, h9⟩⟩ := countOk_eq (res := res) (last := last) (n := n) hx
    · obtain ⟨h6, h7, h8⟩ := h6
      obtain ⟨r1, r2⟩ := restore h5 h3
      refine ⟨_, r1, Or.inl ⟨_, h6, h7, r2, Steps.le_one ?_⟩⟩
      simp only [stepCall, h2, Outcome.bind_ok, if_pos ho, h8]
    · refine ⟨m1, h5, Or.inr ⟨_, k, h6, h7, h3, h8, fun j1 hj => Steps.le_one ?_⟩⟩
      simp only [stepCall, h2, Outcome.bind_ok, if_pos ho, h9 j1 hj, Nat.add_zero]
  · rw [if_neg ho] at hx
    by_cases ht : wc / 128 = 0xe0000 / 128
    · rw [if_pos ht] at hx
      cases hx
      refine ⟨m1, h5, Or.inr ⟨0, 0, rfl, by omega, h3, by simp [Mem.read], fun j1 hj => Steps.le_one ?_⟩⟩
      have : j.wrote 0 = j := rfl
      rw [this] at hj
      simp only [stepCall, h2, Outcome.bind_ok, if_neg ho, if_pos ht, hj, Nat.add_zero]
    · rw [if_neg ht] at hx
      by_cases hd : c.discard = true
      · rw [if_pos hd] at hx
        obtain ⟨rfl, h6 | ⟨k, h6, h7, h8, h9⟩⟩ := countOk_eq (res := res + 1) (last := last) (n := n) hx
        · obtain ⟨h6, h7, h8⟩ := h6
          obtain ⟨r1, r2⟩ := restore h5 h3
          refine ⟨_, r1, Or.inl ⟨_, h6, h7, r2, Steps.le_one ?_⟩⟩
          simp only [stepCall, h2, Outcome.bind_ok, if_neg ho, if_neg ht, if_pos hd, h8]
        · refine ⟨m1, h5, Or.inr ⟨_, k, h6, h7, h3, h8, fun j1 hj => Steps.le_one ?_⟩⟩
          simp only [stepCall, h2, Outcome.bind_ok, if_neg ho, if_neg ht, if_pos hd, h9 j1 hj]
      · rw [if_neg hd] at hx
        have hs : stepCall c m (.put j res last wc n) = .ok (m1, .subst j res last n) := by
          simp only [stepCall, h2, Outcome.bind_ok, if_neg ho, if_neg ht, if_neg hd]
        obtain ⟨⟨oc', os', b'⟩, h1', hx⟩ := bind_ok_inv hx
        have e1 : os = (m1.desc j.cd).os := by rw [h3]
        rw [e1] at h1'
        obtain ⟨m2, h2', h3', h4', h5'⟩ := wctombAt_eq (j := j) rfl rfl h1'
        simp only at h2' h3' h4' hx
        subst h4'
        have h3'' : m2.desc j.cd = ⟨(m.desc j.cd).is, os'⟩ := by rw [h3', h3]
        have h5'' := h5.trans h5' (fun _ h => h)
        by_cases ho' : oc' ≠ RET_ILUNI
        · rw [if_pos ho'] at hx
          obtain ⟨rfl, h6 | ⟨k, h6, h7, h8, h9⟩⟩ := countOk_eq (res := res + 1) (last := last) (n := n) hx
          · obtain ⟨h6, h7, h8⟩ := h6
            obtain ⟨r1, r2⟩ := restore h5'' h3''
            refine ⟨_, r1, Or.inl ⟨_, h6, h7, r2, 2, by omega, by omega, .step hs (.step ?_ .refl)⟩⟩
            simp only [stepCall, h2', Outcome.bind_ok, if_pos ho', h8]
          · refine ⟨m2, h5'', Or.inr ⟨_, k, h6, h7, h3'', h8, fun j1 hj => ⟨2, by omega, by omega, .step hs (.step ?_ .refl)⟩⟩⟩
            simp only [stepCall, h2', Outcome.bind_ok, if_pos ho', h9 j1 hj]
        · rw [if_neg ho'] at hx
          cases hx
          obtain ⟨r1, r2⟩ := restore h5'' h3''
          refine ⟨_, r1, Or.inl ⟨_, rfl, rfl, r2, 2, by omega, by omega, .step hs (.step ?_ .refl)⟩⟩
          simp only [stepCall, h2', Outcome.bind_ok, if_neg ho']

/-- From `x` on, the steps of the call `j` end as the call `r` in one step does; `out` was written before. -/
def Ends (c : Conv) (K : Nat) (x : Mem × Pc) (j : Io) (out : List Byte) (r : CallRes) : Prop :=
  ∃ n m' e, n ≤ K ∧
    Steps c n x (m', .ret r.ret ⟨j.cd, j.inptr + (j.inleft - r.inp.length), r.inp.length, j.outptr + e.length, r.buf.room.length⟩) ∧
    r.inp.length ≤ j.inleft ∧ r.buf.out = out ++ e ∧ e.length + r.buf.room.length = j.outleft ∧
    m'.read j.outptr j.outleft = e ++ r.buf.room ∧ m'.desc j.cd = r.st ∧ Upd x.1 m' j.cd j.outptr j.outleft

theorem Steps.append {c : Conv} {n k : Nat} {x y z : Mem × Pc} (h : Steps c n x y) (h' : Steps c k y z) : Steps c (n + k) x z := by
  induction h with
  | refl => simpa using h'
  | step h1 _ ih => rw [Nat.add_right_comm]; exact .step h1 (ih h')

theorem Ends.steps {c : Conv} {n K : Nat} {x y : Mem × Pc} {j : Io} {out : List Byte} {r : CallRes}
    (h : Steps c n x y) (hu : Upd x.1 y.1 j.cd j.outptr j.outleft) (he : Ends c K y j out r) : Ends c (n + K) x j out r := by
  obtain ⟨k, m', e, h1, h2, h3, h4, h5, h6, h7, h8⟩ := he
  exact ⟨n + k, m', e, by omega, h.append h2, h3, h4, h5, h6, h7, hu.trans h8 (fun _ h => h)⟩

theorem Ends.mono {c : Conv} {K K' : Nat} {x : Mem × Pc} {j : Io} {out : List Byte} {r : CallRes}
    (he : Ends c K x j out r) (h : K ≤ K') : Ends c K' x j out r := by
  obtain ⟨k, m', e, h1, h2⟩ := he
  exact ⟨k, m', e, by omega, h2⟩

theorem Ends.skip {c : Conv} {K n : Nat} {x : Mem × Pc} {j : Io} {out : List Byte} {r : CallRes} (hn : n ≤ j.inleft)
    (he : Ends c K x ⟨j.cd, j.inptr + n, j.inleft - n, j.outptr, j.outleft⟩ out r) : Ends c K x j out r := by
  obtain ⟨k, m', e, h1, h2, h3, h4, h5, h6, h7, h8⟩ := he
  simp only at h2 h3 h5 h6 h7 h8
  refine ⟨k, m', e, h1, ?_, by omega, h4, h5, h6, h7, h8⟩
  rwa [show j.inptr + n + (j.inleft - n - r.inp.length) = j.inptr + (j.inleft - r.inp.length) by omega] at h2

theorem Ends.wrote {c : Conv} {K k : Nat} {x : Mem × Pc} {j : Io} {out : List Byte} {r : CallRes} (hk : k ≤ j.outleft)
    (he : Ends c K x (j.wrote k) (out ++ x.1.read j.outptr k) r) : Ends c K x j out r := by
  obtain ⟨n, m', e, h1, h2, h3, h4, h5, h6, h7, h8⟩ := he
  simp only [Io.wrote] at h2 h3 h5 h6 h7 h8
  refine ⟨n, m', x.1.read j.outptr k ++ e, h1, ?_, h3, by rw [h4, List.append_assoc], by simp; omega, ?_, h7, ?_⟩
  · simpa [Nat.add_assoc] using h2
  · rw [show j.outleft = k + (j.outleft - k) by omega, Mem.read_add, h6, List.append_assoc]
    congr 1
    exact Mem.read_congr fun a ha => h8.byte a (by simp only [In] at ha ⊢; omega)
  · exact ⟨fun a ha => h8.byte a (by simp only [In] at ha ⊢; omega), h8.desc⟩

theorem loop_ends {c : Conv} (fuel : Nat) : ∀ {s inp out res r} {j : Io} {m : Mem},
    loopConvert c fuel s inp ⟨false, out, m.read j.outptr j.outleft⟩ res = .ok r →
    inp = m.read j.inptr j.inleft → s = m.desc j.cd → (∀ a, In j.inptr j.inleft a → ¬ In j.outptr j.outleft a) →
    Ends c (3 * fuel) (m, .top j res) j out r := by
  induction fuel with
  | zero => intro s inp out res r j m h; cases h
  | succ fuel ih =>
    intro s inp out res r j m h hi hs hc
    unfold loopConvert at h
    by_cases h0 : inp = []
    · rw [if_pos h0] at h
      cases h
      have h1 : j.inleft = 0 := by have := congrArg List.length hi; simpa [h0] using this.symm
      refine ⟨1, m, [], by omega, .step (y := (m, .ret (.ok res) j)) (by simp [stepCall, h1]) ?_, by simp [h0], by simp, by simp,
        by simp, hs.symm, ⟨fun _ _ => rfl, fun _ _ => rfl⟩⟩
      have : (⟨j.cd, j.inptr + (j.inleft - inp.length), inp.length, j.outptr + ([] : List Byte).length,
          (m.read j.outptr j.outleft).length⟩ : Io) = j := by
        cases j; simp_all
      simp only [this]
      exact .refl
    · rw [if_neg h0] at h
      have h1 : j.inleft ≠ 0 := by
        intro h1; apply h0; rw [hi, h1]; rfl
      obtain ⟨⟨rr, is⟩, h2, h⟩ := bind_ok_inv h
      simp only at h
      -- the step to the call of `mbtowc` and that call
      generalize hm1 : m.setDesc j.cd ⟨is, s.os⟩ = m1 at *
      have hu : Upd m m1 j.cd j.outptr j.outleft := by rw [← hm1]; exact Upd.setDesc _ _ _ _ _
      have hr1 : m1.read j.outptr j.outleft = m.read j.outptr j.outleft := by rw [← hm1]; rfl
      have hi1 : inp = m1.read j.inptr j.inleft := by rw [hi, ← hm1]; rfl
      have hs1 : m1.desc j.cd = ⟨is, s.os⟩ := by rw [← hm1]; simp
      have top : ∀ x, stepCall c m (.top j res) = x ↔ (do
          let incount := rr.code
          if incount < 0 then
            if (-1 - incount) % 2 = (-1 - RET_ILSEQ) % 2 then
              let incount := DECODE_SHIFT_ILSEQ incount
              if c.discard then do
                let j ← j.skip (incount + c.unit)
                .ok (m1, .top j res)
              else if incount ≤ j.inleft then
                .ok (m1, .ret (.error .EILSEQ)
                  { j with inptr := j.inptr + incount.toNat, inleft := j.inleft - incount.toNat })
              else .ub
            else if incount = RET_TOOFEW 0 then .ok (m1, .ret (.error .EINVAL) j)
            else do
              let j ← j.skip (DECODE_TOOFEW incount)
              .ok (m1, .top j res)
          else if j.outleft = 0 then .ok (m1.restore j.cd s.is.st, .ret (.error .E2BIG) j)
          else .ok (m1, .put j res s.is.st rr.wc incount)) = x := by
        intro x
        rw [hi] at h2
        simp only [stepCall, ← hs, if_neg h1, h2, Outcome.bind_ok, hm1]
      -- the ends in this step
      have fin : ∀ {m2 : Mem} {s2 : St} {e : Errno} {k : Nat}, k ≤ j.inleft → m2.byte = m1.byte →
          (∀ h', h' ≠ j.cd → m2.desc h' = m1.desc h') → m2.desc j.cd = s2 →
          stepCall c m (.top j res) = .ok (m2, .ret (.error e) { j with inptr := j.inptr + k, inleft := j.inleft - k }) →
          Ends c (3 * (fuel + 1)) (m, .top j res) j out
            ⟨.error e, s2, inp.drop k, ⟨false, out, m.read j.outptr j.outleft⟩⟩ := by
        intro m2 s2 e k hk hb hd hs2 hst
        have hlen : (inp.drop k).length = j.inleft - k := by rw [hi]; simp
        refine ⟨1, m2, [], by omega, .step hst ?_, by rw [hlen]; omega, by simp, by simp, ?_, hs2, ?_⟩
        · simp only [hlen, Mem.length_read, List.length_nil, Nat.add_zero]
          rw [show j.inleft - (j.inleft - k) = k by omega]
          exact .refl
        · rw [List.nil_append, ← hr1]
          exact Mem.read_congr fun a _ => by rw [hb]
        · exact ⟨fun a ha => by rw [hb]; exact hu.byte a ha, fun h' hh => (hd h' hh).trans (hu.desc h' hh)⟩
      -- the loop goes on
      have next : ∀ {inp' : List Byte} {n : Int} {is' : IState}, is' = is → advanceIn inp n = .ok inp' →
          loopConvert c fuel ⟨is', s.os⟩ inp' ⟨false, out, m.read j.outptr j.outleft⟩ res = .ok r →
          (∀ j1, j.skip n = .ok j1 → stepCall c m (.top j res) = .ok (m1, .top j1 res)) →
          Ends c (3 * (fuel + 1)) (m, .top j res) j out r := by
        rintro inp' n _ rfl ha hl hst
        obtain ⟨hn, h3, h4⟩ := Io.skip_eq hi1 ha
        rw [← hr1] at hl
        have := ih (j := ⟨j.cd, j.inptr + n.toNat, j.inleft - n.toNat, j.outptr, j.outleft⟩) (m := m1) hl h4 hs1.symm
          (fun a h => hc a (by simp only [In] at h ⊢; omega))
        exact (Ends.steps (Steps.step (hst _ h3) .refl) hu (this.skip hn)).mono (by omega)
      by_cases c1 : rr.code < 0
      · simp only [c1, if_true] at h top
        by_cases c2 : (-1 - rr.code) % 2 = (-1 - RET_ILSEQ) % 2
        · simp only [c2, if_true] at h top
          by_cases c3 : c.discard = true
          · simp only [c3, if_true] at h top
            obtain ⟨inp', h3, h4⟩ := bind_ok_inv h
            exact next rfl h3 h4 (fun j1 hj => (top _).2 (by rw [hj]; rfl))
          · simp only [c3, if_false, Bool.false_eq_true] at h top
            split at h
            · next h3 =>
              cases h
              rw [hi, Mem.length_read] at h3
              refine fin (m2 := m1) (by omega) rfl (fun _ _ => rfl) hs1 ((top _).2 ?_)
              rw [if_pos h3]
            · cases h
        · simp only [c2, if_false] at h top
          by_cases c3 : rr.code = RET_TOOFEW 0
          · rw [if_pos c3] at h
            cases h
            have := fin (m2 := m1) (s2 := ⟨is, s.os⟩) (e := .EINVAL) (k := 0) (by omega) rfl (fun _ _ => rfl) hs1
              ((top _).2 (by rw [if_pos c3]; rfl))
            simpa using this
          · rw [if_neg c3] at h
            obtain ⟨inp', h3, h4⟩ := bind_ok_inv h
            exact next rfl h3 h4 (fun j1 hj => (top _).2 (by rw [if_neg c3, hj]; rfl))
      · simp only [c1, if_false, Mem.length_read] at h top
        by_cases c2 : j.outleft = 0
        · rw [if_pos c2] at h
          cases h
          have := fin (m2 := m1.restore j.cd s.is.st) (s2 := ⟨{ is with st := s.is.st }, s.os⟩) (e := .E2BIG) (k := 0)
            (by omega) rfl (fun _ hh => Mem.setDesc_ne _ _ hh) (by simp [Mem.restore, hs1])
            ((top _).2 (by rw [if_pos c2]; rfl))
          simpa using this
        · rw [if_neg c2] at h
          obtain ⟨⟨p, os, b⟩, h3, h⟩ := bind_ok_inv h
          rw [← hr1, show s.os = (m1.desc j.cd).os by rw [hs1]] at h3
          have hst := (top _).2 (by rw [if_neg c2])
          obtain ⟨m2, hu2, ⟨e, e1, e2, e3, k, _, e4, e5⟩ | ⟨irr, k, e1, e2, e3, e4, e5⟩⟩ :=
            put_eq (res := res) (last := s.is.st) (n := rr.code) h3
          · simp only at e1 e2 e3
            subst e1 e2
            cases h
            refine (Ends.steps (.step hst e5) (hu.trans hu2 (fun _ h => h))
              (K := 0) ⟨0, m2, [], by omega, ?_, by rw [hi]; simp, by simp, by simp, by simp, ?_,
                ⟨fun _ _ => rfl, fun _ _ => rfl⟩⟩).mono (by omega)
            · have : (⟨j.cd, j.inptr + (j.inleft - inp.length), inp.length, j.outptr + ([] : List Byte).length,
                  (m2.read j.outptr j.outleft).length⟩ : Io) = j := by
                rw [hi]; simp
              simp only [this]
              exact .refl
            · rw [e3, hs1]
          · simp only at e1 e2 e3 e4
            subst e1 e4
            simp only at h
            obtain ⟨inp', h4, h5⟩ := bind_ok_inv h
            have hin : m2.read j.inptr j.inleft = m1.read j.inptr j.inleft :=
              Mem.read_congr fun a ha => hu2.byte a (hc a ha)
            obtain ⟨hn, h6, h7⟩ := Io.skip_eq (j := j.wrote k) (m := m2) (hi1.trans hin.symm) h4
            obtain ⟨k', _, hk', hst2⟩ := e5 _ h6
            have := ih (j := ⟨j.cd, j.inptr + rr.code.toNat, j.inleft - rr.code.toNat, j.outptr + k, j.outleft - k⟩)
              (m := m2) h5 h7 (by rw [e3, hs1])
              (fun a h h' => hc a (by simp only [In] at h ⊢; omega) (by simp only [In] at h' ⊢; omega))
            have : Ends c (3 * fuel) (m2, .top _ (res + irr)) j out r := (this.skip (j := j.wrote k) hn).wrote e2
            exact (Ends.steps (.step hst hst2) (hu.trans hu2 (fun _ h => h)) this).mono (by omega)

/-! ## A thread alone -/

variable {conv : Nat → Conv} {prog : Prog}

/-- `n` steps of a thread, no other thread running. -/
def solo (conv : Nat → Conv) (prog : Prog) : Nat → Mem × Thread → Mem × Thread
  | 0, x => x
  | n + 1, x => solo conv prog n (stepThread conv prog x.1 x.2)

theorem solo_add (n k : Nat) (x : Mem × Thread) : solo conv prog (n + k) x = solo conv prog k (solo conv prog n x) := by
  induction n generalizing x with
  | zero => simp [solo]
  | succ n ih => rw [Nat.add_right_comm]; exact ih _

/-- The descriptor of the call the thread is in. -/
def Pc.cd? : Pc → Option Nat
  | .top j _ | .put j .. | .subst j .. => some j.cd
  | _ => none

theorem stepCall_cd {c : Conv} {m m' : Mem} {pc pc' : Pc} (h : stepCall c m pc = .ok (m', pc')) :
    ∃ d, pc.cd? = some d ∧ (pc'.cd? = some d ∨ ∃ r j, pc' = .ret r j) := by
  have sk : ∀ {j j' : Io} {n}, j.skip n = .ok j' → j'.cd = j.cd := by
    intro j j' n h
    unfold Io.skip at h
    split at h
    · cases h; rfl
    · cases h
  have co : ∀ {m m' : Mem} {j res last n oc pc'}, countOk m j res last n oc = .ok (m', pc') →
      pc'.cd? = some j.cd ∨ ∃ r j, pc' = .ret r j := by
    intro m m' j res last n oc pc' h
    unfold countOk at h
    split at h
    · cases h; exact Or.inr ⟨_, _, rfl⟩
    · split at h
      · obtain ⟨j', h1, h2⟩ := bind_ok_inv h
        cases h2
        left
        have := sk h1
        exact congrArg some this
      · cases h
  cases pc with
  | idle => cases h
  | bad => cases h
  | ret => cases h
  | top j res =>
    refine ⟨_, rfl, ?_⟩
    unfold stepCall at h
    simp only at h
    split at h
    · cases h; exact Or.inr ⟨_, _, rfl⟩
    · obtain ⟨⟨r, is⟩, _, h⟩ := bind_ok_inv h
      simp only at h
      repeat' split at h
      all_goals first
        | (cases h; exact Or.inr ⟨_, _, rfl⟩)
        | (cases h; exact Or.inl rfl)
        | (obtain ⟨j', h1, h2⟩ := bind_ok_inv h
           cases h2
           exact Or.inl (congrArg some (sk h1)))
        | cases h
  | put j res last wc n =>
    refine ⟨_, rfl, ?_⟩
    obtain ⟨⟨oc, m1⟩, _, h⟩ := bind_ok_inv h
    simp only at h
    split at h
    · exact co h
    · split at h
      · obtain ⟨j', h1, h2⟩ := bind_ok_inv h
        cases h2
        exact Or.inl (congrArg some (sk h1))
      · split at h
        · exact co h
        · cases h; exact Or.inl rfl
  | subst j res last n =>
    refine ⟨_, rfl, ?_⟩
    obtain ⟨⟨oc, m1⟩, _, h⟩ := bind_ok_inv h
    simp only at h
    split at h
    · exact co h
    · cases h; exact Or.inr ⟨_, _, rfl⟩

theorem stepThread_call {m m' : Mem} {pc pc' : Pc} {log : List Seen} {d : Nat} (hd : pc.cd? = some d)
    (h : stepCall (conv d) m pc = .ok (m', pc')) : stepThread conv prog m ⟨pc, log⟩ = (m', ⟨pc', log⟩) := by
  cases pc <;> simp only [Pc.cd?, Option.some.injEq, reduceCtorEq] at hd <;> subst hd <;> simp only [stepThread, h]

/-- The steps in a call are steps of the thread. In between the thread is in the call. -/
theorem solo_steps {d n : Nat} {x y : Mem × Pc} (h : Steps (conv d) n x y) (log : List Seen)
    (hd : x.2.cd? = some d) (hy : ∃ r j, y.2 = .ret r j) :
    solo conv prog n (x.1, ⟨x.2, log⟩) = (y.1, ⟨y.2, log⟩) ∧
    ∀ k, k < n → ∃ m pc, solo conv prog k (x.1, ⟨x.2, log⟩) = (m, ⟨pc, log⟩) ∧ pc.cd? = some d := by
  induction h with
  | refl => exact ⟨rfl, by omega⟩
  | @step n x y z h1 h2 ih =>
    have hs : stepThread conv prog x.1 ⟨x.2, log⟩ = (y.1, ⟨y.2, log⟩) := stepThread_call hd h1
    obtain ⟨d', hd', h3 | h3⟩ := stepCall_cd h1
    · rw [hd] at hd'
      cases hd'
      obtain ⟨h4, h5⟩ := ih h3 hy
      refine ⟨by simp only [solo, hs, h4], ?_⟩
      intro k hk
      cases k with
      | zero => exact ⟨_, _, rfl, hd⟩
      | succ k => simp only [solo, hs]; exact h5 k (by omega)
    · cases h2 with
      | refl =>
        refine ⟨by simp only [solo, hs], ?_⟩
        intro k hk
        have : k = 0 := by omega
        subst this
        exact ⟨_, _, rfl, hd⟩
      | step h4 _ =>
        obtain ⟨r, j, h3⟩ := h3
        rw [h3] at h4
        cases h4

/-- An action of a thread alone is finished after a number of steps; before, the thread has seen nothing new, and after the
first step it is not idle. -/
theorem solo_act {m m' : Mem} {log : List Seen} {a : Act} {x : Seen} (hp : prog log = some a) (hc : a.Clear)
    (ha : a.alone conv m = .ok (x, m')) :
    ∃ n, 1 ≤ n ∧ solo conv prog n (m, ⟨.idle, log⟩) = (m', ⟨.idle, log ++ [x]⟩) ∧
      ∀ k, 1 ≤ k → k < n → ∃ m1 pc, solo conv prog k (m, ⟨.idle, log⟩) = (m1, ⟨pc, log⟩) ∧ pc ≠ .idle ∧ pc ≠ .bad := by
  cases a with
  | call j =>
    obtain ⟨r, hr, h⟩ := bind_ok_inv ha
    cases h
    obtain ⟨n, m', e, h1, h2, h3, h4, h5, h6, h7, h8⟩ := loop_ends _ hr rfl rfl hc
    rw [List.nil_append] at h4
    have hs : stepThread conv prog m ⟨.idle, log⟩ = (m, ⟨.top j 0, log⟩) := by simp only [stepThread, hp]
    obtain ⟨h9, h10⟩ := solo_steps (prog := prog) h2 log rfl ⟨_, _, rfl⟩
    simp only at h9 h10
    have hm : m' = (m.write j.outptr (r.buf.out ++ r.buf.room)).setDesc j.cd r.st := by
      rw [h4]
      have hl : (e ++ r.buf.room).length = j.outleft := by simpa using h5
      exact Mem.eq_write (by rw [hl, h6]) (fun a ha => h8.byte a (by rwa [hl] at ha)) h7 h8.desc
    refine ⟨1 + n + 1, by omega, ?_, ?_⟩
    · rw [solo_add, solo_add]
      simp only [solo, hs, h9]
      simp only [stepThread, hm, h4]
    · intro k h1k hk
      obtain ⟨k, rfl⟩ : ∃ k', k = 1 + k' := ⟨k - 1, by omega⟩
      rw [solo_add]
      simp only [solo, hs]
      by_cases hkn : k < n
      · obtain ⟨m1, pc, h11, h12⟩ := h10 k hkn
        refine ⟨m1, pc, h11, ?_, ?_⟩ <;> (rintro rfl; cases h12)
      · have : k = n := by omega
        subst this
        exact ⟨_, _, h9, by simp, by simp⟩
  | reset h out =>
    refine ⟨1, by omega, ?_, by omega⟩
    simp only [Act.alone] at ha
    simp only [solo, stepThread, hp, ha]
  | store p bs =>
    cases ha
    exact ⟨1, by omega, by simp only [solo, stepThread, hp], by omega⟩
  | load p n =>
    cases ha
    exact ⟨1, by omega, by simp only [solo, stepThread, hp], by omega⟩

theorem solo_over {m : Mem} {log : List Seen} (hp : prog log = none) (n : Nat) :
    solo conv prog n (m, ⟨.idle, log⟩) = (m, ⟨.idle, log⟩) := by
  induction n with
  | zero => rfl
  | succ n ih => simpa only [solo, stepThread, hp] using ih

/-- A thread alone is always in the middle of an action, or between two. -/
theorem solo_after {m0 : Mem} (hf : Fine conv prog m0) (n : Nat) : ∀ {k m log}, After conv prog m0 k m log →
    ∃ k' m' log', log <+: log' ∧ After conv prog m0 k' m' log' ∧ (solo conv prog n (m, ⟨.idle, log⟩)).2.log = log' ∧
      (solo conv prog n (m, ⟨.idle, log⟩)).2.pc ≠ .bad ∧
      ((solo conv prog n (m, ⟨.idle, log⟩)).2.pc = .idle → (solo conv prog n (m, ⟨.idle, log⟩)).1 = m') := by
  induction n using Nat.strongRecOn with
  | _ n ih =>
    intro k m log h
    cases hp : prog log with
    | none =>
      rw [solo_over hp]
      exact ⟨k, m, log, List.prefix_rfl, h, rfl, by simp, fun _ => rfl⟩
    | some a =>
      obtain ⟨hc, ⟨x, m2⟩, hx⟩ := hf _ _ _ _ h hp
      obtain ⟨l, hl, h1, h2⟩ := solo_act hp hc hx
      by_cases hn : n < l
      · by_cases h0 : n = 0
        · subst h0
          exact ⟨k, m, log, List.prefix_rfl, h, rfl, by simp [solo], fun _ => rfl⟩
        · obtain ⟨m1, pc, h3, h4, h5⟩ := h2 n (by omega) hn
          rw [h3]
          exact ⟨k, m, log, List.prefix_rfl, h, rfl, h5, fun h => absurd h h4⟩
      · obtain ⟨n', rfl⟩ : ∃ n', n = l + n' := ⟨n - l, by omega⟩
        rw [solo_add, h1]
        obtain ⟨k', m', log', h3, h4⟩ := ih n' (by omega) (h.succ hp hx)
        exact ⟨k', m', log', (List.prefix_append _ _).trans h3, h4⟩

/-- Enough steps finish any number of actions. -/
theorem solo_reach {m0 : Mem} (hf : Fine conv prog m0) {k m log} (h : After conv prog m0 k m log) :
    ∃ n, solo conv prog n (m0, ⟨.idle, []⟩) = (m, ⟨.idle, log⟩) := by
  induction h with
  | zero => exact ⟨0, rfl⟩
  | succ h hp hx ih =>
    obtain ⟨n, hn⟩ := ih
    obtain ⟨l, _, h1, _⟩ := solo_act hp (hf _ _ _ _ h hp).1 hx
    exact ⟨n + l, by rw [solo_add, hn, h1]⟩

/-! ## A thread uses only its area -/

/-- The call the thread is in uses nothing outside the area. -/
def Pc.Fits (F : Area) : Pc → Prop
  | .top j _ | .put j .. | .subst j .. => (Act.call j).Within F
  | _ => True

/-- Nothing outside the area was changed. -/
def Only (F : Area) (m m' : Mem) : Prop :=
  (∀ a, ¬ F.wr a → m'.byte a = m.byte a) ∧ ∀ h, ¬ F.ds h → m'.desc h = m.desc h

theorem Only.refl (F : Area) (m : Mem) : Only F m m := ⟨fun _ _ => rfl, fun _ _ => rfl⟩

theorem Only.trans {F : Area} {m m1 m2 : Mem} (h : Only F m m1) (h' : Only F m1 m2) : Only F m m2 :=
  ⟨fun a ha => (h'.1 a ha).trans (h.1 a ha), fun a ha => (h'.2 a ha).trans (h.2 a ha)⟩

theorem Only.write {F : Area} {p : Nat} {ws : List Byte} (m : Mem) (h : ∀ a, In p ws.length a → F.wr a) :
    Only F m (m.write p ws) :=
  ⟨fun a ha => Mem.write_out _ _ _ _ (fun h1 => ha (h a h1)), fun _ _ => rfl⟩

theorem Only.setDesc {F : Area} {h : Nat} (m : Mem) (s : St) (hh : F.ds h) : Only F m (m.setDesc h s) :=
  ⟨fun _ _ => rfl, fun h' hd => Mem.setDesc_ne _ _ (by rintro rfl; exact hd hh)⟩

theorem Agree.symm {F : Area} {m m' : Mem} (h : Agree F m m') : Agree F m' m :=
  ⟨fun a ha => (h.1 a ha).symm, fun a ha => (h.2 a ha).symm⟩

theorem Agree.trans {F : Area} {m m1 m2 : Mem} (h : Agree F m m1) (h' : Agree F m1 m2) : Agree F m m2 :=
  ⟨fun a ha => (h.1 a ha).trans (h'.1 a ha), fun a ha => (h.2 a ha).trans (h'.2 a ha)⟩

theorem Agree.write {F : Area} {m m' : Mem} (h : Agree F m m') (p : Nat) (ws : List Byte) :
    Agree F (m.write p ws) (m'.write p ws) :=
  ⟨fun a ha => by rw [Mem.write_byte, Mem.write_byte, h.1 a ha], h.2⟩

theorem Agree.setDesc {F : Area} {m m' : Mem} (h : Agree F m m') (k : Nat) (s : St) :
    Agree F (m.setDesc k s) (m'.setDesc k s) := by
  refine ⟨h.1, fun a ha => ?_⟩
  by_cases hk : a = k
  · subst hk; simp
  · rw [Mem.setDesc_ne _ _ hk, Mem.setDesc_ne _ _ hk, h.2 a ha]

theorem Agree.read {F : Area} {m m' : Mem} (h : Agree F m m') {p n : Nat} (hp : ∀ a, In p n a → F.rd a ∨ F.wr a) :
    m.read p n = m'.read p n := Mem.read_congr fun a ha => h.1 a (hp a ha)

/-- A step that ends in `x` from `m` keeps to the area `F`: nothing else is changed, and what happens depends only on the
memory in the area. -/
def Keeps {α : Type} (F : Area) (f : Mem → Outcome (α × Mem)) : Prop := ∀ m x m', f m = .ok (x, m') →
  Only F m m' ∧ ∀ m2, Agree F m m2 → ∃ m2', f m2 = .ok (x, m2') ∧ Agree F m' m2'

theorem wctombAt_keeps {F : Area} (c : Conv) {j : Io} (wc : Nat) (hj : (Act.call j).Within F) :
    Keeps F fun m => wctombAt c m j wc := by
  intro m oc m' h
  obtain ⟨r, hr, h⟩ := bind_ok_inv h
  split at h
  · cases h
  · next hl =>
    cases h
    refine ⟨(Only.write m fun a ha => hj.2.2 a (by simp only [In] at ha ⊢; omega)).trans (Only.setDesc _ _ hj.1), ?_⟩
    intro m2 h2
    refine ⟨_, ?_, (h2.write _ _).setDesc _ _⟩
    have hd := h2.2 _ hj.1
    simp only [wctombAt, ← hd, hr, Outcome.bind_ok, if_neg hl]

theorem restore_keeps {F : Area} {h : Nat} (hh : F.ds h) (last : Nat) (m : Mem) :
    Only F m (m.restore h last) ∧ ∀ m2, Agree F m m2 → Agree F (m.restore h last) (m2.restore h last) := by
  refine ⟨Only.setDesc _ _ hh, fun m2 h2 => ?_⟩
  unfold Mem.restore
  rw [← h2.2 _ hh]
  exact h2.setDesc _ _

theorem skip_within {F : Area} {j j' : Io} {n : Int} (hj : (Act.call j).Within F) (h : j.skip n = .ok j') :
    (Act.call j').Within F := by
  unfold Io.skip at h
  split at h
  · next h1 =>
    cases h
    exact ⟨hj.1, fun a ha => hj.2.1 a (by simp only [In] at ha ⊢; omega), hj.2.2⟩
  · cases h

theorem countOk_keeps {F : Area} {j : Io} (hj : (Act.call j).Within F) (res last : Nat) (n oc : Int) :
    ∀ m pc' m', countOk m j res last n oc = .ok (m', pc') → pc'.Fits F ∧ Only F m m' ∧
      ∀ m2, Agree F m m2 → ∃ m2', countOk m2 j res last n oc = .ok (m2', pc') ∧ Agree F m' m2' := by
  intro m pc' m' h
  unfold countOk at h ⊢
  split at h
  · next h1 =>
    cases h
    obtain ⟨h2, h3⟩ := restore_keeps hj.1 last m
    exact ⟨trivial, h2, fun m2 h4 => ⟨_, by rw [if_pos h1], h3 m2 h4⟩⟩
  · next h1 =>
    split at h
    · next h2 =>
      obtain ⟨j', h3, h⟩ := bind_ok_inv h
      cases h
      refine ⟨?_, Only.refl _ _, fun m2 h4 => ⟨m2, by rw [if_neg h1, if_pos h2, h3]; rfl, h4⟩⟩
      refine skip_within (j := ⟨j.cd, j.inptr, j.inleft, j.outptr + oc.toNat, j.outleft - oc.toNat⟩) ?_ h3
      exact ⟨hj.1, hj.2.1, fun a ha => hj.2.2 a (by simp only [In] at ha ⊢; omega)⟩
    · cases h

theorem stepCall_keeps {F : Area} (c : Conv) {pc : Pc} (hp : pc.Fits F) :
    ∀ m pc' m', stepCall c m pc = .ok (m', pc') → pc'.Fits F ∧ Only F m m' ∧
      ∀ m2, Agree F m m2 → ∃ m2', stepCall c m2 pc = .ok (m2', pc') ∧ Agree F m' m2' := by
  intro m pc' m' h
  cases pc with
  | idle => cases h
  | bad => cases h
  | ret => cases h
  | top j res =>
    have hj : (Act.call j).Within F := hp
    unfold stepCall at h ⊢
    simp only at h ⊢
    split at h
    · next h1 =>
      cases h
      exact ⟨trivial, Only.refl _ _, fun m2 h2 => ⟨m2, by rw [if_pos h1], h2⟩⟩
    · next h1 =>
      obtain ⟨⟨r, is⟩, hr, h⟩ := bind_ok_inv h
      simp only at h
      have ho := Only.setDesc m ⟨is, (m.desc j.cd).os⟩ hj.1
      have he : ∀ m2, Agree F m m2 → m2.desc j.cd = m.desc j.cd ∧ m2.read j.inptr j.inleft = m.read j.inptr j.inleft :=
        fun m2 h2 => ⟨(h2.2 _ hj.1).symm, (h2.read hj.2.1).symm⟩
      have ha := fun m2 (h2 : Agree F m m2) => h2.setDesc j.cd ⟨is, (m.desc j.cd).os⟩
      split at h
      · next c1 =>
        split at h
        · next c2 =>
          split at h
          · next c3 =>
            obtain ⟨j', h2, h⟩ := bind_ok_inv h
            cases h
            refine ⟨skip_within hj h2, ho, fun m2 h3 => ⟨_, ?_, ha m2 h3⟩⟩
            rw [if_neg h1, (he m2 h3).1, (he m2 h3).2, hr, Outcome.bind_ok]
            simp only [c1, c2, c3, if_true, h2, Outcome.bind_ok]
          · next c3 =>
            split at h
            · next c4 =>
              cases h
              refine ⟨trivial, ho, fun m2 h3 => ⟨_, ?_, ha m2 h3⟩⟩
              rw [if_neg h1, (he m2 h3).1, (he m2 h3).2, hr, Outcome.bind_ok]
              simp only [c1, c2, c3, c4, if_true, if_false, Bool.false_eq_true]
            · cases h
        · next c2 =>
          split at h
          · next c3 =>
            cases h
            refine ⟨trivial, ho, fun m2 h3 => ⟨_, ?_, ha m2 h3⟩⟩
            rw [if_neg h1, (he m2 h3).1, (he m2 h3).2, hr, Outcome.bind_ok]
            simp only
            rw [if_pos c1, if_neg c2, if_pos c3]
          · next c3 =>
            obtain ⟨j', h2, h⟩ := bind_ok_inv h
            cases h
            refine ⟨skip_within hj h2, ho, fun m2 h3 => ⟨_, ?_, ha m2 h3⟩⟩
            rw [if_neg h1, (he m2 h3).1, (he m2 h3).2, hr, Outcome.bind_ok]
            simp only
            rw [if_pos c1, if_neg c2, if_neg c3, h2]; rfl
      · next c1 =>
        split at h
        · next c2 =>
          cases h
          obtain ⟨r1, r2⟩ := restore_keeps hj.1 (m.desc j.cd).is.st (m.setDesc j.cd ⟨is, (m.desc j.cd).os⟩)
          refine ⟨trivial, ho.trans r1, fun m2 h3 => ⟨_, ?_, r2 _ (ha m2 h3)⟩⟩
          rw [if_neg h1, (he m2 h3).1, (he m2 h3).2, hr, Outcome.bind_ok]
          simp only
          rw [if_neg c1, if_pos c2]
        · next c2 =>
          cases h
          refine ⟨hj, ho, fun m2 h3 => ⟨_, ?_, ha m2 h3⟩⟩
          rw [if_neg h1, (he m2 h3).1, (he m2 h3).2, hr, Outcome.bind_ok]
          simp only
          rw [if_neg c1, if_neg c2]
  | put j res last wc n =>
    have hj : (Act.call j).Within F := hp
    obtain ⟨⟨oc, m1⟩, hw, h⟩ := bind_ok_inv h
    obtain ⟨k1, k2⟩ := wctombAt_keeps c wc hj m oc m1 hw
    simp only at h
    unfold stepCall
    simp only
    split at h
    · next c1 =>
      obtain ⟨l1, l2, l3⟩ := countOk_keeps hj _ _ _ _ _ _ _ h
      refine ⟨l1, k1.trans l2, fun m2 h2 => ?_⟩
      obtain ⟨m3, h3, h4⟩ := k2 m2 h2
      obtain ⟨m4, h5, h6⟩ := l3 m3 h4
      exact ⟨m4, by simp only [h3, Outcome.bind_ok]; rw [if_pos c1, h5], h6⟩
    · next c1 =>
      split at h
      · next c2 =>
        obtain ⟨j', h2, h⟩ := bind_ok_inv h
        cases h
        refine ⟨skip_within hj h2, k1, fun m2 h3 => ?_⟩
        obtain ⟨m3, h4, h5⟩ := k2 m2 h3
        exact ⟨m3, by simp only [h4, Outcome.bind_ok]; rw [if_neg c1, if_pos c2, h2]; rfl, h5⟩
      · next c2 =>
        split at h
        · next c3 =>
          obtain ⟨l1, l2, l3⟩ := countOk_keeps hj _ _ _ _ _ _ _ h
          refine ⟨l1, k1.trans l2, fun m2 h2 => ?_⟩
          obtain ⟨m3, h3, h4⟩ := k2 m2 h2
          obtain ⟨m4, h5, h6⟩ := l3 m3 h4
          exact ⟨m4, by simp only [h3, Outcome.bind_ok]; rw [if_neg c1, if_neg c2, if_pos c3, h5], h6⟩
        · next c3 =>
          cases h
          refine ⟨hj, k1, fun m2 h3 => ?_⟩
          obtain ⟨m3, h4, h5⟩ := k2 m2 h3
          exact ⟨m3, by simp only [h4, Outcome.bind_ok]; rw [if_neg c1, if_neg c2, if_neg c3], h5⟩
  | subst j res last n =>
    have hj : (Act.call j).Within F := hp
    obtain ⟨⟨oc, m1⟩, hw, h⟩ := bind_ok_inv h
    obtain ⟨k1, k2⟩ := wctombAt_keeps c 0xFFFD hj m oc m1 hw
    simp only at h
    unfold stepCall
    simp only
    split at h
    · next c1 =>
      obtain ⟨l1, l2, l3⟩ := countOk_keeps hj _ _ _ _ _ _ _ h
      refine ⟨l1, k1.trans l2, fun m2 h2 => ?_⟩
      obtain ⟨m3, h3, h4⟩ := k2 m2 h2
      obtain ⟨m4, h5, h6⟩ := l3 m3 h4
      exact ⟨m4, by simp only [h3, Outcome.bind_ok]; rw [if_pos c1, h5], h6⟩
    · next c1 =>
      cases h
      obtain ⟨r1, r2⟩ := restore_keeps hj.1 last m1
      refine ⟨trivial, k1.trans r1, fun m2 h2 => ?_⟩
      obtain ⟨m3, h3, h4⟩ := k2 m2 h2
      exact ⟨_, by simp only [h3, Outcome.bind_ok]; rw [if_neg c1], r2 m3 h4⟩

/-- The size of the output buffer: what was written and what is left. -/
def total (b : Buf) : Nat := b.out.length + b.room.length

theorem store_total {b b' : Buf} {ws : List Byte} (h : b.store ws = .ok b') : total b' = total b := by
  unfold Buf.store at h
  split at h
  · cases h; rfl
  · split at h
    · cases h
    · next h1 =>
      cases h
      simp only [Bool.or_eq_true, decide_eq_true_eq, not_or, Nat.not_lt] at h1
      simp only [total, List.length_append, List.length_drop]
      omega

theorem advance_total {b b' : Buf} {n : Nat} (h : b.advance n = .ok b') : total b' = total b := by
  unfold Buf.advance at h
  split at h
  · next h1 =>
    cases h
    simp only [total, List.length_append, List.length_drop, List.length_take]
    omega
  · cases h

theorem putChar_total {c : Conv} {os wc : Nat} {b : Buf} {x} (h : putChar c os wc b = .ok x) : total x.2.2 = total b := by
  have hw : ∀ {os wc : Nat} {b : Buf} {x}, callWctomb c os wc b = .ok x → total x.2.2 = total b := by
    intro os wc b x h
    obtain ⟨r, _, h⟩ := bind_ok_inv h
    obtain ⟨b', hb, h⟩ := bind_ok_inv h
    cases h
    exact store_total hb
  have ho : ∀ {oc : Int} {os : Nat} {b : Buf} {irr : Nat} {x}, outcountOk oc os b irr = .ok x → total x.2.2 = total b := by
    intro oc os b irr x h
    unfold outcountOk at h
    split at h
    · cases h; rfl
    · obtain ⟨b', hb, h⟩ := bind_ok_inv h
      cases h
      exact advance_total hb
  unfold putChar at h
  obtain ⟨⟨oc, os', b'⟩, h1, h⟩ := bind_ok_inv h
  have h1 := hw h1
  simp only at h h1
  split at h
  · rw [ho h, h1]
  · split at h
    · cases h; exact h1
    · split at h
      · rw [ho h, h1]
      · obtain ⟨⟨oc2, os2, b2⟩, h2, h⟩ := bind_ok_inv h
        have h2 := hw h2
        simp only at h h2
        split at h
        · rw [ho h, h2, h1]
        · cases h; exact h2.trans h1

theorem loopReset_total {c : Conv} {s : St} {b : Buf} {r : CallRes} (h : loopReset c s b = .ok r) : total r.buf = total b := by
  have ho : ∀ {s : St} {b : Buf} {res : Nat} {r : CallRes}, resetOut c s b res = .ok r → total r.buf = total b := by
    intro s b res r h
    unfold resetOut at h
    split at h
    · cases h; rfl
    · obtain ⟨x, _, h⟩ := bind_ok_inv h
      obtain ⟨b', hb, h⟩ := bind_ok_inv h
      split at h
      · cases h; exact store_total hb
      · obtain ⟨b2, hb2, h⟩ := bind_ok_inv h
        cases h
        exact (advance_total hb2).trans (store_total hb)
  unfold loopReset at h
  split at h
  · cases h; rfl
  · split at h
    · exact ho h
    · simp only at h
      split at h
      · exact ho h
      · obtain ⟨⟨p, os, b'⟩, h1, h⟩ := bind_ok_inv h
        have ht := putChar_total h1
        simp only at h ht
        split at h
        · cases h; exact ht
        · rw [ho h, ht]

theorem resetAt_keeps {F : Area} (c : Conv) {h : Nat} {out : Option (Nat × Nat)} (hw : (Act.reset h out).Within F) :
    Keeps F fun m => resetAt c m h out := by
  intro m x m' hx
  cases out with
  | none =>
    obtain ⟨r, hr, hx⟩ := bind_ok_inv hx
    cases hx
    refine ⟨Only.setDesc _ _ hw, fun m2 h2 => ⟨_, ?_, h2.setDesc _ _⟩⟩
    simp only [resetAt, ← h2.2 _ hw, hr, Outcome.bind_ok]
  | some q =>
    obtain ⟨p, n⟩ := q
    obtain ⟨r, hr, hx⟩ := bind_ok_inv hx
    cases hx
    have hl : (r.buf.out ++ r.buf.room).length = n := by
      have := loopReset_total hr
      simpa [total] using this
    refine ⟨(Only.write m fun a ha => hw.2 a (by rwa [hl] at ha)).trans (Only.setDesc _ _ hw.1),
      fun m2 h2 => ⟨_, ?_, (h2.write _ _).setDesc _ _⟩⟩
    simp only [resetAt, ← h2.2 _ hw.1, ← h2.read (fun a ha => Or.inr (hw.2 a ha)), hr, Outcome.bind_ok]

/-- A step of a thread keeps to its area. -/
theorem stepThread_keeps {F : Area} (hprog : ∀ log a, prog log = some a → a.Within F) {t : Thread} (ht : t.pc.Fits F)
    (m : Mem) : (stepThread conv prog m t).2.pc.Fits F ∧ Only F m (stepThread conv prog m t).1 ∧
      ∀ m2, Agree F m m2 → (stepThread conv prog m2 t).2 = (stepThread conv prog m t).2 ∧
        Agree F (stepThread conv prog m t).1 (stepThread conv prog m2 t).1 := by
  obtain ⟨pc, log⟩ := t
  have bad : ∀ {α : Type} {f : Mem → Outcome (α × Mem)}, Keeps F f → ∀ {m m2}, Agree F m m2 →
      (∀ x m', f m ≠ .ok (x, m')) → ∀ x m', f m2 ≠ .ok (x, m') := by
    intro α f hf m m2 h h1 x m' h2
    obtain ⟨m3, h3, _⟩ := (hf m2 x m' h2).2 m h.symm
    exact h1 x m3 h3
  have call : ∀ d, pc.cd? = some d → _ := fun d hd => by
    have hs : ∀ m, stepThread conv prog m ⟨pc, log⟩ =
        match stepCall (conv d) m pc with
        | .ok (m, pc) => (m, ⟨pc, log⟩)
        | _ => (m, ⟨.bad, log⟩) := by
      intro m
      cases pc <;> simp only [Pc.cd?, Option.some.injEq, reduceCtorEq] at hd <;> subst hd <;> rfl
    have hk := stepCall_keeps (conv d) ht
    show (stepThread conv prog m ⟨pc, log⟩).2.pc.Fits F ∧ Only F m (stepThread conv prog m ⟨pc, log⟩).1 ∧
      ∀ m2, Agree F m m2 → (stepThread conv prog m2 ⟨pc, log⟩).2 = (stepThread conv prog m ⟨pc, log⟩).2 ∧
        Agree F (stepThread conv prog m ⟨pc, log⟩).1 (stepThread conv prog m2 ⟨pc, log⟩).1
    simp only [hs]
    by_cases h1 : ∃ m' pc', stepCall (conv d) m pc = .ok (m', pc')
    · obtain ⟨m', pc', h1⟩ := h1
      obtain ⟨k1, k2, k3⟩ := hk _ _ _ h1
      simp only [h1]
      refine ⟨k1, k2, fun m2 h2 => ?_⟩
      obtain ⟨m3, h3, h4⟩ := k3 m2 h2
      simp only [h3]
      exact ⟨trivial, h4⟩
    · have hb : ∀ m, (¬ ∃ m' pc', stepCall (conv d) m pc = .ok (m', pc')) →
          (match stepCall (conv d) m pc with
            | .ok (m, pc) => (m, (⟨pc, log⟩ : Thread))
            | _ => (m, ⟨.bad, log⟩)) = (m, ⟨.bad, log⟩) := by
        intro m hm
        split
        · next h => exact absurd ⟨_, _, h⟩ hm
        · rfl
      rw [hb m h1]
      refine ⟨trivial, Only.refl _ _, fun m2 h2 => ?_⟩
      rw [hb m2]
      · exact ⟨rfl, h2⟩
      · rintro ⟨m', pc', h3⟩
        obtain ⟨m4, h4, _⟩ := (hk _ _ _ h3).2.2 m h2.symm
        exact h1 ⟨_, _, h4⟩
  cases pc with
  | idle =>
    cases hp : prog log with
    | none =>
      simp only [stepThread, hp]
      exact ⟨trivial, Only.refl _ _, fun m2 h2 => ⟨trivial, h2⟩⟩
    | some a =>
      have hw := hprog log a hp
      cases a with
      | call j =>
        simp only [stepThread, hp]
        exact ⟨hw, Only.refl _ _, fun m2 h2 => ⟨trivial, h2⟩⟩
      | reset h out =>
        have hk := resetAt_keeps (conv h) hw
        have hb : ∀ m, (∀ x m', resetAt (conv h) m h out ≠ .ok (x, m')) →
            stepThread conv prog m ⟨.idle, log⟩ = (m, ⟨.bad, log⟩) := by
          intro m hm
          unfold stepThread
          rw [hp]
          dsimp only
          cases hx : resetAt (conv h) m h out with
          | ok y => exact absurd hx (hm y.1 y.2)
          | _ => rfl
        have hok : ∀ m x m', resetAt (conv h) m h out = .ok (x, m') →
            stepThread conv prog m ⟨.idle, log⟩ = (m', ⟨.idle, log ++ [x]⟩) := by
          intro m x m' hm
          simp only [stepThread, hp, hm]
        by_cases h1 : ∃ x m', resetAt (conv h) m h out = .ok (x, m')
        · obtain ⟨x, m', h1⟩ := h1
          obtain ⟨k1, k2⟩ := hk m x m' h1
          rw [hok m x m' h1]
          refine ⟨trivial, k1, fun m2 h2 => ?_⟩
          obtain ⟨m3, h3, h4⟩ := k2 m2 h2
          rw [hok m2 x m3 h3]
          exact ⟨rfl, h4⟩
        · have h1 : ∀ x m', resetAt (conv h) m h out ≠ .ok (x, m') := fun x m' h2 => h1 ⟨x, m', h2⟩
          rw [hb m h1]
          refine ⟨trivial, Only.refl _ _, fun m2 h2 => ?_⟩
          rw [hb m2 (bad hk h2 h1)]
          exact ⟨rfl, h2⟩
      | store p bs =>
        simp only [stepThread, hp]
        exact ⟨trivial, Only.write _ hw, fun m2 h2 => ⟨trivial, h2.write _ _⟩⟩
      | load p n =>
        simp only [stepThread, hp]
        exact ⟨trivial, Only.refl _ _, fun m2 h2 => ⟨by rw [h2.read hw], h2⟩⟩
  | ret r j => exact ⟨trivial, Only.refl _ _, fun m2 h2 => ⟨rfl, h2⟩⟩
  | bad => exact ⟨trivial, Only.refl _ _, fun m2 h2 => ⟨rfl, h2⟩⟩
  | top j res => exact call _ rfl
  | put j res last wc n => exact call _ rfl
  | subst j res last n => exact call _ rfl

/-- A thread alone does the same in memories that agree in its area. -/
theorem solo_agree {F : Area} (hprog : ∀ log a, prog log = some a → a.Within F) (n : Nat) : ∀ {t : Thread} {m m2 : Mem},
    t.pc.Fits F → Agree F m m2 → (solo conv prog n (m2, t)).2 = (solo conv prog n (m, t)).2 ∧
      Agree F (solo conv prog n (m, t)).1 (solo conv prog n (m2, t)).1 := by
  induction n with
  | zero => intro t m m2 _ h; exact ⟨rfl, h⟩
  | succ n ih =>
    intro t m m2 ht h
    obtain ⟨h1, _, h3⟩ := stepThread_keeps (conv := conv) hprog ht m
    obtain ⟨h4, h5⟩ := h3 m2 h
    have := ih h1 h5
    simp only [solo]
    rw [show stepThread conv prog m2 t = ((stepThread conv prog m2 t).1, (stepThread conv prog m t).2) by rw [← h4]]
    exact this

/-- With all threads running, a thread does what it does alone in as many steps. -/
theorem run_solo {F : Nat → Area} {prog : Nat → Prog} (hF : Apart F)
    (hprog : ∀ i log a, prog i log = some a → a.Within (F i)) (sched : List Nat) : ∀ {m : Mem} {ts : Nat → Thread},
    (∀ i, (ts i).pc.Fits (F i)) → ∀ i,
      (runAll conv prog sched m ts).2 i = (solo conv (prog i) (sched.count i) (m, ts i)).2 ∧
      Agree (F i) (solo conv (prog i) (sched.count i) (m, ts i)).1 (runAll conv prog sched m ts).1 := by
  induction sched with
  | nil => intro m ts _ i; exact ⟨rfl, fun _ _ => rfl, fun _ _ => rfl⟩
  | cons k sched ih =>
    intro m ts ht i
    obtain ⟨h1, h2, _⟩ := stepThread_keeps (conv := conv) (hprog k) (ht k) m
    have ht' : ∀ i, (setAt ts k (stepThread conv (prog k) m (ts k)).2 i).pc.Fits (F i) := by
      intro i
      by_cases hi : i = k
      · subst hi; rw [setAt_same]; exact h1
      · rw [setAt_ne _ _ hi]; exact ht i
    have := ih (m := (stepThread conv (prog k) m (ts k)).1) ht' i
    simp only [runAll]
    by_cases hi : i = k
    · subst hi
      rw [setAt_same] at this
      rw [List.count_cons_self]
      exact this
    · rw [setAt_ne _ _ hi] at this
      rw [List.count_cons_of_ne (Ne.symm hi)]
      have hag : Agree (F i) m (stepThread conv (prog k) m (ts k)).1 := by
        refine ⟨fun a ha => (h2.1 a fun hw => ?_).symm, fun d hd => (h2.2 d fun hd' => ?_).symm⟩
        · have := (hF k i (Ne.symm hi)).1 a hw
          rcases ha with ha | ha
          · exact this.1 ha
          · exact this.2 ha
        · exact (hF k i (Ne.symm hi)).2 d hd' hd
      obtain ⟨h3, h4⟩ := solo_agree (conv := conv) (hprog i) (sched.count i) (ht i) hag
      exact ⟨this.1.trans h3, h4.trans this.2⟩

theorem start_fits (F : Nat → Area) : ∀ i, (atStart i).pc.Fits (F i) := fun _ => trivial

/-- What nobody may write is not changed. -/
theorem run_only {F : Nat → Area} {prog : Nat → Prog}
    (hprog : ∀ i log a, prog i log = some a → a.Within (F i)) (sched : List Nat) : ∀ {m : Mem} {ts : Nat → Thread},
    (∀ i, (ts i).pc.Fits (F i)) →
      (∀ a, (∀ i, ¬ (F i).wr a) → (runAll conv prog sched m ts).1.byte a = m.byte a) ∧
      ∀ h, (∀ i, ¬ (F i).ds h) → (runAll conv prog sched m ts).1.desc h = m.desc h := by
  induction sched with
  | nil => intro m ts _; exact ⟨fun _ _ => rfl, fun _ _ => rfl⟩
  | cons k sched ih =>
    intro m ts ht
    obtain ⟨h1, h2, _⟩ := stepThread_keeps (conv := conv) (hprog k) (ht k) m
    have ht' : ∀ i, (setAt ts k (stepThread conv (prog k) m (ts k)).2 i).pc.Fits (F i) := by
      intro i
      by_cases hi : i = k
      · subst hi; rw [setAt_same]; exact h1
      · rw [setAt_ne _ _ hi]; exact ht i
    obtain ⟨h3, h4⟩ := ih (m := (stepThread conv (prog k) m (ts k)).1) ht'
    exact ⟨fun a ha => (h3 a ha).trans (h2.1 a (ha k)), fun h hh => (h4 h hh).trans (h2.2 h (hh k))⟩

/-- The descriptors stay in states that calls can reach. -/
theorem After.reach {F : Area} {m : Mem}
    (hdesc : ∀ h, F.ds h → Reach (conv h) (m.desc h))
    (hprog : ∀ log a, prog log = some a → a.Within F) {k : Nat} {m' : Mem} {log : List Seen}
    (h : After conv prog m k m' log) : ∀ h, F.ds h → Reach (conv h) (m'.desc h) := by
  induction h with
  | zero => exact hdesc
  | @succ k m1 log a x m2 h hp hx ih =>
    have hw := hprog _ _ hp
    have set : ∀ {h s}, F.ds h → Reach (conv h) s → ∀ {m3 : Mem}, m3.desc = m1.desc → ∀ d, F.ds d →
        Reach (conv d) ((m3.setDesc h s).desc d) := by
      intro h s hh hs m3 hm d hd
      by_cases hdh : d = h
      · subst hdh; rw [Mem.setDesc_same]; exact hs
      · rw [Mem.setDesc_ne _ _ hdh, hm]; exact ih d hd
    cases a with
    | call j =>
      obtain ⟨r, hr, hx⟩ := bind_ok_inv hx
      cases hx
      refine set hw.1 (Reach.step (ih _ hw.1) (k := .iconv (some (m1.read j.inptr j.inleft))
        (some ⟨false, [], m1.read j.outptr j.outleft⟩)) ?_) rfl
      simp only [Call.after, hr]; rfl
    | reset d out =>
      cases out with
      | none =>
        obtain ⟨r, hr, hx⟩ := bind_ok_inv hx
        cases hx
        refine set hw (Reach.step (ih _ hw) (k := .iconv none none) ?_) rfl
        simp only [Call.after, hr]; rfl
      | some q =>
        obtain ⟨p, n⟩ := q
        obtain ⟨r, hr, hx⟩ := bind_ok_inv hx
        cases hx
        refine set hw.1 (Reach.step (ih _ hw.1) (k := .iconv none (some ⟨false, [], m1.read p n⟩)) ?_) rfl
        simp only [Call.after, hr]; rfl
    | store p bs => cases hx; exact ih
    | load p n => cases hx; exact ih

end Reiconv.Threads

namespace Reiconv

open Threads

/-! ## C61 -/

variable {conv : Nat → Conv} {prog : Nat → Prog} {F : Nat → Area} {m : Mem}

/-- C61. Threads that do not write what others use, and do not use the same descriptors, do not influence each other: in
whatever order their steps come, each thread has seen, at any time, exactly what it sees after some number of actions
when it runs alone and its calls are done in one step each; and when it is not in a call, its memory and its descriptors
are those. -/
theorem C61_threads (hF : Apart F) (hprog : ∀ i log a, prog i log = some a → a.Within (F i))
    (hfine : ∀ i, Fine conv (prog i) m) (sched : List Nat) (i : Nat) :
    ∃ k m', After conv (prog i) m k m' ((runAll conv prog sched m atStart).2 i).log ∧
      ((runAll conv prog sched m atStart).2 i).pc ≠ .bad ∧
      (((runAll conv prog sched m atStart).2 i).pc = .idle → Agree (F i) m' (runAll conv prog sched m atStart).1) := by
  obtain ⟨h1, h2⟩ := run_solo (conv := conv) hF hprog sched (m := m) (start_fits F) i
  obtain ⟨k, m', log, _, h3, h4, h5, h6⟩ := solo_after (hfine i) (sched.count i) .zero
  rw [h1]
  refine ⟨k, m', ?_, h5, fun hp => ?_⟩
  · rw [show (solo conv (prog i) (sched.count i) (m, atStart i)).2.log = log from h4]; exact h3
  · rw [← h6 hp]; exact h2

/-- C61. Every thread gets on: after enough steps of its own, however many steps of others are in between, it has seen
what it sees after `k` actions alone. -/
theorem C61_progress (hF : Apart F) (hprog : ∀ i log a, prog i log = some a → a.Within (F i)) {i : Nat}
    (hfine : Fine conv (prog i) m) {k : Nat} {m' : Mem} {log : List Seen} (h : After conv (prog i) m k m' log) :
    ∃ n, ∀ sched : List Nat, n ≤ sched.count i → log <+: ((runAll conv prog sched m atStart).2 i).log := by
  obtain ⟨n, hn⟩ := solo_reach hfine h
  refine ⟨n, fun sched hs => ?_⟩
  obtain ⟨h1, _⟩ := run_solo (conv := conv) hF hprog sched (m := m) (start_fits F) i
  obtain ⟨l, hl⟩ : ∃ l, sched.count i = n + l := ⟨sched.count i - n, by omega⟩
  rw [h1, hl, solo_add, show atStart i = ⟨.idle, []⟩ from rfl, hn]
  obtain ⟨_, _, log', h2, _, h4, _⟩ := solo_after hfine l h
  rw [h4]
  exact h2

/-- C61. When the program of a thread is over, the thread has seen, and its memory and its descriptors are, exactly what
they are when it runs alone; this happens after enough steps of its own. -/
theorem C61_finished (hF : Apart F) (hprog : ∀ i log a, prog i log = some a → a.Within (F i)) {i : Nat}
    (hfine : Fine conv (prog i) m) {k : Nat} {m' : Mem} {log : List Seen} (h : After conv (prog i) m k m' log)
    (hover : prog i log = none) :
    ∃ n, ∀ sched : List Nat, n ≤ sched.count i →
      (runAll conv prog sched m atStart).2 i = ⟨.idle, log⟩ ∧ Agree (F i) m' (runAll conv prog sched m atStart).1 := by
  obtain ⟨n, hn⟩ := solo_reach hfine h
  refine ⟨n, fun sched hs => ?_⟩
  obtain ⟨h1, h2⟩ := run_solo (conv := conv) hF hprog sched (m := m) (start_fits F) i
  obtain ⟨l, hl⟩ : ∃ l, sched.count i = n + l := ⟨sched.count i - n, by omega⟩
  rw [hl, solo_add, show atStart i = ⟨.idle, []⟩ from rfl, hn, solo_over hover] at h1 h2
  exact ⟨h1, h2⟩

/-- C61. The memory that no thread may write, and the descriptors that no thread uses, are never changed. -/
theorem C61_untouched (hprog : ∀ i log a, prog i log = some a → a.Within (F i)) (sched : List Nat) :
    (∀ a, (∀ i, ¬ (F i).wr a) → (runAll conv prog sched m atStart).1.byte a = m.byte a) ∧
    ∀ h, (∀ i, ¬ (F i).ds h) → (runAll conv prog sched m atStart).1.desc h = m.desc h :=
  run_only hprog sched (start_fits F)

/-- C61. The hypothesis `Fine` of the theorems above, for descriptors of two registered encodings, in any state they can
be in: the output of a call must not overlap its input, and a call without input must have room for a byte. -/
theorem C61_registered {prog : Prog} {F : Area}
    (hconv : ∀ h, F.ds h → ∃ (A B : Entry) (discard : Bool), conv h = A.conv B discard)
    (hdesc : ∀ h, F.ds h → Reach (conv h) (m.desc h))
    (hprog : ∀ log a, prog log = some a → a.Within F ∧ a.Clear ∧ ∀ h p n, a = .reset h (some (p, n)) → 1 ≤ n) :
    Fine conv prog m := by
  intro k m1 log a h hp
  have hr := h.reach hdesc (fun log a h => (hprog log a h).1)
  obtain ⟨hw, hc, hn⟩ := hprog log a hp
  refine ⟨hc, ?_⟩
  cases a with
  | call j =>
    obtain ⟨A, B, d, hAB⟩ := hconv _ hw.1
    have h1 := hr _ hw.1
    rw [hAB] at h1
    obtain ⟨r, h2⟩ := C01_convert_safe_partial A B d _ h1 (m1.read j.inptr j.inleft) (m1.read j.outptr j.outleft)
    exact ⟨_, by simp only [Act.alone, hAB, h2, Outcome.bind_ok]; rfl⟩
  | reset h out =>
    cases out with
    | none => exact ⟨_, rfl⟩
    | some q =>
      obtain ⟨p, n⟩ := q
      obtain ⟨A, B, d, hAB⟩ := hconv _ hw.1
      have h1 := hr _ hw.1
      rw [hAB] at h1
      obtain ⟨hI, hO⟩ := Entry.inv A B h1
      obtain ⟨r, h2⟩ := reset_safe (c := A.conv B d) A.decOK B.encOK _ ⟨false, [], m1.read p n⟩ hI hO rfl
        (Or.inl (by
          have := hn _ _ _ rfl
          have := B.encOK.minRoom_le
          simp only [Mem.length_read]
          omega))
      have h3 : iconv (conv h) (m1.desc h) none (some ⟨false, [], m1.read p n⟩) = .ok r := by rw [hAB]; exact h2
      exact ⟨_, by simp only [Act.alone, resetAt, h3, Outcome.bind_ok]; rfl⟩
  | store p bs => exact ⟨_, rfl⟩
  | load p n => exact ⟨_, rfl⟩

/-! ## Examples -/

/-- Any number of threads, all reading "éAB" in UTF-8 from the same place; thread `i` writes it in UTF-16BE behind the
address `100 * (i + 1)` and finishes the conversion. -/
def demoProg (i : Nat) : Prog
  | [] => some (.call ⟨i, 0, 4, 100 * (i + 1), 20⟩)
  | [_] => some (.reset i (some (100 * (i + 1) + 50, 10)))
  | _ => none

def demoConv : Nat → Conv := fun _ => utf8_entry.conv utf16be_entry false
def demoMem : Mem := ⟨fun a => ([0xC3, 0xA9, 0x41, 0x42][a]?).getD 0, fun _ => St.init⟩
def demoArea (i : Nat) : Area := ⟨fun a => a < 4, fun a => 100 * (i + 1) ≤ a ∧ a < 100 * (i + 1) + 100, fun h => h = i⟩

theorem demo_prog : ∀ i log a, demoProg i log = some a →
    a.Within (demoArea i) ∧ a.Clear ∧ ∀ h p n, a = .reset h (some (p, n)) → 1 ≤ n := by
  intro i log a h
  rcases log with _ | ⟨x, _ | ⟨y, log⟩⟩
  · cases h
    refine ⟨⟨rfl, fun a ha => Or.inl ?_, fun a ha => ?_⟩, fun a ha hb => ?_, by simp⟩ <;>
      simp only [In, demoArea] at * <;> omega
  · cases h
    refine ⟨⟨rfl, fun a ha => ?_⟩, trivial, ?_⟩
    · simp only [In, demoArea] at *; omega
    · intro h p n hh; cases hh; omega
  · cases h

theorem demo_apart : Apart demoArea := by
  intro i j hij
  refine ⟨fun a ha => ?_, fun h hi hj => hij (hi.symm.trans hj)⟩
  simp only [demoArea] at *
  omega

theorem demo_fine (i : Nat) : Fine demoConv (demoProg i) demoMem :=
  C61_registered (F := demoArea i) (fun _ _ => ⟨_, _, _, rfl⟩) (fun _ _ => Reach.init _) (demo_prog i)

/-- In whatever order the threads run, thread 1 ends with "éAB" in UTF-16BE in its memory. -/
example : ∃ n, ∀ sched : List Nat, n ≤ sched.count 1 →
    (runAll demoConv demoProg sched demoMem atStart).2 1 =
      ⟨.idle, [.called (.ok 0) ⟨1, 4, 0, 206, 14⟩, .reset (.ok 0) (some (250, 10))]⟩ ∧
    (runAll demoConv demoProg sched demoMem atStart).1.read 200 6 = [0x00, 0xE9, 0x00, 0x41, 0x00, 0x42] := by
  have h : After demoConv (demoProg 1) demoMem 2 _
      [.called (.ok 0) ⟨1, 4, 0, 206, 14⟩, .reset (.ok 0) (some (250, 10))] := .succ (.succ .zero rfl rfl) rfl rfl
  obtain ⟨n, hn⟩ := C61_finished demo_apart (fun i log a h => (demo_prog i log a h).1) (demo_fine 1) h rfl
  refine ⟨n, fun sched hs => ⟨(hn sched hs).1, ?_⟩⟩
  rw [← (hn sched hs).2.read]
  · decide
  · intro a ha
    simp only [In, demoArea] at *
    omega

/-- The hypothesis that the output of a call does not overlap its input is needed: conversion of "éé" from ISO-8859-1 to
UTF-8 in place reads what it has written, and is not the conversion of the input. -/
theorem C61_overlap :
    let m : Mem := ⟨fun a => if a < 2 then 0xE9 else 0, fun _ => St.init⟩
    let prog : Nat → Prog := fun _ log => if log.isEmpty then some (.call ⟨0, 0, 2, 0, 4⟩) else none
    let conv : Nat → Conv := fun _ => iso8859_1_entry.conv utf8_entry false
    (runAll conv prog (List.replicate 7 0) m atStart).1.read 0 4 = [0xC3, 0xA9, 0xC2, 0xA9] ∧
    ∃ x m', (Act.call ⟨0, 0, 2, 0, 4⟩).alone conv m = .ok (x, m') ∧ m'.read 0 4 = [0xC3, 0xA9, 0xC3, 0xA9] := by
  refine ⟨by decide +kernel, _, _, rfl, by decide +kernel⟩

/-- The hypothesis that the threads do not use the same descriptor is needed: two threads convert "+AOkA6Q-" ("éé") and
"AB" from UTF-7 with the same descriptor. Whoever comes first, one after the other they succeed; but if the second thread
runs when the first one is between its two characters, it gets an error. -/
theorem C61_shared_descriptor :
    let m : Mem := ⟨fun a => ([0x2B, 0x41, 0x4F, 0x6B, 0x41, 0x36, 0x51, 0x2D, 0x41, 0x42][a]?).getD 0, fun _ => St.init⟩
    let prog : Nat → Prog := fun i log =>
      if log.isEmpty then some (.call (if i = 0 then ⟨0, 0, 8, 100, 50⟩ else ⟨0, 8, 2, 200, 50⟩)) else none
    let conv : Nat → Conv := fun _ => utf7_entry.conv utf8_entry false
    let ret : Thread → Option (Except Errno Nat) := fun t => match t.log with
      | [.called r _] => some r
      | _ => none
    let run := fun sched => (runAll conv prog sched m atStart).2
    (∀ i ∈ [0, 1], (ret (run (List.replicate 9 0 ++ List.replicate 9 1) i)).map (·.toOption) = some (some 0)) ∧
    (∀ i ∈ [0, 1], (ret (run (List.replicate 9 1 ++ List.replicate 9 0) i)).map (·.toOption) = some (some 0)) ∧
    (ret (run (List.replicate 3 0 ++ List.replicate 9 1) 1)).map (·.toOption) = some none := by
  refine ⟨by decide +kernel, by decide +kernel, by decide +kernel⟩

end Reiconv
