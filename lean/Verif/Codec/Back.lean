import Verif.Codec.TableCheck
import Verif.Codec.Tw
import Verif.Codec.Unroll

/-!
# Character sets: what is written can be read

For a two-byte character set: the two bytes written for a character are read as this character. Checked
by evaluation for the characters in the ranges of the encoding function.
-/

namespace Reiconv

/-- The bytes written for a character are read as this character. -/
def Back (m : M MbRet) (w : Nat → W) : Prop :=
  ∀ wc (a b : Byte), (w wc).run 0 2 = .ok (.put [a, b] 0) → m.run [a, b] = .ok (some (.char wc 2))

/-- All characters `lo, …, lo + n - 1`. -/
noncomputable def backF (enc : Nat → Nat) (dec : Nat → Nat) (lo n : Nat) : Bool :=
  Nat.rec true (fun k ih => forceN (Nat.add lo k) fun wc =>
    Nat.rec ih (fun c _ => cond (Nat.beq (dec c) (Nat.succ wc)) ih false)
      (enc wc)) n

/-- The same in blocks of 256. -/
noncomputable def backB (enc : Nat → Nat) (dec : Nat → Nat) (lo n : Nat) : Bool :=
  Nat.rec true (fun k ih => cond (backF enc dec (Nat.add lo (Nat.mul 256 k)) 256) ih false) n

/-- All characters in the ranges of the encoding function. -/
noncomputable def backAll (enc : Nat → Nat) (dec : Nat → Nat) (segs : List CSeg) : Bool :=
  List.rec true (fun s _ ih =>
    cond (backB enc dec s.lo (Nat.div (Nat.add (Nat.sub s.hi s.lo) 255) 256)) ih false) segs

theorem backF_sound {enc : Nat → Nat} {dec : Nat → Nat} {lo : Nat} : ∀ {n : Nat},
    backF enc dec lo n = true → ∀ wc c, lo ≤ wc → wc < lo + n → enc wc = c + 1 →
      dec c = wc + 1 := by
  intro n
  induction n with
  | zero => intro _ wc c h1 h2; omega
  | succ n ih =>
    intro h wc c h1 h2 he
    have e : backF enc dec lo (n + 1) = forceN (Nat.add lo n) fun wc =>
      Nat.rec (backF enc dec lo n) (fun c _ => cond (Nat.beq (dec c) (Nat.succ wc)) (backF enc dec lo n) false)
      (enc wc) := rfl
    rw [e, forceN_eq] at h
    by_cases hw : wc = lo + n
    · subst hw
      have he' : enc (Nat.add lo n) = Nat.succ c := he
      rw [he'] at h
      simp only [cond_eq_true] at h
      exact Nat.eq_of_beq_eq_true h.1
    · refine ih ?_ wc c h1 (by omega) he
      cases hc : enc (Nat.add lo n) with
      | zero => rw [hc] at h; exact h
      | succ x =>
        rw [hc] at h
        simp only [cond_eq_true] at h
        exact h.2

theorem backB_sound {enc : Nat → Nat} {dec : Nat → Nat} {lo : Nat} : ∀ {n : Nat},
    backB enc dec lo n = true → ∀ wc c, lo ≤ wc → wc < lo + 256 * n → enc wc = c + 1 →
      dec c = wc + 1 := by
  intro n
  induction n with
  | zero => intro _ wc c h1 h2; omega
  | succ n ih =>
    intro h wc c h1 h2 he
    have e : backB enc dec lo (n + 1) = cond (backF enc dec (Nat.add lo (Nat.mul 256 n)) 256) (backB enc dec lo n) false := rfl
    rw [e, cond_eq_true, nat_mul_eq, nat_add_eq] at h
    by_cases hw : wc < lo + 256 * n
    · exact ih h.2 wc c h1 hw he
    · have hx : lo + 256 * n ≤ wc ∧ wc < lo + 256 * n + 256 := by clear h e; omega
      exact backF_sound h.1 wc c hx.1 hx.2 he

theorem backAll_sound {enc : Nat → Nat} {dec : Nat → Nat} : ∀ {segs : List CSeg},
    backAll enc dec segs = true → ∀ s ∈ segs, ∀ wc c, s.lo ≤ wc → wc < s.hi → enc wc = c + 1 →
      dec c = wc + 1 := by
  intro segs
  induction segs with
  | nil => intro _ s hs; cases hs
  | cons t segs ih =>
    intro h s hs wc c h1 h2 he
    have e : backAll enc dec (t :: segs) = cond (backB enc dec t.lo (Nat.div (Nat.add (Nat.sub t.hi t.lo) 255) 256)) (backAll enc dec segs) false := rfl
    rw [e, cond_eq_true, nat_add_eq, show ∀ a b, Nat.sub a b = a - b from fun _ _ => rfl, show ∀ a b, Nat.div a b = a / b from fun _ _ => rfl] at h
    rcases List.mem_cons.1 hs with rfl | hs
    · exact backB_sound h.1 wc c h1 (by omega) he
    · exact ih h.2 s hs wc c h1 h2 he

theorem backAll_append {enc : Nat → Nat} {dec : Nat → Nat} {b : List CSeg} (hb : backAll enc dec b = true) :
    ∀ {a : List CSeg}, backAll enc dec a = true → backAll enc dec (a ++ b) = true := by
  intro a
  induction a with
  | nil => intro _; exact hb
  | cons s a ih =>
    intro h
    have e : ∀ l, backAll enc dec (s :: l) = cond (backB enc dec s.lo (Nat.div (Nat.add (Nat.sub s.hi s.lo) 255) 256)) (backAll enc dec l) false := fun _ => rfl
    rw [e, cond_eq_true] at h
    rw [List.cons_append, e, cond_eq_true]
    exact ⟨h.1, ih h.2⟩

theorem csegF_seg (k : Codes) : ∀ (l : List CSeg) (wc c : Nat), csegF k l wc = c + 1 →
    ∃ s ∈ l, s.lo ≤ wc ∧ wc < s.hi := by
  intro l wc c h
  refine Classical.byContradiction fun hn => ?_
  have : csegF k l wc = 0 := by
    apply csegF_outside
    intro s hs
    refine Classical.byContradiction fun h' => hn ⟨s, hs, ?_⟩
    omega
  omega

/-- The character for the code of two bytes. -/
noncomputable def decTwo (dec : Nat → Nat → Nat) (c : Nat) : Nat :=
  dec (Nat.mod (Nat.shiftRight c 8) 256) (Nat.mod (Nat.land c 255) 256)

theorem Back.of_check {d : CsDec} {e : CsEnc} {encU : Nat → Nat} {decU : Nat → Nat → Nat}
    (hd : d.safeF = true) (he : e.safeF = true) (h1 : ∀ wc, e.encF wc = encU wc) (h2 : ∀ a b, d.decF a b = decU a b)
    (h : backAll encU (decTwo decU) e.segs = true) : Back d.mbtowc e.wctomb := by
  intro wc a b hr
  rw [e.wctomb_eq he] at hr
  unfold CsEnc.code at hr
  cases hc : e.encF wc with
  | zero => rw [hc] at hr; cases hr
  | succ c =>
    rw [hc] at hr
    obtain ⟨s, hs, hs1, hs2⟩ := csegF_seg e.codes e.segs wc c hc
    have hb := backAll_sound h s hs wc c hs1 hs2 ((h1 wc).symm.trans hc)
    have hb : decU (c >>> 8 % 256) ((c &&& 255) % 256) = wc + 1 := hb
    have hr : Outcome.ok (WcRes.put [u8 (c >>> 8), u8 (c &&& 0xff)] 0) = Outcome.ok (WcRes.put [a, b] 0) := hr
    simp only [WcRes.put, Outcome.ok.injEq, WcRes.mk.injEq, List.cons.injEq, and_true] at hr
    obtain ⟨rfl, rfl⟩ := hr.2
    rw [d.run_fast hd, u8_toNat, u8_toNat]
    unfold CsDec.ch
    rw [h2, hb]
    rfl

/-- The three bytes written for a character are the number of a plane and two bytes that are read as this
character in the plane. -/
def Back3 (m : Nat → M MbRet) (w : Nat → W) : Prop :=
  ∀ wc (p a b : Byte), (w wc).run 0 3 = .ok (.put [p, a, b] 0) →
    (m p.toNat).run [a, b] = .ok (some (.char wc 2))

theorem Back3.of_check {m : Nat → M MbRet} {e : CsEnc} {encU : Nat → Nat} {dec : Nat → Nat}
    (he : e.safeF = true) (h1 : ∀ wc, e.encF wc = encU wc)
    (h2 : ∀ wc c, dec c = wc + 1 → (m (c >>> 16 % 256)).run [u8 (c >>> 8 &&& 255), u8 (c &&& 255)] = .ok (some (.char wc 2)))
    (h : backAll encU dec e.segs = true) : Back3 m e.wctomb3 := by
  intro wc p a b hr
  rw [e.wctomb3_eq he] at hr
  unfold CsEnc.code at hr
  cases hc : e.encF wc with
  | zero => rw [hc] at hr; cases hr
  | succ c =>
    rw [hc] at hr
    obtain ⟨s, hs, hs1, hs2⟩ := csegF_seg e.codes e.segs wc c hc
    have hb := backAll_sound h s hs wc c hs1 hs2 ((h1 wc).symm.trans hc)
    have hr : Outcome.ok (WcRes.put [u8 (c >>> 16), u8 (c >>> 8 &&& 0xff), u8 (c &&& 0xff)] 0) = Outcome.ok (WcRes.put [p, a, b] 0) := hr
    simp only [WcRes.put, Outcome.ok.injEq, WcRes.mk.injEq, List.cons.injEq, and_true] at hr
    obtain ⟨rfl, rfl, rfl⟩ := hr.2
    rw [u8_toNat]
    exact h2 wc c hb

end Reiconv
