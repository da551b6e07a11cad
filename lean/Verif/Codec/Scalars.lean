import Verif.Codec.Utf8
import Verif.Codec.Kr
import Verif.Codec.Jp
import Verif.Codec.Cn
import Verif.Codec.Big5
import Verif.Codec.Tw
import Verif.Codec.Cset
import Verif.Codec.Hkscs
import Verif.Codec.Jisx0213
import Verif.Codec.Hz
import Verif.Codec.CnExt
import Verif.Codec.Jp2
import Verif.Codec.Jp3
import Verif.Codec.Jpms

/-!
# What characters the decoder programs give

A rule for everything a decoder program may return, and a proof that the programs of the table-driven
encodings return Unicode scalar values only.
-/

namespace Reiconv

namespace M

variable {α β : Type}

/-- Whatever the program returns satisfies `P`. -/
def Gives (P : α → Prop) : M α → Prop
  | ret a => P a
  | ub => True
  | abort => True
  | need _ t => Gives P t
  | byte _ f => ∀ b, b < 256 → Gives P (f b)

theorem gives_run {P : α → Prop} : ∀ (m : M α) (s : List Byte) (a : α), Gives P m → m.run s = .ok (some a) → P a := by
  intro m
  induction m with
  | ret a => intro s b h hr; cases hr; exact h
  | ub => intro s b h hr; cases hr
  | abort => intro s b h hr; cases hr
  | need j t ih =>
    intro s b h hr
    simp only [run] at hr
    split at hr
    · exact ih s b h hr
    · cases hr
  | byte i f ih =>
    intro s b h hr
    simp only [run] at hr
    split at hr
    · exact ih _ s b (h _ (UInt8.toNat_lt _)) hr
    · cases hr

theorem gives_ret {P : α → Prop} {a : α} (h : P a) : Gives P (.ret a) := h
theorem gives_abort {P : α → Prop} : Gives P (.abort : M α) := trivial
theorem gives_ub {P : α → Prop} : Gives P (.ub : M α) := trivial
theorem gives_need {P : α → Prop} {j : Nat} {t : M α} (h : Gives P t) : Gives P (.need j t) := h
theorem gives_byte {P : α → Prop} {i : Nat} {f : Nat → M α} (h : ∀ b, b < 256 → Gives P (f b)) :
    Gives P (.byte i f) := h
theorem gives_ite {P : α → Prop} {c : Prop} [Decidable c] {a b : M α} (h1 : c → Gives P a)
    (h2 : ¬ c → Gives P b) : Gives P (if c then a else b) := by
  split
  · next h => exact h1 h
  · next h => exact h2 h

theorem gives_andThen {P : α → Prop} {Q : β → Prop} {f : α → M β} : ∀ (m : M α), Gives P m →
    (∀ a, P a → Gives Q (f a)) → Gives Q (m.andThen f) := by
  intro m
  induction m with
  | ret a => intro h hf; exact hf a h
  | ub => intro _ _; trivial
  | abort => intro _ _; trivial
  | need j t ih => intro h hf; exact ih h hf
  | byte i g ih => intro h hf b hb; exact ih b (h b hb) hf

/-- A result whose character, if any, is a scalar value. -/
def RetS : MbRet → Prop
  | .char wc _ => Scalar wc
  | _ => True

theorem RetS.wc {r : MbRet} (h : RetS r) : Scalar r.wc := by
  cases r with
  | char wc n => exact h
  | ilseq k => exact .inl (by show 0 < 0xd800; omega)
  | toofew k => exact .inl (by show 0 < 0xd800; omega)

theorem retS_char {wc n : Nat} (h : Scalar wc) : RetS (.char wc n) := h
theorem retS_wc {r : MbRet} {n : Nat} (h : RetS r) : RetS (.char r.wc n) := h.wc
theorem retS_ilseq {k : Nat} : RetS (.ilseq k) := trivial

theorem gives_on {Q : β → Prop} {m : M MbRet} {buf : List Nat} {f : MbRet → M β} (h : Gives RetS m)
    (hf : ∀ r, RetS r → Gives Q (f r)) : Gives Q (m.on buf f) := by
  unfold on
  split
  · next r hr => exact hf r (gives_run m _ r h hr)
  · exact hf _ trivial
  · trivial
  · trivial
  · trivial

/-- An item whose character, if any, is a scalar value, and whose state satisfies `J`. -/
def ItemS (J : Nat → Prop) : SItem → Prop
  | .char wc _ st => Scalar wc ∧ J st
  | .shift _ st => J st
  | .ilseq => True

theorem itemS_char {J : Nat → Prop} {wc n st : Nat} (h : Scalar wc) (hJ : J st) : ItemS J (.char wc n st) := ⟨h, hJ⟩
theorem itemS_shift {J : Nat → Prop} {n st : Nat} (hJ : J st) : ItemS J (.shift n st) := hJ
theorem itemS_ilseq {J : Nat → Prop} : ItemS J .ilseq := trivial

theorem gives_sOne {J : Nat → Prop} {m : M MbRet} {b : Nat} {f : Nat → M SItem} (h : Gives RetS m)
    (hf : ∀ wc, Scalar wc → Gives (ItemS J) (f wc)) : Gives (ItemS J) (sOne m b f) := by
  unfold sOne
  refine gives_on h fun r hr => gives_ite (fun _ => trivial) fun _ => gives_ite (fun _ => trivial) fun _ => hf _ hr.wc

theorem gives_sTwo {J : Nat → Prop} {m : M MbRet} {b1 b2 : Nat} {f : Nat → M SItem} (h : Gives RetS m)
    (hf : ∀ wc, Scalar wc → Gives (ItemS J) (f wc)) : Gives (ItemS J) (sTwo m b1 b2 f) := by
  unfold sTwo
  refine gives_on h fun r hr => gives_ite (fun _ => trivial) fun _ => gives_ite (fun _ => trivial) fun _ => hf _ hr.wc

theorem gives_sPair {J : Nat → Prop} {m : M MbRet} {st : Nat} (h : Gives RetS m) (hJ : J st) :
    Gives (ItemS J) (sPair m st) := by
  unfold sPair
  exact fun c1 _ c2 _ => gives_ite (fun _ => gives_sTwo h fun wc hs => ⟨hs, hJ⟩) fun _ => trivial

end M

theorem scalar_of {wc : Nat} (h : wc < 0xd800 ∨ (0xe000 ≤ wc ∧ wc < 0x110000)) : Scalar wc := h

/-! ## Tables -/

/-- `n` is not a surrogate and not above U+10FFFF. -/
noncomputable def scalF (n : Nat) : Bool :=
  cond (Nat.ble (Nat.succ n) 0xd800) true (cond (Nat.ble 0xe000 n) (Nat.ble (Nat.succ n) 0x110000) false)

theorem scalF_iff {n : Nat} : scalF n = true ↔ Scalar n := by
  unfold scalF Scalar
  cases h1 : Nat.ble (Nat.succ n) 0xd800 <;> cases h2 : Nat.ble 0xe000 n <;>
    simp only [← Bool.not_eq_true, Nat.ble_eq, cond_true, cond_false] at h1 h2 ⊢ <;>
    (try simp only [Bool.false_eq_true, false_iff, true_iff]) <;> omega

/-- The same of a code `n + 1`, where 0 means that there is no character. -/
noncomputable def scalC (c : Nat) : Bool := Nat.rec true (fun n _ => scalF n) c

theorem scalC_some {c wc : Nat} (h : scalC c = true) (hc : ofCode c = some wc) : Scalar wc := by
  cases c with
  | zero => cases hc
  | succ n => cases hc; exact scalF_iff.1 h

noncomputable def Seg.scalF (r : Seg) : Bool := allF (fun i => scalC (r.evalF i)) r.lo (Nat.sub r.hi r.lo)

noncomputable def segsScal (l : List Seg) : Bool := List.rec true (fun r _ ih => cond r.scalF ih false) l

theorem segsScal_sound : ∀ (l : List Seg), segsScal l = true → ∀ i, scalC (segF l i) = true := by
  intro l
  induction l with
  | nil => intro _ _; rfl
  | cons r l ih =>
    intro h i
    have h := cond_eq_true.1 h
    rw [segF_cons]
    split
    · next hc =>
      have h1 : allF (fun i => scalC (r.evalF i)) r.lo (r.hi - r.lo) = true := h.1
      rw [allF_iff] at h1
      exact h1 i hc.1 (by omega)
    · exact ih h.2 i

theorem CsDec.gives {d : CsDec} (h : d.safeF = true) (hs : segsScal d.segs = true) : M.Gives M.RetS d.mbtowc := by
  unfold CsDec.mbtowc
  intro c1 _
  dsimp only
  split
  · trivial
  next r _ =>
    intro c2 _
    dsimp only
    split
    · trivial
    · next c _ =>
      rw [segFind_fast h]
      cases ho : ofCode (segF d.segs (d.stride * r + c)) with
      | none => trivial
      | some wc => exact scalC_some (segsScal_sound _ hs _) ho

/-- Every entry of the table satisfies `f`. -/
noncomputable def Tab.allV (t : Tab) (f : Nat → Bool) : Bool := allF (fun i => f (t.getF i)) 0 t.len

theorem Tab.gives_rdM {α : Type} {P : α → Prop} {t : Tab} {i : Nat} {f : Nat → M α} {q : Nat → Bool}
    (h : t.allV q = true) (hf : ∀ v, q v = true → M.Gives P (f v)) : M.Gives P (t.rdM i f) := by
  unfold Tab.rdM
  by_cases hi : i < t.len
  · rw [Tab.get_fast hi]
    unfold Tab.allV at h
    rw [allF_iff] at h
    exact hf _ (h i (Nat.zero_le _) (by omega))
  · have : t.get i = .ub := by unfold Tab.get; rw [if_neg hi]
    rw [this]; trivial

/-- Take a decoder program apart. Facts about the functions and tables it uses are taken from the context. -/
macro "gives" : tactic => `(tactic| set_option maxRecDepth 2000 in repeat' (with_reducible first
  | assumption
  | trivial
  | exact M.gives_abort
  | exact M.gives_ub
  | exact M.retS_ilseq
  | exact M.itemS_ilseq
  | refine M.gives_ret ?_
  | (refine M.retS_wc ?_; assumption)
  | refine M.retS_char ?_
  | refine M.itemS_char ?_ ?_
  | refine M.itemS_shift ?_
  | refine M.gives_byte ?_
  | refine M.gives_need ?_
  | refine M.gives_ite ?_ ?_
  | (refine Tab.gives_rdM (by assumption) ?_)
  | (refine M.gives_sPair (by assumption) ?_)
  | (refine M.gives_sTwo (by assumption) ?_)
  | (refine M.gives_sOne (by assumption) ?_)
  | (refine M.gives_on (by assumption) ?_)
  | (refine M.gives_andThen _ (by assumption) ?_)
  | intro _
  | (refine scalar_of ?_; (repeat' split) <;> omega)
  | dsimp only))

theorem ascii_gives : M.Gives M.RetS ascii_m := by unfold ascii_m; gives
theorem jisx0201_gives : M.Gives M.RetS jisx0201_m := by unfold jisx0201_m; gives
theorem iso646_cn_gives : M.Gives M.RetS iso646_cn_m := by unfold iso646_cn_m; gives
theorem iso8859_1_gives : M.Gives M.RetS iso8859_1_m := by unfold iso8859_1_m; gives


/-! ## The character sets -/

theorem ksc5601_scal : segsScal ksc5601_dec.segs = true := by decide +kernel
theorem uhc_1_scal : segsScal uhc_1_dec.segs = true := by decide +kernel
theorem uhc_2_scal : segsScal uhc_2_dec.segs = true := by decide +kernel
theorem jisx0208_scal : segsScal jisx0208_dec.segs = true := by decide +kernel
theorem jisx0212_scal : segsScal jisx0212_dec.segs = true := by decide +kernel
theorem cp932ext_scal : segsScal cp932ext_dec.segs = true := by decide +kernel
theorem gb2312_scal : segsScal gb2312_dec.segs = true := by decide +kernel
theorem gbkext1_scal : segsScal gbkext1_dec.segs = true := by decide +kernel
theorem gbkext2_scal : segsScal gbkext2_dec.segs = true := by decide +kernel
theorem cp936ext_scal : segsScal cp936ext_dec.segs = true := by decide +kernel
theorem isoir165ext_scal : segsScal isoir165ext_dec.segs = true := by decide +kernel
theorem gb18030_2005_ext_scal : segsScal gb18030_2005_ext_dec.segs = true := by decide +kernel
theorem gb18030_2022_ext_scal : segsScal gb18030_2022_ext_dec.segs = true := by decide +kernel
theorem big5_scal : segsScal big5_dec.segs = true := by decide +kernel
theorem cp950ext_scal : segsScal cp950ext_dec.segs = true := by decide +kernel
theorem hkscs1999_scal : segsScal hkscs1999_dec.segs = true := by decide +kernel
theorem hkscs2001_scal : segsScal hkscs2001_dec.segs = true := by decide +kernel
theorem hkscs2004_scal : segsScal hkscs2004_dec.segs = true := by decide +kernel
theorem hkscs2008_scal : segsScal hkscs2008_dec.segs = true := by decide +kernel
theorem cns11643_1_scal : segsScal cns11643_1_dec.segs = true := by decide +kernel
theorem cns11643_2_scal : segsScal cns11643_2_dec.segs = true := by decide +kernel
theorem cns11643_3_scal : segsScal cns11643_3_dec.segs = true := by decide +kernel
theorem cns11643_4_scal : segsScal cns11643_4_dec.segs = true := by decide +kernel
theorem cns11643_5_scal : segsScal cns11643_5_dec.segs = true := by decide +kernel
theorem cns11643_6_scal : segsScal cns11643_6_dec.segs = true := by decide +kernel
theorem cns11643_7_scal : segsScal cns11643_7_dec.segs = true := by decide +kernel
theorem cns11643_15_scal : segsScal cns11643_15_dec.segs = true := by decide +kernel

theorem ksc5601_gives : M.Gives M.RetS ksc5601_dec.mbtowc := CsDec.gives ksc5601_dec_safe ksc5601_scal
theorem uhc_1_gives : M.Gives M.RetS uhc_1_dec.mbtowc := CsDec.gives uhc_1_dec_safe uhc_1_scal
theorem uhc_2_gives : M.Gives M.RetS uhc_2_dec.mbtowc := CsDec.gives uhc_2_dec_safe uhc_2_scal
theorem jisx0208_gives : M.Gives M.RetS jisx0208_dec.mbtowc := CsDec.gives jisx0208_dec_safe jisx0208_scal
theorem jisx0212_gives : M.Gives M.RetS jisx0212_dec.mbtowc := CsDec.gives jisx0212_dec_safe jisx0212_scal
theorem cp932ext_gives : M.Gives M.RetS cp932ext_dec.mbtowc := CsDec.gives cp932ext_dec_safe cp932ext_scal
theorem gb2312_gives : M.Gives M.RetS gb2312_dec.mbtowc := CsDec.gives gb2312_dec_safe gb2312_scal
theorem gbkext1_gives : M.Gives M.RetS gbkext1_dec.mbtowc := CsDec.gives gbkext1_dec_safe gbkext1_scal
theorem gbkext2_gives : M.Gives M.RetS gbkext2_dec.mbtowc := CsDec.gives gbkext2_dec_safe gbkext2_scal
theorem cp936ext_gives : M.Gives M.RetS cp936ext_dec.mbtowc := CsDec.gives cp936ext_dec_safe cp936ext_scal
theorem isoir165ext_gives : M.Gives M.RetS isoir165ext_dec.mbtowc := CsDec.gives isoir165ext_dec_safe isoir165ext_scal
theorem gb18030_2005_ext_gives : M.Gives M.RetS gb18030_2005_ext_dec.mbtowc := CsDec.gives gb18030_2005_ext_dec_safe gb18030_2005_ext_scal
theorem gb18030_2022_ext_gives : M.Gives M.RetS gb18030_2022_ext_dec.mbtowc := CsDec.gives gb18030_2022_ext_dec_safe gb18030_2022_ext_scal
theorem big5_gives : M.Gives M.RetS big5_dec.mbtowc := CsDec.gives big5_dec_safe big5_scal
theorem cp950ext_gives : M.Gives M.RetS cp950ext_dec.mbtowc := CsDec.gives cp950ext_dec_safe cp950ext_scal
theorem hkscs1999_gives : M.Gives M.RetS hkscs1999_dec.mbtowc := CsDec.gives hkscs1999_dec_safe hkscs1999_scal
theorem hkscs2001_gives : M.Gives M.RetS hkscs2001_dec.mbtowc := CsDec.gives hkscs2001_dec_safe hkscs2001_scal
theorem hkscs2004_gives : M.Gives M.RetS hkscs2004_dec.mbtowc := CsDec.gives hkscs2004_dec_safe hkscs2004_scal
theorem hkscs2008_gives : M.Gives M.RetS hkscs2008_dec.mbtowc := CsDec.gives hkscs2008_dec_safe hkscs2008_scal
theorem cns11643_1_gives : M.Gives M.RetS cns11643_1_dec.mbtowc := CsDec.gives cns11643_1_dec_safe cns11643_1_scal
theorem cns11643_2_gives : M.Gives M.RetS cns11643_2_dec.mbtowc := CsDec.gives cns11643_2_dec_safe cns11643_2_scal
theorem cns11643_3_gives : M.Gives M.RetS cns11643_3_dec.mbtowc := CsDec.gives cns11643_3_dec_safe cns11643_3_scal
theorem cns11643_4_gives : M.Gives M.RetS cns11643_4_dec.mbtowc := CsDec.gives cns11643_4_dec_safe cns11643_4_scal
theorem cns11643_5_gives : M.Gives M.RetS cns11643_5_dec.mbtowc := CsDec.gives cns11643_5_dec_safe cns11643_5_scal
theorem cns11643_6_gives : M.Gives M.RetS cns11643_6_dec.mbtowc := CsDec.gives cns11643_6_dec_safe cns11643_6_scal
theorem cns11643_7_gives : M.Gives M.RetS cns11643_7_dec.mbtowc := CsDec.gives cns11643_7_dec_safe cns11643_7_scal
theorem cns11643_15_gives : M.Gives M.RetS cns11643_15_dec.mbtowc := CsDec.gives cns11643_15_dec_safe cns11643_15_scal

end Reiconv
