import Verif.Codec.Unroll
import Verif.Gen.CsTw

/-! Generated by `tools/genun.py`: the lookups of `Gen/CsTw.lean` written out as nested tests. -/

namespace Reiconv

noncomputable def cns11643_1_decU : {f : Nat → Nat → Nat // (fun a b => cns11643_1_dec.decF a b) = f} := by
  refine ⟨?m, ?h⟩
  case h => conv => lhs; unroll [CsDec.decS_eq (show cns11643_1_dec.sorted = true by decide)]; unroll [cns11643_1_dec]

theorem cns11643_1_decU_eq (a b : Nat) : cns11643_1_dec.decF a b = cns11643_1_decU.val a b :=
  congrFun (congrFun cns11643_1_decU.property a) b

noncomputable def cns11643_1_decP : {f // cns11643_1_dec.mbtowc = f} := by
  refine ⟨?m, ?h⟩
  case h => conv => lhs; unroll [CsDec.fastS_eq cns11643_1_dec_safe (show cns11643_1_dec.sorted = true by decide)]; unroll [cns11643_1_dec]

noncomputable def cns11643_2_decU : {f : Nat → Nat → Nat // (fun a b => cns11643_2_dec.decF a b) = f} := by
  refine ⟨?m, ?h⟩
  case h => conv => lhs; unroll [CsDec.decS_eq (show cns11643_2_dec.sorted = true by decide)]; unroll [cns11643_2_dec]

theorem cns11643_2_decU_eq (a b : Nat) : cns11643_2_dec.decF a b = cns11643_2_decU.val a b :=
  congrFun (congrFun cns11643_2_decU.property a) b

noncomputable def cns11643_2_decP : {f // cns11643_2_dec.mbtowc = f} := by
  refine ⟨?m, ?h⟩
  case h => conv => lhs; unroll [CsDec.fastS_eq cns11643_2_dec_safe (show cns11643_2_dec.sorted = true by decide)]; unroll [cns11643_2_dec]

noncomputable def cns11643_3_decU : {f : Nat → Nat → Nat // (fun a b => cns11643_3_dec.decF a b) = f} := by
  refine ⟨?m, ?h⟩
  case h => conv => lhs; unroll [CsDec.decS_eq (show cns11643_3_dec.sorted = true by decide)]; unroll [cns11643_3_dec]

theorem cns11643_3_decU_eq (a b : Nat) : cns11643_3_dec.decF a b = cns11643_3_decU.val a b :=
  congrFun (congrFun cns11643_3_decU.property a) b

noncomputable def cns11643_3_decP : {f // cns11643_3_dec.mbtowc = f} := by
  refine ⟨?m, ?h⟩
  case h => conv => lhs; unroll [CsDec.fastS_eq cns11643_3_dec_safe (show cns11643_3_dec.sorted = true by decide)]; unroll [cns11643_3_dec]

noncomputable def cns11643_4_decU : {f : Nat → Nat → Nat // (fun a b => cns11643_4_dec.decF a b) = f} := by
  refine ⟨?m, ?h⟩
  case h => conv => lhs; unroll [CsDec.decS_eq (show cns11643_4_dec.sorted = true by decide)]; unroll [cns11643_4_dec]

theorem cns11643_4_decU_eq (a b : Nat) : cns11643_4_dec.decF a b = cns11643_4_decU.val a b :=
  congrFun (congrFun cns11643_4_decU.property a) b

noncomputable def cns11643_4_decP : {f // cns11643_4_dec.mbtowc = f} := by
  refine ⟨?m, ?h⟩
  case h => conv => lhs; unroll [CsDec.fastS_eq cns11643_4_dec_safe (show cns11643_4_dec.sorted = true by decide)]; unroll [cns11643_4_dec]

noncomputable def cns11643_5_decU : {f : Nat → Nat → Nat // (fun a b => cns11643_5_dec.decF a b) = f} := by
  refine ⟨?m, ?h⟩
  case h => conv => lhs; unroll [CsDec.decS_eq (show cns11643_5_dec.sorted = true by decide)]; unroll [cns11643_5_dec]

theorem cns11643_5_decU_eq (a b : Nat) : cns11643_5_dec.decF a b = cns11643_5_decU.val a b :=
  congrFun (congrFun cns11643_5_decU.property a) b

noncomputable def cns11643_5_decP : {f // cns11643_5_dec.mbtowc = f} := by
  refine ⟨?m, ?h⟩
  case h => conv => lhs; unroll [CsDec.fastS_eq cns11643_5_dec_safe (show cns11643_5_dec.sorted = true by decide)]; unroll [cns11643_5_dec]

noncomputable def cns11643_6_decU : {f : Nat → Nat → Nat // (fun a b => cns11643_6_dec.decF a b) = f} := by
  refine ⟨?m, ?h⟩
  case h => conv => lhs; unroll [CsDec.decS_eq (show cns11643_6_dec.sorted = true by decide)]; unroll [cns11643_6_dec]

theorem cns11643_6_decU_eq (a b : Nat) : cns11643_6_dec.decF a b = cns11643_6_decU.val a b :=
  congrFun (congrFun cns11643_6_decU.property a) b

noncomputable def cns11643_6_decP : {f // cns11643_6_dec.mbtowc = f} := by
  refine ⟨?m, ?h⟩
  case h => conv => lhs; unroll [CsDec.fastS_eq cns11643_6_dec_safe (show cns11643_6_dec.sorted = true by decide)]; unroll [cns11643_6_dec]

noncomputable def cns11643_7_decU : {f : Nat → Nat → Nat // (fun a b => cns11643_7_dec.decF a b) = f} := by
  refine ⟨?m, ?h⟩
  case h => conv => lhs; unroll [CsDec.decS_eq (show cns11643_7_dec.sorted = true by decide)]; unroll [cns11643_7_dec]

theorem cns11643_7_decU_eq (a b : Nat) : cns11643_7_dec.decF a b = cns11643_7_decU.val a b :=
  congrFun (congrFun cns11643_7_decU.property a) b

noncomputable def cns11643_7_decP : {f // cns11643_7_dec.mbtowc = f} := by
  refine ⟨?m, ?h⟩
  case h => conv => lhs; unroll [CsDec.fastS_eq cns11643_7_dec_safe (show cns11643_7_dec.sorted = true by decide)]; unroll [cns11643_7_dec]

noncomputable def cns11643_15_decU : {f : Nat → Nat → Nat // (fun a b => cns11643_15_dec.decF a b) = f} := by
  refine ⟨?m, ?h⟩
  case h => conv => lhs; unroll [CsDec.decS_eq (show cns11643_15_dec.sorted = true by decide)]; unroll [cns11643_15_dec]

theorem cns11643_15_decU_eq (a b : Nat) : cns11643_15_dec.decF a b = cns11643_15_decU.val a b :=
  congrFun (congrFun cns11643_15_decU.property a) b

noncomputable def cns11643_15_decP : {f // cns11643_15_dec.mbtowc = f} := by
  refine ⟨?m, ?h⟩
  case h => conv => lhs; unroll [CsDec.fastS_eq cns11643_15_dec_safe (show cns11643_15_dec.sorted = true by decide)]; unroll [cns11643_15_dec]

noncomputable def cns11643_inv_encU : {f : Nat → Nat // (fun a => cns11643_inv_enc.encF a) = f} := by
  refine ⟨?m, ?h⟩
  case h => conv => lhs; unroll [CsEnc.encS_eq (show cns11643_inv_enc.sorted = true by decide)]; unroll [cns11643_inv_enc]

theorem cns11643_inv_encU_eq (a : Nat) : cns11643_inv_enc.encF a = cns11643_inv_encU.val a := congrFun cns11643_inv_encU.property a

end Reiconv
