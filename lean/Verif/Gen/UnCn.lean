import Verif.Codec.Unroll
import Verif.Gen.CsCn

/-! Generated by `tools/genun.py`: the lookups of `Gen/CsCn.lean` written out as nested tests. -/

namespace Reiconv

noncomputable def gb2312_decU : {f : Nat → Nat → Nat // (fun a b => gb2312_dec.decF a b) = f} := by
  refine ⟨?m, ?h⟩
  case h => conv => lhs; unroll [CsDec.decS_eq (show gb2312_dec.sorted = true by decide)]; unroll [gb2312_dec]

theorem gb2312_decU_eq (a b : Nat) : gb2312_dec.decF a b = gb2312_decU.val a b :=
  congrFun (congrFun gb2312_decU.property a) b

noncomputable def gb2312_decP : {f // gb2312_dec.mbtowc = f} := by
  refine ⟨?m, ?h⟩
  case h => conv => lhs; unroll [CsDec.fastS_eq gb2312_dec_safe (show gb2312_dec.sorted = true by decide)]; unroll [gb2312_dec]

noncomputable def gbkext1_decU : {f : Nat → Nat → Nat // (fun a b => gbkext1_dec.decF a b) = f} := by
  refine ⟨?m, ?h⟩
  case h => conv => lhs; unroll [CsDec.decS_eq (show gbkext1_dec.sorted = true by decide)]; unroll [gbkext1_dec]

theorem gbkext1_decU_eq (a b : Nat) : gbkext1_dec.decF a b = gbkext1_decU.val a b :=
  congrFun (congrFun gbkext1_decU.property a) b

noncomputable def gbkext1_decP : {f // gbkext1_dec.mbtowc = f} := by
  refine ⟨?m, ?h⟩
  case h => conv => lhs; unroll [CsDec.fastS_eq gbkext1_dec_safe (show gbkext1_dec.sorted = true by decide)]; unroll [gbkext1_dec]

noncomputable def gbkext2_decU : {f : Nat → Nat → Nat // (fun a b => gbkext2_dec.decF a b) = f} := by
  refine ⟨?m, ?h⟩
  case h => conv => lhs; unroll [CsDec.decS_eq (show gbkext2_dec.sorted = true by decide)]; unroll [gbkext2_dec]

theorem gbkext2_decU_eq (a b : Nat) : gbkext2_dec.decF a b = gbkext2_decU.val a b :=
  congrFun (congrFun gbkext2_decU.property a) b

noncomputable def gbkext2_decP : {f // gbkext2_dec.mbtowc = f} := by
  refine ⟨?m, ?h⟩
  case h => conv => lhs; unroll [CsDec.fastS_eq gbkext2_dec_safe (show gbkext2_dec.sorted = true by decide)]; unroll [gbkext2_dec]

noncomputable def cp936ext_decU : {f : Nat → Nat → Nat // (fun a b => cp936ext_dec.decF a b) = f} := by
  refine ⟨?m, ?h⟩
  case h => conv => lhs; unroll [CsDec.decS_eq (show cp936ext_dec.sorted = true by decide)]; unroll [cp936ext_dec]

theorem cp936ext_decU_eq (a b : Nat) : cp936ext_dec.decF a b = cp936ext_decU.val a b :=
  congrFun (congrFun cp936ext_decU.property a) b

noncomputable def cp936ext_decP : {f // cp936ext_dec.mbtowc = f} := by
  refine ⟨?m, ?h⟩
  case h => conv => lhs; unroll [CsDec.fastS_eq cp936ext_dec_safe (show cp936ext_dec.sorted = true by decide)]; unroll [cp936ext_dec]

noncomputable def isoir165ext_decU : {f : Nat → Nat → Nat // (fun a b => isoir165ext_dec.decF a b) = f} := by
  refine ⟨?m, ?h⟩
  case h => conv => lhs; unroll [CsDec.decS_eq (show isoir165ext_dec.sorted = true by decide)]; unroll [isoir165ext_dec]

theorem isoir165ext_decU_eq (a b : Nat) : isoir165ext_dec.decF a b = isoir165ext_decU.val a b :=
  congrFun (congrFun isoir165ext_decU.property a) b

noncomputable def isoir165ext_decP : {f // isoir165ext_dec.mbtowc = f} := by
  refine ⟨?m, ?h⟩
  case h => conv => lhs; unroll [CsDec.fastS_eq isoir165ext_dec_safe (show isoir165ext_dec.sorted = true by decide)]; unroll [isoir165ext_dec]

noncomputable def gb18030_2005_ext_decU : {f : Nat → Nat → Nat // (fun a b => gb18030_2005_ext_dec.decF a b) = f} := by
  refine ⟨?m, ?h⟩
  case h => conv => lhs; unroll [CsDec.decS_eq (show gb18030_2005_ext_dec.sorted = true by decide)]; unroll [gb18030_2005_ext_dec]

theorem gb18030_2005_ext_decU_eq (a b : Nat) : gb18030_2005_ext_dec.decF a b = gb18030_2005_ext_decU.val a b :=
  congrFun (congrFun gb18030_2005_ext_decU.property a) b

noncomputable def gb18030_2005_ext_decP : {f // gb18030_2005_ext_dec.mbtowc = f} := by
  refine ⟨?m, ?h⟩
  case h => conv => lhs; unroll [CsDec.fastS_eq gb18030_2005_ext_dec_safe (show gb18030_2005_ext_dec.sorted = true by decide)]; unroll [gb18030_2005_ext_dec]

noncomputable def gb18030_2022_ext_decU : {f : Nat → Nat → Nat // (fun a b => gb18030_2022_ext_dec.decF a b) = f} := by
  refine ⟨?m, ?h⟩
  case h => conv => lhs; unroll [CsDec.decS_eq (show gb18030_2022_ext_dec.sorted = true by decide)]; unroll [gb18030_2022_ext_dec]

theorem gb18030_2022_ext_decU_eq (a b : Nat) : gb18030_2022_ext_dec.decF a b = gb18030_2022_ext_decU.val a b :=
  congrFun (congrFun gb18030_2022_ext_decU.property a) b

noncomputable def gb18030_2022_ext_decP : {f // gb18030_2022_ext_dec.mbtowc = f} := by
  refine ⟨?m, ?h⟩
  case h => conv => lhs; unroll [CsDec.fastS_eq gb18030_2022_ext_dec_safe (show gb18030_2022_ext_dec.sorted = true by decide)]; unroll [gb18030_2022_ext_dec]

noncomputable def gb2312_encU : {f : Nat → Nat // (fun a => gb2312_enc.encF a) = f} := by
  refine ⟨?m, ?h⟩
  case h => conv => lhs; unroll [CsEnc.encS_eq (show gb2312_enc.sorted = true by decide)]; unroll [gb2312_enc]

theorem gb2312_encU_eq (a : Nat) : gb2312_enc.encF a = gb2312_encU.val a := congrFun gb2312_encU.property a

noncomputable def gbkext_inv_encU : {f : Nat → Nat // (fun a => gbkext_inv_enc.encF a) = f} := by
  refine ⟨?m, ?h⟩
  case h => conv => lhs; unroll [CsEnc.encS_eq (show gbkext_inv_enc.sorted = true by decide)]; unroll [gbkext_inv_enc]

theorem gbkext_inv_encU_eq (a : Nat) : gbkext_inv_enc.encF a = gbkext_inv_encU.val a := congrFun gbkext_inv_encU.property a

noncomputable def cp936ext_encU : {f : Nat → Nat // (fun a => cp936ext_enc.encF a) = f} := by
  refine ⟨?m, ?h⟩
  case h => conv => lhs; unroll [CsEnc.encS_eq (show cp936ext_enc.sorted = true by decide)]; unroll [cp936ext_enc]

theorem cp936ext_encU_eq (a : Nat) : cp936ext_enc.encF a = cp936ext_encU.val a := congrFun cp936ext_encU.property a

noncomputable def isoir165ext_encU : {f : Nat → Nat // (fun a => isoir165ext_enc.encF a) = f} := by
  refine ⟨?m, ?h⟩
  case h => conv => lhs; unroll [CsEnc.encS_eq (show isoir165ext_enc.sorted = true by decide)]; unroll [isoir165ext_enc]

theorem isoir165ext_encU_eq (a : Nat) : isoir165ext_enc.encF a = isoir165ext_encU.val a := congrFun isoir165ext_encU.property a

noncomputable def gb18030ext_encU : {f : Nat → Nat // (fun a => gb18030ext_enc.encF a) = f} := by
  refine ⟨?m, ?h⟩
  case h => conv => lhs; unroll [CsEnc.encS_eq (show gb18030ext_enc.sorted = true by decide)]; unroll [gb18030ext_enc]

theorem gb18030ext_encU_eq (a : Nat) : gb18030ext_enc.encF a = gb18030ext_encU.val a := congrFun gb18030ext_encU.property a

end Reiconv
