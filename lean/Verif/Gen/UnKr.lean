import Verif.Codec.Unroll
import Verif.Gen.CsKr

/-! Generated by `tools/genun.py`: the lookups of `Gen/CsKr.lean` written out as nested tests. -/

namespace Reiconv

noncomputable def ksc5601_decU : {f : Nat → Nat → Nat // (fun a b => ksc5601_dec.decF a b) = f} := by
  refine ⟨?m, ?h⟩
  case h => conv => lhs; unroll [CsDec.decS_eq (show ksc5601_dec.sorted = true by decide)]; unroll [ksc5601_dec]

theorem ksc5601_decU_eq (a b : Nat) : ksc5601_dec.decF a b = ksc5601_decU.val a b :=
  congrFun (congrFun ksc5601_decU.property a) b

noncomputable def ksc5601_decP : {f // ksc5601_dec.mbtowc = f} := by
  refine ⟨?m, ?h⟩
  case h => conv => lhs; unroll [CsDec.fastS_eq ksc5601_dec_safe (show ksc5601_dec.sorted = true by decide)]; unroll [ksc5601_dec]

noncomputable def uhc_1_decU : {f : Nat → Nat → Nat // (fun a b => uhc_1_dec.decF a b) = f} := by
  refine ⟨?m, ?h⟩
  case h => conv => lhs; unroll [CsDec.decS_eq (show uhc_1_dec.sorted = true by decide)]; unroll [uhc_1_dec]

theorem uhc_1_decU_eq (a b : Nat) : uhc_1_dec.decF a b = uhc_1_decU.val a b :=
  congrFun (congrFun uhc_1_decU.property a) b

noncomputable def uhc_1_decP : {f // uhc_1_dec.mbtowc = f} := by
  refine ⟨?m, ?h⟩
  case h => conv => lhs; unroll [CsDec.fastS_eq uhc_1_dec_safe (show uhc_1_dec.sorted = true by decide)]; unroll [uhc_1_dec]

noncomputable def uhc_2_decU : {f : Nat → Nat → Nat // (fun a b => uhc_2_dec.decF a b) = f} := by
  refine ⟨?m, ?h⟩
  case h => conv => lhs; unroll [CsDec.decS_eq (show uhc_2_dec.sorted = true by decide)]; unroll [uhc_2_dec]

theorem uhc_2_decU_eq (a b : Nat) : uhc_2_dec.decF a b = uhc_2_decU.val a b :=
  congrFun (congrFun uhc_2_decU.property a) b

noncomputable def uhc_2_decP : {f // uhc_2_dec.mbtowc = f} := by
  refine ⟨?m, ?h⟩
  case h => conv => lhs; unroll [CsDec.fastS_eq uhc_2_dec_safe (show uhc_2_dec.sorted = true by decide)]; unroll [uhc_2_dec]

noncomputable def ksc5601_encU : {f : Nat → Nat // (fun a => ksc5601_enc.encF a) = f} := by
  refine ⟨?m, ?h⟩
  case h => conv => lhs; unroll [CsEnc.encS_eq (show ksc5601_enc.sorted = true by decide)]; unroll [ksc5601_enc]

theorem ksc5601_encU_eq (a : Nat) : ksc5601_enc.encF a = ksc5601_encU.val a := congrFun ksc5601_encU.property a

noncomputable def uhc_1_encU : {f : Nat → Nat // (fun a => uhc_1_enc.encF a) = f} := by
  refine ⟨?m, ?h⟩
  case h => conv => lhs; unroll [CsEnc.encS_eq (show uhc_1_enc.sorted = true by decide)]; unroll [uhc_1_enc]

theorem uhc_1_encU_eq (a : Nat) : uhc_1_enc.encF a = uhc_1_encU.val a := congrFun uhc_1_encU.property a

noncomputable def uhc_2_encU : {f : Nat → Nat // (fun a => uhc_2_enc.encF a) = f} := by
  refine ⟨?m, ?h⟩
  case h => conv => lhs; unroll [CsEnc.encS_eq (show uhc_2_enc.sorted = true by decide)]; unroll [uhc_2_enc]

theorem uhc_2_encU_eq (a : Nat) : uhc_2_enc.encF a = uhc_2_encU.val a := congrFun uhc_2_encU.property a

end Reiconv
