import Verif.Codec.Unroll
import Verif.Gen.CsJp

/-! Generated by `tools/genun.py`: the lookups of `Gen/CsJp.lean` written out as nested tests. -/

namespace Reiconv

noncomputable def jisx0208_decU : {f : Nat → Nat → Nat // (fun a b => jisx0208_dec.decF a b) = f} := by
  refine ⟨?m, ?h⟩
  case h => conv => lhs; unroll [CsDec.decS_eq (show jisx0208_dec.sorted = true by decide)]; unroll [jisx0208_dec]

theorem jisx0208_decU_eq (a b : Nat) : jisx0208_dec.decF a b = jisx0208_decU.val a b :=
  congrFun (congrFun jisx0208_decU.property a) b

noncomputable def jisx0208_decP : {f // jisx0208_dec.mbtowc = f} := by
  refine ⟨?m, ?h⟩
  case h => conv => lhs; unroll [CsDec.fastS_eq jisx0208_dec_safe (show jisx0208_dec.sorted = true by decide)]; unroll [jisx0208_dec]

noncomputable def jisx0212_decU : {f : Nat → Nat → Nat // (fun a b => jisx0212_dec.decF a b) = f} := by
  refine ⟨?m, ?h⟩
  case h => conv => lhs; unroll [CsDec.decS_eq (show jisx0212_dec.sorted = true by decide)]; unroll [jisx0212_dec]

theorem jisx0212_decU_eq (a b : Nat) : jisx0212_dec.decF a b = jisx0212_decU.val a b :=
  congrFun (congrFun jisx0212_decU.property a) b

noncomputable def jisx0212_decP : {f // jisx0212_dec.mbtowc = f} := by
  refine ⟨?m, ?h⟩
  case h => conv => lhs; unroll [CsDec.fastS_eq jisx0212_dec_safe (show jisx0212_dec.sorted = true by decide)]; unroll [jisx0212_dec]

noncomputable def cp932ext_decU : {f : Nat → Nat → Nat // (fun a b => cp932ext_dec.decF a b) = f} := by
  refine ⟨?m, ?h⟩
  case h => conv => lhs; unroll [CsDec.decS_eq (show cp932ext_dec.sorted = true by decide)]; unroll [cp932ext_dec]

theorem cp932ext_decU_eq (a b : Nat) : cp932ext_dec.decF a b = cp932ext_decU.val a b :=
  congrFun (congrFun cp932ext_decU.property a) b

noncomputable def cp932ext_decP : {f // cp932ext_dec.mbtowc = f} := by
  refine ⟨?m, ?h⟩
  case h => conv => lhs; unroll [CsDec.fastS_eq cp932ext_dec_safe (show cp932ext_dec.sorted = true by decide)]; unroll [cp932ext_dec]

noncomputable def jisx0208_encU : {f : Nat → Nat // (fun a => jisx0208_enc.encF a) = f} := by
  refine ⟨?m, ?h⟩
  case h => conv => lhs; unroll [CsEnc.encS_eq (show jisx0208_enc.sorted = true by decide)]; unroll [jisx0208_enc]

theorem jisx0208_encU_eq (a : Nat) : jisx0208_enc.encF a = jisx0208_encU.val a := congrFun jisx0208_encU.property a

noncomputable def jisx0212_encU : {f : Nat → Nat // (fun a => jisx0212_enc.encF a) = f} := by
  refine ⟨?m, ?h⟩
  case h => conv => lhs; unroll [CsEnc.encS_eq (show jisx0212_enc.sorted = true by decide)]; unroll [jisx0212_enc]

theorem jisx0212_encU_eq (a : Nat) : jisx0212_enc.encF a = jisx0212_encU.val a := congrFun jisx0212_encU.property a

noncomputable def cp932ext_encU : {f : Nat → Nat // (fun a => cp932ext_enc.encF a) = f} := by
  refine ⟨?m, ?h⟩
  case h => conv => lhs; unroll [CsEnc.encS_eq (show cp932ext_enc.sorted = true by decide)]; unroll [cp932ext_enc]

theorem cp932ext_encU_eq (a : Nat) : cp932ext_enc.encF a = cp932ext_encU.val a := congrFun cp932ext_encU.property a

end Reiconv
