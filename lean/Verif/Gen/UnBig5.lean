import Verif.Codec.Unroll
import Verif.Gen.CsBig5

/-! Generated by `tools/genun.py`: the lookups of `Gen/CsBig5.lean` written out as nested tests. -/

namespace Reiconv

noncomputable def big5_decU : {f : Nat → Nat → Nat // (fun a b => big5_dec.decF a b) = f} := by
  refine ⟨?m, ?h⟩
  case h => conv => lhs; unroll [CsDec.decS_eq (show big5_dec.sorted = true by decide)]; unroll [big5_dec]

theorem big5_decU_eq (a b : Nat) : big5_dec.decF a b = big5_decU.val a b :=
  congrFun (congrFun big5_decU.property a) b

noncomputable def big5_decP : {f // big5_dec.mbtowc = f} := by
  refine ⟨?m, ?h⟩
  case h => conv => lhs; unroll [CsDec.fastS_eq big5_dec_safe (show big5_dec.sorted = true by decide)]; unroll [big5_dec]

noncomputable def cp950ext_decU : {f : Nat → Nat → Nat // (fun a b => cp950ext_dec.decF a b) = f} := by
  refine ⟨?m, ?h⟩
  case h => conv => lhs; unroll [CsDec.decS_eq (show cp950ext_dec.sorted = true by decide)]; unroll [cp950ext_dec]

theorem cp950ext_decU_eq (a b : Nat) : cp950ext_dec.decF a b = cp950ext_decU.val a b :=
  congrFun (congrFun cp950ext_decU.property a) b

noncomputable def cp950ext_decP : {f // cp950ext_dec.mbtowc = f} := by
  refine ⟨?m, ?h⟩
  case h => conv => lhs; unroll [CsDec.fastS_eq cp950ext_dec_safe (show cp950ext_dec.sorted = true by decide)]; unroll [cp950ext_dec]

noncomputable def hkscs1999_decU : {f : Nat → Nat → Nat // (fun a b => hkscs1999_dec.decF a b) = f} := by
  refine ⟨?m, ?h⟩
  case h => conv => lhs; unroll [CsDec.decS_eq (show hkscs1999_dec.sorted = true by decide)]; unroll [hkscs1999_dec]

theorem hkscs1999_decU_eq (a b : Nat) : hkscs1999_dec.decF a b = hkscs1999_decU.val a b :=
  congrFun (congrFun hkscs1999_decU.property a) b

noncomputable def hkscs1999_decP : {f // hkscs1999_dec.mbtowc = f} := by
  refine ⟨?m, ?h⟩
  case h => conv => lhs; unroll [CsDec.fastS_eq hkscs1999_dec_safe (show hkscs1999_dec.sorted = true by decide)]; unroll [hkscs1999_dec]

noncomputable def hkscs2001_decU : {f : Nat → Nat → Nat // (fun a b => hkscs2001_dec.decF a b) = f} := by
  refine ⟨?m, ?h⟩
  case h => conv => lhs; unroll [CsDec.decS_eq (show hkscs2001_dec.sorted = true by decide)]; unroll [hkscs2001_dec]

theorem hkscs2001_decU_eq (a b : Nat) : hkscs2001_dec.decF a b = hkscs2001_decU.val a b :=
  congrFun (congrFun hkscs2001_decU.property a) b

noncomputable def hkscs2001_decP : {f // hkscs2001_dec.mbtowc = f} := by
  refine ⟨?m, ?h⟩
  case h => conv => lhs; unroll [CsDec.fastS_eq hkscs2001_dec_safe (show hkscs2001_dec.sorted = true by decide)]; unroll [hkscs2001_dec]

noncomputable def hkscs2004_decU : {f : Nat → Nat → Nat // (fun a b => hkscs2004_dec.decF a b) = f} := by
  refine ⟨?m, ?h⟩
  case h => conv => lhs; unroll [CsDec.decS_eq (show hkscs2004_dec.sorted = true by decide)]; unroll [hkscs2004_dec]

theorem hkscs2004_decU_eq (a b : Nat) : hkscs2004_dec.decF a b = hkscs2004_decU.val a b :=
  congrFun (congrFun hkscs2004_decU.property a) b

noncomputable def hkscs2004_decP : {f // hkscs2004_dec.mbtowc = f} := by
  refine ⟨?m, ?h⟩
  case h => conv => lhs; unroll [CsDec.fastS_eq hkscs2004_dec_safe (show hkscs2004_dec.sorted = true by decide)]; unroll [hkscs2004_dec]

noncomputable def hkscs2008_decU : {f : Nat → Nat → Nat // (fun a b => hkscs2008_dec.decF a b) = f} := by
  refine ⟨?m, ?h⟩
  case h => conv => lhs; unroll [CsDec.decS_eq (show hkscs2008_dec.sorted = true by decide)]; unroll [hkscs2008_dec]

theorem hkscs2008_decU_eq (a b : Nat) : hkscs2008_dec.decF a b = hkscs2008_decU.val a b :=
  congrFun (congrFun hkscs2008_decU.property a) b

noncomputable def hkscs2008_decP : {f // hkscs2008_dec.mbtowc = f} := by
  refine ⟨?m, ?h⟩
  case h => conv => lhs; unroll [CsDec.fastS_eq hkscs2008_dec_safe (show hkscs2008_dec.sorted = true by decide)]; unroll [hkscs2008_dec]

noncomputable def big5_encU : {f : Nat → Nat // (fun a => big5_enc.encF a) = f} := by
  refine ⟨?m, ?h⟩
  case h => conv => lhs; unroll [CsEnc.encS_eq (show big5_enc.sorted = true by decide)]; unroll [big5_enc]

theorem big5_encU_eq (a : Nat) : big5_enc.encF a = big5_encU.val a := congrFun big5_encU.property a

noncomputable def cp950ext_encU : {f : Nat → Nat // (fun a => cp950ext_enc.encF a) = f} := by
  refine ⟨?m, ?h⟩
  case h => conv => lhs; unroll [CsEnc.encS_eq (show cp950ext_enc.sorted = true by decide)]; unroll [cp950ext_enc]

theorem cp950ext_encU_eq (a : Nat) : cp950ext_enc.encF a = cp950ext_encU.val a := congrFun cp950ext_encU.property a

noncomputable def hkscs1999_encU : {f : Nat → Nat // (fun a => hkscs1999_enc.encF a) = f} := by
  refine ⟨?m, ?h⟩
  case h => conv => lhs; unroll [CsEnc.encS_eq (show hkscs1999_enc.sorted = true by decide)]; unroll [hkscs1999_enc]

theorem hkscs1999_encU_eq (a : Nat) : hkscs1999_enc.encF a = hkscs1999_encU.val a := congrFun hkscs1999_encU.property a

noncomputable def hkscs2001_encU : {f : Nat → Nat // (fun a => hkscs2001_enc.encF a) = f} := by
  refine ⟨?m, ?h⟩
  case h => conv => lhs; unroll [CsEnc.encS_eq (show hkscs2001_enc.sorted = true by decide)]; unroll [hkscs2001_enc]

theorem hkscs2001_encU_eq (a : Nat) : hkscs2001_enc.encF a = hkscs2001_encU.val a := congrFun hkscs2001_encU.property a

noncomputable def hkscs2004_encU : {f : Nat → Nat // (fun a => hkscs2004_enc.encF a) = f} := by
  refine ⟨?m, ?h⟩
  case h => conv => lhs; unroll [CsEnc.encS_eq (show hkscs2004_enc.sorted = true by decide)]; unroll [hkscs2004_enc]

theorem hkscs2004_encU_eq (a : Nat) : hkscs2004_enc.encF a = hkscs2004_encU.val a := congrFun hkscs2004_encU.property a

noncomputable def hkscs2008_encU : {f : Nat → Nat // (fun a => hkscs2008_enc.encF a) = f} := by
  refine ⟨?m, ?h⟩
  case h => conv => lhs; unroll [CsEnc.encS_eq (show hkscs2008_enc.sorted = true by decide)]; unroll [hkscs2008_enc]

theorem hkscs2008_encU_eq (a : Nat) : hkscs2008_enc.encF a = hkscs2008_encU.val a := congrFun hkscs2008_encU.property a

end Reiconv
