import Verif.Entry
import Verif.Codec.CompProofs

/-!
# Registry entries of CP1255, CP1258 and TCVN
-/

namespace Reiconv

/-- Entry for a converter that combines characters. -/
noncomputable def compEntry (idx : Nat) (hu : unitOf idx = 1) (d : CompDec) (hd : d.Ok) (e : CompEnc)
    (he : e.Ok) : Entry where
  idx := idx
  unit := 1
  unit_eq := hu
  dec := d.dec
  enc := e.enc
  decOK := d.toOK hd
  encOK := (e.senc he).toOK
  tight := (e.senc he).tight

/-- The registered encoding `cp1255` (`lib/encodings.h.snippet:644-651`). -/
noncomputable def cp1255_entry : Entry :=
  compEntry ei_cp1255 (by decide) cp1255_d cp1255_d_ok cp1255_e cp1255_e_ok
/-- The registered encoding `cp1258` (`lib/encodings.h.snippet:677-683`). -/
noncomputable def cp1258_entry : Entry :=
  compEntry ei_cp1258 (by decide) cp1258_d cp1258_d_ok cp1258_e cp1258_e_ok
/-- The registered encoding `tcvn` (`lib/encodings.h.snippet:906-911`). -/
noncomputable def tcvn_entry : Entry :=
  compEntry ei_tcvn (by decide) tcvn_d tcvn_d_ok tcvn_e tcvn_e_ok

end Reiconv
