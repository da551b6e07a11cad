import Verif.Gen.BackTwA
import Verif.Gen.BackTwB

namespace Reiconv

theorem cns11643_back : Back3 cnsPlane cns11643_inv_enc.wctomb3 := by
  refine Back3.of_check cns11643_inv_enc_safe cns11643_inv_encU_eq cnsDec_sound ?_
  rw [← List.take_append_drop 5 cns11643_inv_enc.segs]
  exact backAll_append cns11643_backB cns11643_backA

end Reiconv
