import Verif.Gen.BackTw0

namespace Reiconv

theorem cns11643_backB : backAll cns11643_inv_encU.val cnsDec (cns11643_inv_enc.segs.drop 5) = true := by
  decide +kernel

end Reiconv
