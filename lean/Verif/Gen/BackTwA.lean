import Verif.Gen.BackTw0

namespace Reiconv

theorem cns11643_backA : backAll cns11643_inv_encU.val cnsDec (cns11643_inv_enc.segs.take 5) = true := by
  decide +kernel

end Reiconv
