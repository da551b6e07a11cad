import Verif.Codec.Back
import Verif.Gen.UnKr

namespace Reiconv

theorem ksc5601_back : Back ksc5601_dec.mbtowc ksc5601_enc.wctomb :=
  Back.of_check ksc5601_dec_safe ksc5601_enc_safe ksc5601_encU_eq ksc5601_decU_eq (by decide +kernel)

end Reiconv
