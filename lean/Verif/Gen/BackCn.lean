import Verif.Codec.Back
import Verif.Gen.UnCn

namespace Reiconv

theorem gb2312_back : Back gb2312_dec.mbtowc gb2312_enc.wctomb :=
  Back.of_check gb2312_dec_safe gb2312_enc_safe gb2312_encU_eq gb2312_decU_eq (by decide +kernel)

end Reiconv
