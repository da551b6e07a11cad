import Verif.Codec.Back
import Verif.Gen.UnJp

namespace Reiconv

theorem jisx0208_back : Back jisx0208_dec.mbtowc jisx0208_enc.wctomb :=
  Back.of_check jisx0208_dec_safe jisx0208_enc_safe jisx0208_encU_eq jisx0208_decU_eq (by decide +kernel)

theorem jisx0212_back : Back jisx0212_dec.mbtowc jisx0212_enc.wctomb :=
  Back.of_check jisx0212_dec_safe jisx0212_enc_safe jisx0212_encU_eq jisx0212_decU_eq (by decide +kernel)

end Reiconv
