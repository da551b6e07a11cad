import Verif.SingleByte

/-!
# Tables of CP50221

Generated by `tools/genjpms.py` from `lib/converters/*.h`.
-/

namespace Reiconv

/-- `cp50221_0208_ext_2uni` (`lib/converters/cp50221_0208_ext.h:30-49`). -/
def cp50221_0208_ext_2uni : Tab := ⟨16, 96, 0xfffdfffdfffdfffdfffdfffd22bf221ffffdfffdfffd2211222efffdfffdfffd337c337d337e32393232323132a832a732a632a532a4212133cd2116301f301e337bfffdfffdfffdfffdfffdfffdfffdfffd33a133c4338f338e339e339d339c333b334a332b33233326330d335733513336330333273318334d332233143349fffd21692168216721662165216421632162216121602473247224712470246f246e246d246c246b246a2469246824672466246524642463246224612460fffd⟩

/-- `cp50221_0208_ext_page21` (`lib/converters/cp50221_0208_ext.h:66-79`). -/
def cp50221_0208_ext_page21 : Tab := ⟨8, 96, 0x1e1d1c1b1a19181716150000000000000000000000000000000000000000000000000000000000000000000000000000000000000000000000000000000000000000000000000000440000000000000000000042000000000000⟩

/-- `cp50221_0208_ext_page22` (`lib/converters/cp50221_0208_ext.h:80-85`). -/
def cp50221_0208_ext_page22 : Tab := ⟨8, 32, 0x53000000000000000000000000000058000000000000000000000000005400⟩

/-- `cp50221_0208_ext_page24` (`lib/converters/cp50221_0208_ext.h:86-90`). -/
def cp50221_0208_ext_page24 : Tab := ⟨8, 24, 0x14131211100f0e0d0c0b0a090807060504030201⟩

/-- `cp50221_0208_ext_page30` (`lib/converters/cp50221_0208_ext.h:91-93`). -/
def cp50221_0208_ext_page30 : Tab := ⟨8, 8, 0x4140400000000000⟩

/-- `cp50221_0208_ext_page32` (`lib/converters/cp50221_0208_ext.h:94-97`). -/
def cp50221_0208_ext_page32 : Tab := ⟨8, 16, 0x4c0000000000004b4a00⟩

/-- `cp50221_0208_ext_page32_1` (`lib/converters/cp50221_0208_ext.h:98-101`). -/
def cp50221_0208_ext_page32_1 : Tab := ⟨8, 16, 0x494847464500000000⟩

/-- `cp50221_0208_ext_page33` (`lib/converters/cp50221_0208_ext.h:102-129`). -/
def cp50221_0208_ext_page33 : Tab := ⟨8, 208, 0x430000000000000000350000000000000000000000000000000000000000000000000000000000000000000036000032313000000000000000000000000034330000000000000000000000000000004d4e4f3f0000000000000000000000000000000000000000000000000000000000000000000000290000000000280000002300002e20000000000000000000000000002f0000000027000000000000000000002d000000252b00002c2200000000000000000024000000210000000000002a00000000000000000026000000⟩

/-- Branches of `cp50221_0208_ext_mbtowc` (`lib/converters/cp50221_0208_ext.h:51-64`). -/
def cp50221_0208_ext_d : List DRule :=
  [⟨0x0, 0x60, .tab cp50221_0208_ext_2uni 0x0 .ilseq⟩]

/-- Branches of `cp50221_0208_ext_wctomb` (`lib/converters/cp50221_0208_ext.h:131-156`). -/
def cp50221_0208_ext_e : List ERule :=
  [⟨0x2110, 0x2170, .tab cp50221_0208_ext_page21 0x2110 .nz⟩,
    ⟨0x2210, 0x2230, .tab cp50221_0208_ext_page22 0x2210 .nz⟩,
    ⟨0x22bf, 0x22c0, .add 0x59⟩,
    ⟨0x2460, 0x2478, .tab cp50221_0208_ext_page24 0x2460 .nz⟩,
    ⟨0x3018, 0x3020, .tab cp50221_0208_ext_page30 0x3018 .nz⟩,
    ⟨0x3230, 0x3240, .tab cp50221_0208_ext_page32 0x3230 .nz⟩,
    ⟨0x32a0, 0x32b0, .tab cp50221_0208_ext_page32_1 0x32a0 .nz⟩,
    ⟨0x3300, 0x33d0, .tab cp50221_0208_ext_page33 0x3300 .nz⟩]

/-- `cp50221_0212_ext_2uni` (`lib/converters/cp50221_0212_ext.h:30-52`). -/
def cp50221_0212_ext_2uni : Tab := ⟨16, 112, 0xfffdfffdfffdfffdfffd9ed1fa2d9b729ad9999efa2cfa2bfa2a9751fffd973bfa29f9dc9592fa28fa279115fa2690defa25fa24fa238d768cf48b7ffa228807fa21fa2085b0fa1f8362fa1e7dd67da0fa1dfa1c7ae7fa1bfa1afa19fa187930fa17769e76827501fa16fa1570286df26df86ae26a6bfa14fa136801f929fa126665fffd654e612060855fb7fa115d535cf55bec589efa10fa0f5759548afa0e5324530751ec50f44efc70bbfffdfffdfffdff02ff07fffdfffdfffdfffdfffdfffdfffdfffdfffdfffd2179217821772176217521742173217221712170fffd⟩

/-- `cp50221_0212_ext_page21` (`lib/converters/cp50221_0212_ext.h:74-77`). -/
def cp50221_0212_ext_page21 : Tab := ⟨8, 16, 0xa090807060504030201⟩

/-- `cp50221_0212_ext_page53` (`lib/converters/cp50221_0212_ext.h:78-84`). -/
def cp50221_0212_ext_page53 : Tab := ⟨8, 40, 0x1f000000000000000000000000000000000000000000000000000000001e00000000000000⟩

/-- `cp50221_0212_ext_page6d` (`lib/converters/cp50221_0212_ext.h:85-88`). -/
def cp50221_0212_ext_page6d : Tab := ⟨8, 16, 0x370000000000380000⟩

/-- `cp50221_0212_ext_page76` (`lib/converters/cp50221_0212_ext.h:89-94`). -/
def cp50221_0212_ext_page76 : Tab := ⟨8, 32, 0x3e0000000000000000000000000000000000000000000000000000003d0000⟩

/-- `cp50221_0212_ext_page7d` (`lib/converters/cp50221_0212_ext.h:95-103`). -/
def cp50221_0212_ext_page7d : Tab := ⟨8, 56, 0x49000000000000000000000000000000000000000000000000000000000000000000000000000000000000000000000000000000000048⟩

/-- `cp50221_0212_ext_page97` (`lib/converters/cp50221_0212_ext.h:104-109`). -/
def cp50221_0212_ext_page97 : Tab := ⟨8, 32, 0x62000000a1000000000000000000000000000000000060000000⟩

/-- `cp50221_0212_ext_pagefa` (`lib/converters/cp50221_0212_ext.h:110-116`). -/
def cp50221_0212_ext_pagefa : Tab := ⟨8, 40, 0x696564635f5c5b59575655514f4e4c4a4746444342413f3b3a34333029242320000000000000⟩

/-- `cp50221_0212_ext_pageff` (`lib/converters/cp50221_0212_ext.h:117-119`). -/
def cp50221_0212_ext_pageff : Tab := ⟨8, 8, 0x1500000000160000⟩

/-- Branches of `cp50221_0212_ext_mbtowc` (`lib/converters/cp50221_0212_ext.h:54-72`). -/
def cp50221_0212_ext_d : List DRule :=
  [⟨0x0, 0x70, .tab cp50221_0212_ext_2uni 0x0 .ilseq⟩,
    ⟨0xa1, 0xa2, .add 0x974d⟩]

/-- Branches of `cp50221_0212_ext_wctomb` (`lib/converters/cp50221_0212_ext.h:121-220`). -/
def cp50221_0212_ext_e : List ERule :=
  [⟨0x2170, 0x2180, .tab cp50221_0212_ext_page21 0x2170 .nz⟩,
    ⟨0x4efc, 0x4efd, .add 0x1b⟩,
    ⟨0x50f4, 0x50f5, .add 0x1c⟩,
    ⟨0x51ec, 0x51ed, .add 0x1d⟩,
    ⟨0x5300, 0x5328, .tab cp50221_0212_ext_page53 0x5300 .nz⟩,
    ⟨0x548a, 0x548b, .add 0x21⟩,
    ⟨0x5759, 0x575a, .add 0x22⟩,
    ⟨0x589e, 0x589f, .add 0x25⟩,
    ⟨0x5bec, 0x5bed, .add 0x26⟩,
    ⟨0x5cf5, 0x5cf6, .add 0x27⟩,
    ⟨0x5d53, 0x5d54, .add 0x28⟩,
    ⟨0x5fb7, 0x5fb8, .add 0x2a⟩,
    ⟨0x6085, 0x6086, .add 0x2b⟩,
    ⟨0x6120, 0x6121, .add 0x2c⟩,
    ⟨0x654e, 0x654f, .add 0x2d⟩,
    ⟨0x6665, 0x6666, .add 0x2f⟩,
    ⟨0x6801, 0x6802, .add 0x32⟩,
    ⟨0x6a6b, 0x6a6c, .add 0x35⟩,
    ⟨0x6ae2, 0x6ae3, .add 0x36⟩,
    ⟨0x6df0, 0x6e00, .tab cp50221_0212_ext_page6d 0x6df0 .nz⟩,
    ⟨0x7028, 0x7029, .add 0x39⟩,
    ⟨0x70bb, 0x70bc, .add 0x1a⟩,
    ⟨0x7501, 0x7502, .add 0x3c⟩,
    ⟨0x7680, 0x76a0, .tab cp50221_0212_ext_page76 0x7680 .nz⟩,
    ⟨0x7930, 0x7931, .add 0x40⟩,
    ⟨0x7ae7, 0x7ae8, .add 0x45⟩,
    ⟨0x7da0, 0x7dd8, .tab cp50221_0212_ext_page7d 0x7da0 .nz⟩,
    ⟨0x8362, 0x8363, .add 0x4b⟩,
    ⟨0x85b0, 0x85b1, .add 0x4d⟩,
    ⟨0x8807, 0x8808, .add 0x50⟩,
    ⟨0x8b7f, 0x8b80, .add 0x52⟩,
    ⟨0x8cf4, 0x8cf5, .add 0x53⟩,
    ⟨0x8d76, 0x8d77, .add 0x54⟩,
    ⟨0x90de, 0x90df, .add 0x58⟩,
    ⟨0x9115, 0x9116, .add 0x5a⟩,
    ⟨0x9592, 0x9593, .add 0x5d⟩,
    ⟨0x9738, 0x9758, .tab cp50221_0212_ext_page97 0x9738 .nz⟩,
    ⟨0x999e, 0x999f, .add 0x66⟩,
    ⟨0x9ad9, 0x9ada, .add 0x67⟩,
    ⟨0x9b72, 0x9b73, .add 0x68⟩,
    ⟨0x9ed1, 0x9ed2, .add 0x6a⟩,
    ⟨0xf929, 0xf92a, .add 0x31⟩,
    ⟨0xf9dc, 0xf9dd, .add 0x5e⟩,
    ⟨0xfa08, 0xfa30, .tab cp50221_0212_ext_pagefa 0xfa08 .nz⟩,
    ⟨0xff00, 0xff08, .tab cp50221_0212_ext_pageff 0xff00 .nz⟩]

end Reiconv
