import Verif.SingleByte

/-!
# Reference tables of single-byte encodings

Generated by `tools/gensb.py` from `tests/data/*.TXT`, without looking at the converters.
Pairs are (byte, character).
-/

namespace Reiconv

/-- `tests/data/IBM-1137.TXT`. -/
def ebcdic1137_from : List (Nat × Nat) :=
  [(0x0, 0x0), (0x1, 0x1), (0x2, 0x2), (0x3, 0x3), (0x4, 0x9c), (0x5, 0x9), (0x6, 0x86), (0x7, 0x7f),
    (0x8, 0x97), (0x9, 0x8d), (0xa, 0x8e), (0xb, 0xb), (0xc, 0xc), (0xd, 0xd), (0xe, 0xe), (0xf, 0xf),
    (0x10, 0x10), (0x11, 0x11), (0x12, 0x12), (0x13, 0x13), (0x14, 0x9d), (0x15, 0x85), (0x16, 0x8), (0x17, 0x87),
    (0x18, 0x18), (0x19, 0x19), (0x1a, 0x92), (0x1b, 0x8f), (0x1c, 0x1c), (0x1d, 0x1d), (0x1e, 0x1e), (0x1f, 0x1f),
    (0x20, 0x80), (0x21, 0x81), (0x22, 0x82), (0x23, 0x83), (0x24, 0x84), (0x25, 0xa), (0x26, 0x17), (0x27, 0x1b),
    (0x28, 0x88), (0x29, 0x89), (0x2a, 0x8a), (0x2b, 0x8b), (0x2c, 0x8c), (0x2d, 0x5), (0x2e, 0x6), (0x2f, 0x7),
    (0x30, 0x90), (0x31, 0x91), (0x32, 0x16), (0x33, 0x93), (0x34, 0x94), (0x35, 0x95), (0x36, 0x96), (0x37, 0x4),
    (0x38, 0x98), (0x39, 0x99), (0x3a, 0x9a), (0x3b, 0x9b), (0x3c, 0x14), (0x3d, 0x15), (0x3e, 0x9e), (0x3f, 0x1a),
    (0x40, 0x20), (0x41, 0xa0), (0x42, 0x901), (0x43, 0x902), (0x44, 0x903), (0x45, 0x905), (0x46, 0x906), (0x47, 0x907),
    (0x48, 0x908), (0x49, 0x909), (0x4a, 0x90a), (0x4b, 0x2e), (0x4c, 0x3c), (0x4d, 0x28), (0x4e, 0x2b), (0x4f, 0x7c),
    (0x50, 0x26), (0x51, 0x90b), (0x52, 0x90c), (0x53, 0x90d), (0x54, 0x90e), (0x55, 0x90f), (0x56, 0x910), (0x57, 0x911),
    (0x58, 0x912), (0x59, 0x913), (0x5a, 0x21), (0x5b, 0x24), (0x5c, 0x2a), (0x5d, 0x29), (0x5e, 0x3b), (0x5f, 0x5e),
    (0x60, 0x2d), (0x61, 0x2f), (0x62, 0x914), (0x63, 0x915), (0x64, 0x916), (0x65, 0x917), (0x66, 0x918), (0x67, 0x919),
    (0x68, 0x91a), (0x69, 0x91b), (0x6a, 0x91c), (0x6b, 0x2c), (0x6c, 0x25), (0x6d, 0x5f), (0x6e, 0x3e), (0x6f, 0x3f),
    (0x70, 0x91d), (0x71, 0x91e), (0x72, 0x91f), (0x73, 0x920), (0x74, 0x921), (0x75, 0x922), (0x76, 0x923), (0x77, 0x924),
    (0x78, 0x925), (0x79, 0x60), (0x7a, 0x3a), (0x7b, 0x23), (0x7c, 0x40), (0x7d, 0x27), (0x7e, 0x3d), (0x7f, 0x22),
    (0x80, 0x926), (0x81, 0x61), (0x82, 0x62), (0x83, 0x63), (0x84, 0x64), (0x85, 0x65), (0x86, 0x66), (0x87, 0x67),
    (0x88, 0x68), (0x89, 0x69), (0x8a, 0x927), (0x8b, 0x928), (0x8c, 0x92a), (0x8d, 0x92b), (0x8e, 0x92c), (0x8f, 0x92d),
    (0x90, 0x92e), (0x91, 0x6a), (0x92, 0x6b), (0x93, 0x6c), (0x94, 0x6d), (0x95, 0x6e), (0x96, 0x6f), (0x97, 0x70),
    (0x98, 0x71), (0x99, 0x72), (0x9a, 0x92f), (0x9b, 0x930), (0x9c, 0x932), (0x9d, 0x933), (0x9e, 0x935), (0x9f, 0x936),
    (0xa0, 0x200c), (0xa1, 0x7e), (0xa2, 0x73), (0xa3, 0x74), (0xa4, 0x75), (0xa5, 0x76), (0xa6, 0x77), (0xa7, 0x78),
    (0xa8, 0x79), (0xa9, 0x7a), (0xaa, 0x937), (0xab, 0x938), (0xac, 0x939), (0xad, 0x5b), (0xae, 0x93c), (0xaf, 0x93d),
    (0xb0, 0x93e), (0xb1, 0x93f), (0xb2, 0x940), (0xb3, 0x941), (0xb4, 0x942), (0xb5, 0x943), (0xb6, 0x944), (0xb7, 0x945),
    (0xb8, 0x946), (0xb9, 0x947), (0xba, 0x948), (0xbb, 0x949), (0xbc, 0x94a), (0xbd, 0x5d), (0xbe, 0x94b), (0xbf, 0x94c),
    (0xc0, 0x7b), (0xc1, 0x41), (0xc2, 0x42), (0xc3, 0x43), (0xc4, 0x44), (0xc5, 0x45), (0xc6, 0x46), (0xc7, 0x47),
    (0xc8, 0x48), (0xc9, 0x49), (0xca, 0x94d), (0xcb, 0x950), (0xcc, 0x951), (0xcd, 0x952), (0xd0, 0x7d), (0xd1, 0x4a),
    (0xd2, 0x4b), (0xd3, 0x4c), (0xd4, 0x4d), (0xd5, 0x4e), (0xd6, 0x4f), (0xd7, 0x50), (0xd8, 0x51), (0xd9, 0x52),
    (0xda, 0x960), (0xdb, 0x961), (0xdc, 0x962), (0xdd, 0x963), (0xde, 0x964), (0xdf, 0x965), (0xe0, 0x5c), (0xe1, 0x200d),
    (0xe2, 0x53), (0xe3, 0x54), (0xe4, 0x55), (0xe5, 0x56), (0xe6, 0x57), (0xe7, 0x58), (0xe8, 0x59), (0xe9, 0x5a),
    (0xea, 0x966), (0xeb, 0x967), (0xec, 0x968), (0xed, 0x969), (0xee, 0x96a), (0xef, 0x96b), (0xf0, 0x30), (0xf1, 0x31),
    (0xf2, 0x32), (0xf3, 0x33), (0xf4, 0x34), (0xf5, 0x35), (0xf6, 0x36), (0xf7, 0x37), (0xf8, 0x38), (0xf9, 0x39),
    (0xfa, 0x96c), (0xfb, 0x96d), (0xfc, 0x96e), (0xfd, 0x96f), (0xfe, 0x970), (0xff, 0x9f)]

/-- There is no file of irreversible mappings in `tests/data`. -/
def ebcdic1137_irr : List (Nat × Nat) := []

/-- `tests/data/IBM-1140.TXT`. -/
def ebcdic1140_from : List (Nat × Nat) :=
  [(0x0, 0x0), (0x1, 0x1), (0x2, 0x2), (0x3, 0x3), (0x4, 0x9c), (0x5, 0x9), (0x6, 0x86), (0x7, 0x7f),
    (0x8, 0x97), (0x9, 0x8d), (0xa, 0x8e), (0xb, 0xb), (0xc, 0xc), (0xd, 0xd), (0xe, 0xe), (0xf, 0xf),
    (0x10, 0x10), (0x11, 0x11), (0x12, 0x12), (0x13, 0x13), (0x14, 0x9d), (0x15, 0x85), (0x16, 0x8), (0x17, 0x87),
    (0x18, 0x18), (0x19, 0x19), (0x1a, 0x92), (0x1b, 0x8f), (0x1c, 0x1c), (0x1d, 0x1d), (0x1e, 0x1e), (0x1f, 0x1f),
    (0x20, 0x80), (0x21, 0x81), (0x22, 0x82), (0x23, 0x83), (0x24, 0x84), (0x25, 0xa), (0x26, 0x17), (0x27, 0x1b),
    (0x28, 0x88), (0x29, 0x89), (0x2a, 0x8a), (0x2b, 0x8b), (0x2c, 0x8c), (0x2d, 0x5), (0x2e, 0x6), (0x2f, 0x7),
    (0x30, 0x90), (0x31, 0x91), (0x32, 0x16), (0x33, 0x93), (0x34, 0x94), (0x35, 0x95), (0x36, 0x96), (0x37, 0x4),
    (0x38, 0x98), (0x39, 0x99), (0x3a, 0x9a), (0x3b, 0x9b), (0x3c, 0x14), (0x3d, 0x15), (0x3e, 0x9e), (0x3f, 0x1a),
    (0x40, 0x20), (0x41, 0xa0), (0x42, 0xe2), (0x43, 0xe4), (0x44, 0xe0), (0x45, 0xe1), (0x46, 0xe3), (0x47, 0xe5),
    (0x48, 0xe7), (0x49, 0xf1), (0x4a, 0xa2), (0x4b, 0x2e), (0x4c, 0x3c), (0x4d, 0x28), (0x4e, 0x2b), (0x4f, 0x7c),
    (0x50, 0x26), (0x51, 0xe9), (0x52, 0xea), (0x53, 0xeb), (0x54, 0xe8), (0x55, 0xed), (0x56, 0xee), (0x57, 0xef),
    (0x58, 0xec), (0x59, 0xdf), (0x5a, 0x21), (0x5b, 0x24), (0x5c, 0x2a), (0x5d, 0x29), (0x5e, 0x3b), (0x5f, 0xac),
    (0x60, 0x2d), (0x61, 0x2f), (0x62, 0xc2), (0x63, 0xc4), (0x64, 0xc0), (0x65, 0xc1), (0x66, 0xc3), (0x67, 0xc5),
    (0x68, 0xc7), (0x69, 0xd1), (0x6a, 0xa6), (0x6b, 0x2c), (0x6c, 0x25), (0x6d, 0x5f), (0x6e, 0x3e), (0x6f, 0x3f),
    (0x70, 0xf8), (0x71, 0xc9), (0x72, 0xca), (0x73, 0xcb), (0x74, 0xc8), (0x75, 0xcd), (0x76, 0xce), (0x77, 0xcf),
    (0x78, 0xcc), (0x79, 0x60), (0x7a, 0x3a), (0x7b, 0x23), (0x7c, 0x40), (0x7d, 0x27), (0x7e, 0x3d), (0x7f, 0x22),
    (0x80, 0xd8), (0x81, 0x61), (0x82, 0x62), (0x83, 0x63), (0x84, 0x64), (0x85, 0x65), (0x86, 0x66), (0x87, 0x67),
    (0x88, 0x68), (0x89, 0x69), (0x8a, 0xab), (0x8b, 0xbb), (0x8c, 0xf0), (0x8d, 0xfd), (0x8e, 0xfe), (0x8f, 0xb1),
    (0x90, 0xb0), (0x91, 0x6a), (0x92, 0x6b), (0x93, 0x6c), (0x94, 0x6d), (0x95, 0x6e), (0x96, 0x6f), (0x97, 0x70),
    (0x98, 0x71), (0x99, 0x72), (0x9a, 0xaa), (0x9b, 0xba), (0x9c, 0xe6), (0x9d, 0xb8), (0x9e, 0xc6), (0x9f, 0x20ac),
    (0xa0, 0xb5), (0xa1, 0x7e), (0xa2, 0x73), (0xa3, 0x74), (0xa4, 0x75), (0xa5, 0x76), (0xa6, 0x77), (0xa7, 0x78),
    (0xa8, 0x79), (0xa9, 0x7a), (0xaa, 0xa1), (0xab, 0xbf), (0xac, 0xd0), (0xad, 0xdd), (0xae, 0xde), (0xaf, 0xae),
    (0xb0, 0x5e), (0xb1, 0xa3), (0xb2, 0xa5), (0xb3, 0xb7), (0xb4, 0xa9), (0xb5, 0xa7), (0xb6, 0xb6), (0xb7, 0xbc),
    (0xb8, 0xbd), (0xb9, 0xbe), (0xba, 0x5b), (0xbb, 0x5d), (0xbc, 0xaf), (0xbd, 0xa8), (0xbe, 0xb4), (0xbf, 0xd7),
    (0xc0, 0x7b), (0xc1, 0x41), (0xc2, 0x42), (0xc3, 0x43), (0xc4, 0x44), (0xc5, 0x45), (0xc6, 0x46), (0xc7, 0x47),
    (0xc8, 0x48), (0xc9, 0x49), (0xca, 0xad), (0xcb, 0xf4), (0xcc, 0xf6), (0xcd, 0xf2), (0xce, 0xf3), (0xcf, 0xf5),
    (0xd0, 0x7d), (0xd1, 0x4a), (0xd2, 0x4b), (0xd3, 0x4c), (0xd4, 0x4d), (0xd5, 0x4e), (0xd6, 0x4f), (0xd7, 0x50),
    (0xd8, 0x51), (0xd9, 0x52), (0xda, 0xb9), (0xdb, 0xfb), (0xdc, 0xfc), (0xdd, 0xf9), (0xde, 0xfa), (0xdf, 0xff),
    (0xe0, 0x5c), (0xe1, 0xf7), (0xe2, 0x53), (0xe3, 0x54), (0xe4, 0x55), (0xe5, 0x56), (0xe6, 0x57), (0xe7, 0x58),
    (0xe8, 0x59), (0xe9, 0x5a), (0xea, 0xb2), (0xeb, 0xd4), (0xec, 0xd6), (0xed, 0xd2), (0xee, 0xd3), (0xef, 0xd5),
    (0xf0, 0x30), (0xf1, 0x31), (0xf2, 0x32), (0xf3, 0x33), (0xf4, 0x34), (0xf5, 0x35), (0xf6, 0x36), (0xf7, 0x37),
    (0xf8, 0x38), (0xf9, 0x39), (0xfa, 0xb3), (0xfb, 0xdb), (0xfc, 0xdc), (0xfd, 0xd9), (0xfe, 0xda), (0xff, 0x9f)]

/-- There is no file of irreversible mappings in `tests/data`. -/
def ebcdic1140_irr : List (Nat × Nat) := []

/-- `tests/data/IBM-1141.TXT`. -/
def ebcdic1141_from : List (Nat × Nat) :=
  [(0x0, 0x0), (0x1, 0x1), (0x2, 0x2), (0x3, 0x3), (0x4, 0x9c), (0x5, 0x9), (0x6, 0x86), (0x7, 0x7f),
    (0x8, 0x97), (0x9, 0x8d), (0xa, 0x8e), (0xb, 0xb), (0xc, 0xc), (0xd, 0xd), (0xe, 0xe), (0xf, 0xf),
    (0x10, 0x10), (0x11, 0x11), (0x12, 0x12), (0x13, 0x13), (0x14, 0x9d), (0x15, 0x85), (0x16, 0x8), (0x17, 0x87),
    (0x18, 0x18), (0x19, 0x19), (0x1a, 0x92), (0x1b, 0x8f), (0x1c, 0x1c), (0x1d, 0x1d), (0x1e, 0x1e), (0x1f, 0x1f),
    (0x20, 0x80), (0x21, 0x81), (0x22, 0x82), (0x23, 0x83), (0x24, 0x84), (0x25, 0xa), (0x26, 0x17), (0x27, 0x1b),
    (0x28, 0x88), (0x29, 0x89), (0x2a, 0x8a), (0x2b, 0x8b), (0x2c, 0x8c), (0x2d, 0x5), (0x2e, 0x6), (0x2f, 0x7),
    (0x30, 0x90), (0x31, 0x91), (0x32, 0x16), (0x33, 0x93), (0x34, 0x94), (0x35, 0x95), (0x36, 0x96), (0x37, 0x4),
    (0x38, 0x98), (0x39, 0x99), (0x3a, 0x9a), (0x3b, 0x9b), (0x3c, 0x14), (0x3d, 0x15), (0x3e, 0x9e), (0x3f, 0x1a),
    (0x40, 0x20), (0x41, 0xa0), (0x42, 0xe2), (0x43, 0x7b), (0x44, 0xe0), (0x45, 0xe1), (0x46, 0xe3), (0x47, 0xe5),
    (0x48, 0xe7), (0x49, 0xf1), (0x4a, 0xc4), (0x4b, 0x2e), (0x4c, 0x3c), (0x4d, 0x28), (0x4e, 0x2b), (0x4f, 0x21),
    (0x50, 0x26), (0x51, 0xe9), (0x52, 0xea), (0x53, 0xeb), (0x54, 0xe8), (0x55, 0xed), (0x56, 0xee), (0x57, 0xef),
    (0x58, 0xec), (0x59, 0x7e), (0x5a, 0xdc), (0x5b, 0x24), (0x5c, 0x2a), (0x5d, 0x29), (0x5e, 0x3b), (0x5f, 0x5e),
    (0x60, 0x2d), (0x61, 0x2f), (0x62, 0xc2), (0x63, 0x5b), (0x64, 0xc0), (0x65, 0xc1), (0x66, 0xc3), (0x67, 0xc5),
    (0x68, 0xc7), (0x69, 0xd1), (0x6a, 0xf6), (0x6b, 0x2c), (0x6c, 0x25), (0x6d, 0x5f), (0x6e, 0x3e), (0x6f, 0x3f),
    (0x70, 0xf8), (0x71, 0xc9), (0x72, 0xca), (0x73, 0xcb), (0x74, 0xc8), (0x75, 0xcd), (0x76, 0xce), (0x77, 0xcf),
    (0x78, 0xcc), (0x79, 0x60), (0x7a, 0x3a), (0x7b, 0x23), (0x7c, 0xa7), (0x7d, 0x27), (0x7e, 0x3d), (0x7f, 0x22),
    (0x80, 0xd8), (0x81, 0x61), (0x82, 0x62), (0x83, 0x63), (0x84, 0x64), (0x85, 0x65), (0x86, 0x66), (0x87, 0x67),
    (0x88, 0x68), (0x89, 0x69), (0x8a, 0xab), (0x8b, 0xbb), (0x8c, 0xf0), (0x8d, 0xfd), (0x8e, 0xfe), (0x8f, 0xb1),
    (0x90, 0xb0), (0x91, 0x6a), (0x92, 0x6b), (0x93, 0x6c), (0x94, 0x6d), (0x95, 0x6e), (0x96, 0x6f), (0x97, 0x70),
    (0x98, 0x71), (0x99, 0x72), (0x9a, 0xaa), (0x9b, 0xba), (0x9c, 0xe6), (0x9d, 0xb8), (0x9e, 0xc6), (0x9f, 0x20ac),
    (0xa0, 0xb5), (0xa1, 0xdf), (0xa2, 0x73), (0xa3, 0x74), (0xa4, 0x75), (0xa5, 0x76), (0xa6, 0x77), (0xa7, 0x78),
    (0xa8, 0x79), (0xa9, 0x7a), (0xaa, 0xa1), (0xab, 0xbf), (0xac, 0xd0), (0xad, 0xdd), (0xae, 0xde), (0xaf, 0xae),
    (0xb0, 0xa2), (0xb1, 0xa3), (0xb2, 0xa5), (0xb3, 0xb7), (0xb4, 0xa9), (0xb5, 0x40), (0xb6, 0xb6), (0xb7, 0xbc),
    (0xb8, 0xbd), (0xb9, 0xbe), (0xba, 0xac), (0xbb, 0x7c), (0xbc, 0xaf), (0xbd, 0xa8), (0xbe, 0xb4), (0xbf, 0xd7),
    (0xc0, 0xe4), (0xc1, 0x41), (0xc2, 0x42), (0xc3, 0x43), (0xc4, 0x44), (0xc5, 0x45), (0xc6, 0x46), (0xc7, 0x47),
    (0xc8, 0x48), (0xc9, 0x49), (0xca, 0xad), (0xcb, 0xf4), (0xcc, 0xa6), (0xcd, 0xf2), (0xce, 0xf3), (0xcf, 0xf5),
    (0xd0, 0xfc), (0xd1, 0x4a), (0xd2, 0x4b), (0xd3, 0x4c), (0xd4, 0x4d), (0xd5, 0x4e), (0xd6, 0x4f), (0xd7, 0x50),
    (0xd8, 0x51), (0xd9, 0x52), (0xda, 0xb9), (0xdb, 0xfb), (0xdc, 0x7d), (0xdd, 0xf9), (0xde, 0xfa), (0xdf, 0xff),
    (0xe0, 0xd6), (0xe1, 0xf7), (0xe2, 0x53), (0xe3, 0x54), (0xe4, 0x55), (0xe5, 0x56), (0xe6, 0x57), (0xe7, 0x58),
    (0xe8, 0x59), (0xe9, 0x5a), (0xea, 0xb2), (0xeb, 0xd4), (0xec, 0x5c), (0xed, 0xd2), (0xee, 0xd3), (0xef, 0xd5),
    (0xf0, 0x30), (0xf1, 0x31), (0xf2, 0x32), (0xf3, 0x33), (0xf4, 0x34), (0xf5, 0x35), (0xf6, 0x36), (0xf7, 0x37),
    (0xf8, 0x38), (0xf9, 0x39), (0xfa, 0xb3), (0xfb, 0xdb), (0xfc, 0x5d), (0xfd, 0xd9), (0xfe, 0xda), (0xff, 0x9f)]

/-- There is no file of irreversible mappings in `tests/data`. -/
def ebcdic1141_irr : List (Nat × Nat) := []

/-- `tests/data/IBM-1142.TXT`. -/
def ebcdic1142_from : List (Nat × Nat) :=
  [(0x0, 0x0), (0x1, 0x1), (0x2, 0x2), (0x3, 0x3), (0x4, 0x9c), (0x5, 0x9), (0x6, 0x86), (0x7, 0x7f),
    (0x8, 0x97), (0x9, 0x8d), (0xa, 0x8e), (0xb, 0xb), (0xc, 0xc), (0xd, 0xd), (0xe, 0xe), (0xf, 0xf),
    (0x10, 0x10), (0x11, 0x11), (0x12, 0x12), (0x13, 0x13), (0x14, 0x9d), (0x15, 0x85), (0x16, 0x8), (0x17, 0x87),
    (0x18, 0x18), (0x19, 0x19), (0x1a, 0x92), (0x1b, 0x8f), (0x1c, 0x1c), (0x1d, 0x1d), (0x1e, 0x1e), (0x1f, 0x1f),
    (0x20, 0x80), (0x21, 0x81), (0x22, 0x82), (0x23, 0x83), (0x24, 0x84), (0x25, 0xa), (0x26, 0x17), (0x27, 0x1b),
    (0x28, 0x88), (0x29, 0x89), (0x2a, 0x8a), (0x2b, 0x8b), (0x2c, 0x8c), (0x2d, 0x5), (0x2e, 0x6), (0x2f, 0x7),
    (0x30, 0x90), (0x31, 0x91), (0x32, 0x16), (0x33, 0x93), (0x34, 0x94), (0x35, 0x95), (0x36, 0x96), (0x37, 0x4),
    (0x38, 0x98), (0x39, 0x99), (0x3a, 0x9a), (0x3b, 0x9b), (0x3c, 0x14), (0x3d, 0x15), (0x3e, 0x9e), (0x3f, 0x1a),
    (0x40, 0x20), (0x41, 0xa0), (0x42, 0xe2), (0x43, 0xe4), (0x44, 0xe0), (0x45, 0xe1), (0x46, 0xe3), (0x47, 0x7d),
    (0x48, 0xe7), (0x49, 0xf1), (0x4a, 0x23), (0x4b, 0x2e), (0x4c, 0x3c), (0x4d, 0x28), (0x4e, 0x2b), (0x4f, 0x21),
    (0x50, 0x26), (0x51, 0xe9), (0x52, 0xea), (0x53, 0xeb), (0x54, 0xe8), (0x55, 0xed), (0x56, 0xee), (0x57, 0xef),
    (0x58, 0xec), (0x59, 0xdf), (0x5a, 0x20ac), (0x5b, 0xc5), (0x5c, 0x2a), (0x5d, 0x29), (0x5e, 0x3b), (0x5f, 0x5e),
    (0x60, 0x2d), (0x61, 0x2f), (0x62, 0xc2), (0x63, 0xc4), (0x64, 0xc0), (0x65, 0xc1), (0x66, 0xc3), (0x67, 0x24),
    (0x68, 0xc7), (0x69, 0xd1), (0x6a, 0xf8), (0x6b, 0x2c), (0x6c, 0x25), (0x6d, 0x5f), (0x6e, 0x3e), (0x6f, 0x3f),
    (0x70, 0xa6), (0x71, 0xc9), (0x72, 0xca), (0x73, 0xcb), (0x74, 0xc8), (0x75, 0xcd), (0x76, 0xce), (0x77, 0xcf),
    (0x78, 0xcc), (0x79, 0x60), (0x7a, 0x3a), (0x7b, 0xc6), (0x7c, 0xd8), (0x7d, 0x27), (0x7e, 0x3d), (0x7f, 0x22),
    (0x80, 0x40), (0x81, 0x61), (0x82, 0x62), (0x83, 0x63), (0x84, 0x64), (0x85, 0x65), (0x86, 0x66), (0x87, 0x67),
    (0x88, 0x68), (0x89, 0x69), (0x8a, 0xab), (0x8b, 0xbb), (0x8c, 0xf0), (0x8d, 0xfd), (0x8e, 0xfe), (0x8f, 0xb1),
    (0x90, 0xb0), (0x91, 0x6a), (0x92, 0x6b), (0x93, 0x6c), (0x94, 0x6d), (0x95, 0x6e), (0x96, 0x6f), (0x97, 0x70),
    (0x98, 0x71), (0x99, 0x72), (0x9a, 0xaa), (0x9b, 0xba), (0x9c, 0x7b), (0x9d, 0xb8), (0x9e, 0x5b), (0x9f, 0x5d),
    (0xa0, 0xb5), (0xa1, 0xfc), (0xa2, 0x73), (0xa3, 0x74), (0xa4, 0x75), (0xa5, 0x76), (0xa6, 0x77), (0xa7, 0x78),
    (0xa8, 0x79), (0xa9, 0x7a), (0xaa, 0xa1), (0xab, 0xbf), (0xac, 0xd0), (0xad, 0xdd), (0xae, 0xde), (0xaf, 0xae),
    (0xb0, 0xa2), (0xb1, 0xa3), (0xb2, 0xa5), (0xb3, 0xb7), (0xb4, 0xa9), (0xb5, 0xa7), (0xb6, 0xb6), (0xb7, 0xbc),
    (0xb8, 0xbd), (0xb9, 0xbe), (0xba, 0xac), (0xbb, 0x7c), (0xbc, 0xaf), (0xbd, 0xa8), (0xbe, 0xb4), (0xbf, 0xd7),
    (0xc0, 0xe6), (0xc1, 0x41), (0xc2, 0x42), (0xc3, 0x43), (0xc4, 0x44), (0xc5, 0x45), (0xc6, 0x46), (0xc7, 0x47),
    (0xc8, 0x48), (0xc9, 0x49), (0xca, 0xad), (0xcb, 0xf4), (0xcc, 0xf6), (0xcd, 0xf2), (0xce, 0xf3), (0xcf, 0xf5),
    (0xd0, 0xe5), (0xd1, 0x4a), (0xd2, 0x4b), (0xd3, 0x4c), (0xd4, 0x4d), (0xd5, 0x4e), (0xd6, 0x4f), (0xd7, 0x50),
    (0xd8, 0x51), (0xd9, 0x52), (0xda, 0xb9), (0xdb, 0xfb), (0xdc, 0x7e), (0xdd, 0xf9), (0xde, 0xfa), (0xdf, 0xff),
    (0xe0, 0x5c), (0xe1, 0xf7), (0xe2, 0x53), (0xe3, 0x54), (0xe4, 0x55), (0xe5, 0x56), (0xe6, 0x57), (0xe7, 0x58),
    (0xe8, 0x59), (0xe9, 0x5a), (0xea, 0xb2), (0xeb, 0xd4), (0xec, 0xd6), (0xed, 0xd2), (0xee, 0xd3), (0xef, 0xd5),
    (0xf0, 0x30), (0xf1, 0x31), (0xf2, 0x32), (0xf3, 0x33), (0xf4, 0x34), (0xf5, 0x35), (0xf6, 0x36), (0xf7, 0x37),
    (0xf8, 0x38), (0xf9, 0x39), (0xfa, 0xb3), (0xfb, 0xdb), (0xfc, 0xdc), (0xfd, 0xd9), (0xfe, 0xda), (0xff, 0x9f)]

/-- There is no file of irreversible mappings in `tests/data`. -/
def ebcdic1142_irr : List (Nat × Nat) := []

/-- `tests/data/IBM-1143.TXT`. -/
def ebcdic1143_from : List (Nat × Nat) :=
  [(0x0, 0x0), (0x1, 0x1), (0x2, 0x2), (0x3, 0x3), (0x4, 0x9c), (0x5, 0x9), (0x6, 0x86), (0x7, 0x7f),
    (0x8, 0x97), (0x9, 0x8d), (0xa, 0x8e), (0xb, 0xb), (0xc, 0xc), (0xd, 0xd), (0xe, 0xe), (0xf, 0xf),
    (0x10, 0x10), (0x11, 0x11), (0x12, 0x12), (0x13, 0x13), (0x14, 0x9d), (0x15, 0x85), (0x16, 0x8), (0x17, 0x87),
    (0x18, 0x18), (0x19, 0x19), (0x1a, 0x92), (0x1b, 0x8f), (0x1c, 0x1c), (0x1d, 0x1d), (0x1e, 0x1e), (0x1f, 0x1f),
    (0x20, 0x80), (0x21, 0x81), (0x22, 0x82), (0x23, 0x83), (0x24, 0x84), (0x25, 0xa), (0x26, 0x17), (0x27, 0x1b),
    (0x28, 0x88), (0x29, 0x89), (0x2a, 0x8a), (0x2b, 0x8b), (0x2c, 0x8c), (0x2d, 0x5), (0x2e, 0x6), (0x2f, 0x7),
    (0x30, 0x90), (0x31, 0x91), (0x32, 0x16), (0x33, 0x93), (0x34, 0x94), (0x35, 0x95), (0x36, 0x96), (0x37, 0x4),
    (0x38, 0x98), (0x39, 0x99), (0x3a, 0x9a), (0x3b, 0x9b), (0x3c, 0x14), (0x3d, 0x15), (0x3e, 0x9e), (0x3f, 0x1a),
    (0x40, 0x20), (0x41, 0xa0), (0x42, 0xe2), (0x43, 0x7b), (0x44, 0xe0), (0x45, 0xe1), (0x46, 0xe3), (0x47, 0x7d),
    (0x48, 0xe7), (0x49, 0xf1), (0x4a, 0xa7), (0x4b, 0x2e), (0x4c, 0x3c), (0x4d, 0x28), (0x4e, 0x2b), (0x4f, 0x21),
    (0x50, 0x26), (0x51, 0x60), (0x52, 0xea), (0x53, 0xeb), (0x54, 0xe8), (0x55, 0xed), (0x56, 0xee), (0x57, 0xef),
    (0x58, 0xec), (0x59, 0xdf), (0x5a, 0x20ac), (0x5b, 0xc5), (0x5c, 0x2a), (0x5d, 0x29), (0x5e, 0x3b), (0x5f, 0x5e),
    (0x60, 0x2d), (0x61, 0x2f), (0x62, 0xc2), (0x63, 0x23), (0x64, 0xc0), (0x65, 0xc1), (0x66, 0xc3), (0x67, 0x24),
    (0x68, 0xc7), (0x69, 0xd1), (0x6a, 0xf6), (0x6b, 0x2c), (0x6c, 0x25), (0x6d, 0x5f), (0x6e, 0x3e), (0x6f, 0x3f),
    (0x70, 0xf8), (0x71, 0x5c), (0x72, 0xca), (0x73, 0xcb), (0x74, 0xc8), (0x75, 0xcd), (0x76, 0xce), (0x77, 0xcf),
    (0x78, 0xcc), (0x79, 0xe9), (0x7a, 0x3a), (0x7b, 0xc4), (0x7c, 0xd6), (0x7d, 0x27), (0x7e, 0x3d), (0x7f, 0x22),
    (0x80, 0xd8), (0x81, 0x61), (0x82, 0x62), (0x83, 0x63), (0x84, 0x64), (0x85, 0x65), (0x86, 0x66), (0x87, 0x67),
    (0x88, 0x68), (0x89, 0x69), (0x8a, 0xab), (0x8b, 0xbb), (0x8c, 0xf0), (0x8d, 0xfd), (0x8e, 0xfe), (0x8f, 0xb1),
    (0x90, 0xb0), (0x91, 0x6a), (0x92, 0x6b), (0x93, 0x6c), (0x94, 0x6d), (0x95, 0x6e), (0x96, 0x6f), (0x97, 0x70),
    (0x98, 0x71), (0x99, 0x72), (0x9a, 0xaa), (0x9b, 0xba), (0x9c, 0xe6), (0x9d, 0xb8), (0x9e, 0xc6), (0x9f, 0x5d),
    (0xa0, 0xb5), (0xa1, 0xfc), (0xa2, 0x73), (0xa3, 0x74), (0xa4, 0x75), (0xa5, 0x76), (0xa6, 0x77), (0xa7, 0x78),
    (0xa8, 0x79), (0xa9, 0x7a), (0xaa, 0xa1), (0xab, 0xbf), (0xac, 0xd0), (0xad, 0xdd), (0xae, 0xde), (0xaf, 0xae),
    (0xb0, 0xa2), (0xb1, 0xa3), (0xb2, 0xa5), (0xb3, 0xb7), (0xb4, 0xa9), (0xb5, 0x5b), (0xb6, 0xb6), (0xb7, 0xbc),
    (0xb8, 0xbd), (0xb9, 0xbe), (0xba, 0xac), (0xbb, 0x7c), (0xbc, 0xaf), (0xbd, 0xa8), (0xbe, 0xb4), (0xbf, 0xd7),
    (0xc0, 0xe4), (0xc1, 0x41), (0xc2, 0x42), (0xc3, 0x43), (0xc4, 0x44), (0xc5, 0x45), (0xc6, 0x46), (0xc7, 0x47),
    (0xc8, 0x48), (0xc9, 0x49), (0xca, 0xad), (0xcb, 0xf4), (0xcc, 0xa6), (0xcd, 0xf2), (0xce, 0xf3), (0xcf, 0xf5),
    (0xd0, 0xe5), (0xd1, 0x4a), (0xd2, 0x4b), (0xd3, 0x4c), (0xd4, 0x4d), (0xd5, 0x4e), (0xd6, 0x4f), (0xd7, 0x50),
    (0xd8, 0x51), (0xd9, 0x52), (0xda, 0xb9), (0xdb, 0xfb), (0xdc, 0x7e), (0xdd, 0xf9), (0xde, 0xfa), (0xdf, 0xff),
    (0xe0, 0xc9), (0xe1, 0xf7), (0xe2, 0x53), (0xe3, 0x54), (0xe4, 0x55), (0xe5, 0x56), (0xe6, 0x57), (0xe7, 0x58),
    (0xe8, 0x59), (0xe9, 0x5a), (0xea, 0xb2), (0xeb, 0xd4), (0xec, 0x40), (0xed, 0xd2), (0xee, 0xd3), (0xef, 0xd5),
    (0xf0, 0x30), (0xf1, 0x31), (0xf2, 0x32), (0xf3, 0x33), (0xf4, 0x34), (0xf5, 0x35), (0xf6, 0x36), (0xf7, 0x37),
    (0xf8, 0x38), (0xf9, 0x39), (0xfa, 0xb3), (0xfb, 0xdb), (0xfc, 0xdc), (0xfd, 0xd9), (0xfe, 0xda), (0xff, 0x9f)]

/-- There is no file of irreversible mappings in `tests/data`. -/
def ebcdic1143_irr : List (Nat × Nat) := []

/-- `tests/data/IBM-1144.TXT`. -/
def ebcdic1144_from : List (Nat × Nat) :=
  [(0x0, 0x0), (0x1, 0x1), (0x2, 0x2), (0x3, 0x3), (0x4, 0x9c), (0x5, 0x9), (0x6, 0x86), (0x7, 0x7f),
    (0x8, 0x97), (0x9, 0x8d), (0xa, 0x8e), (0xb, 0xb), (0xc, 0xc), (0xd, 0xd), (0xe, 0xe), (0xf, 0xf),
    (0x10, 0x10), (0x11, 0x11), (0x12, 0x12), (0x13, 0x13), (0x14, 0x9d), (0x15, 0x85), (0x16, 0x8), (0x17, 0x87),
    (0x18, 0x18), (0x19, 0x19), (0x1a, 0x92), (0x1b, 0x8f), (0x1c, 0x1c), (0x1d, 0x1d), (0x1e, 0x1e), (0x1f, 0x1f),
    (0x20, 0x80), (0x21, 0x81), (0x22, 0x82), (0x23, 0x83), (0x24, 0x84), (0x25, 0xa), (0x26, 0x17), (0x27, 0x1b),
    (0x28, 0x88), (0x29, 0x89), (0x2a, 0x8a), (0x2b, 0x8b), (0x2c, 0x8c), (0x2d, 0x5), (0x2e, 0x6), (0x2f, 0x7),
    (0x30, 0x90), (0x31, 0x91), (0x32, 0x16), (0x33, 0x93), (0x34, 0x94), (0x35, 0x95), (0x36, 0x96), (0x37, 0x4),
    (0x38, 0x98), (0x39, 0x99), (0x3a, 0x9a), (0x3b, 0x9b), (0x3c, 0x14), (0x3d, 0x15), (0x3e, 0x9e), (0x3f, 0x1a),
    (0x40, 0x20), (0x41, 0xa0), (0x42, 0xe2), (0x43, 0xe4), (0x44, 0x7b), (0x45, 0xe1), (0x46, 0xe3), (0x47, 0xe5),
    (0x48, 0x5c), (0x49, 0xf1), (0x4a, 0xb0), (0x4b, 0x2e), (0x4c, 0x3c), (0x4d, 0x28), (0x4e, 0x2b), (0x4f, 0x21),
    (0x50, 0x26), (0x51, 0x5d), (0x52, 0xea), (0x53, 0xeb), (0x54, 0x7d), (0x55, 0xed), (0x56, 0xee), (0x57, 0xef),
    (0x58, 0x7e), (0x59, 0xdf), (0x5a, 0xe9), (0x5b, 0x24), (0x5c, 0x2a), (0x5d, 0x29), (0x5e, 0x3b), (0x5f, 0x5e),
    (0x60, 0x2d), (0x61, 0x2f), (0x62, 0xc2), (0x63, 0xc4), (0x64, 0xc0), (0x65, 0xc1), (0x66, 0xc3), (0x67, 0xc5),
    (0x68, 0xc7), (0x69, 0xd1), (0x6a, 0xf2), (0x6b, 0x2c), (0x6c, 0x25), (0x6d, 0x5f), (0x6e, 0x3e), (0x6f, 0x3f),
    (0x70, 0xf8), (0x71, 0xc9), (0x72, 0xca), (0x73, 0xcb), (0x74, 0xc8), (0x75, 0xcd), (0x76, 0xce), (0x77, 0xcf),
    (0x78, 0xcc), (0x79, 0xf9), (0x7a, 0x3a), (0x7b, 0xa3), (0x7c, 0xa7), (0x7d, 0x27), (0x7e, 0x3d), (0x7f, 0x22),
    (0x80, 0xd8), (0x81, 0x61), (0x82, 0x62), (0x83, 0x63), (0x84, 0x64), (0x85, 0x65), (0x86, 0x66), (0x87, 0x67),
    (0x88, 0x68), (0x89, 0x69), (0x8a, 0xab), (0x8b, 0xbb), (0x8c, 0xf0), (0x8d, 0xfd), (0x8e, 0xfe), (0x8f, 0xb1),
    (0x90, 0x5b), (0x91, 0x6a), (0x92, 0x6b), (0x93, 0x6c), (0x94, 0x6d), (0x95, 0x6e), (0x96, 0x6f), (0x97, 0x70),
    (0x98, 0x71), (0x99, 0x72), (0x9a, 0xaa), (0x9b, 0xba), (0x9c, 0xe6), (0x9d, 0xb8), (0x9e, 0xc6), (0x9f, 0x20ac),
    (0xa0, 0xb5), (0xa1, 0xec), (0xa2, 0x73), (0xa3, 0x74), (0xa4, 0x75), (0xa5, 0x76), (0xa6, 0x77), (0xa7, 0x78),
    (0xa8, 0x79), (0xa9, 0x7a), (0xaa, 0xa1), (0xab, 0xbf), (0xac, 0xd0), (0xad, 0xdd), (0xae, 0xde), (0xaf, 0xae),
    (0xb0, 0xa2), (0xb1, 0x23), (0xb2, 0xa5), (0xb3, 0xb7), (0xb4, 0xa9), (0xb5, 0x40), (0xb6, 0xb6), (0xb7, 0xbc),
    (0xb8, 0xbd), (0xb9, 0xbe), (0xba, 0xac), (0xbb, 0x7c), (0xbc, 0xaf), (0xbd, 0xa8), (0xbe, 0xb4), (0xbf, 0xd7),
    (0xc0, 0xe0), (0xc1, 0x41), (0xc2, 0x42), (0xc3, 0x43), (0xc4, 0x44), (0xc5, 0x45), (0xc6, 0x46), (0xc7, 0x47),
    (0xc8, 0x48), (0xc9, 0x49), (0xca, 0xad), (0xcb, 0xf4), (0xcc, 0xf6), (0xcd, 0xa6), (0xce, 0xf3), (0xcf, 0xf5),
    (0xd0, 0xe8), (0xd1, 0x4a), (0xd2, 0x4b), (0xd3, 0x4c), (0xd4, 0x4d), (0xd5, 0x4e), (0xd6, 0x4f), (0xd7, 0x50),
    (0xd8, 0x51), (0xd9, 0x52), (0xda, 0xb9), (0xdb, 0xfb), (0xdc, 0xfc), (0xdd, 0x60), (0xde, 0xfa), (0xdf, 0xff),
    (0xe0, 0xe7), (0xe1, 0xf7), (0xe2, 0x53), (0xe3, 0x54), (0xe4, 0x55), (0xe5, 0x56), (0xe6, 0x57), (0xe7, 0x58),
    (0xe8, 0x59), (0xe9, 0x5a), (0xea, 0xb2), (0xeb, 0xd4), (0xec, 0xd6), (0xed, 0xd2), (0xee, 0xd3), (0xef, 0xd5),
    (0xf0, 0x30), (0xf1, 0x31), (0xf2, 0x32), (0xf3, 0x33), (0xf4, 0x34), (0xf5, 0x35), (0xf6, 0x36), (0xf7, 0x37),
    (0xf8, 0x38), (0xf9, 0x39), (0xfa, 0xb3), (0xfb, 0xdb), (0xfc, 0xdc), (0xfd, 0xd9), (0xfe, 0xda), (0xff, 0x9f)]

/-- There is no file of irreversible mappings in `tests/data`. -/
def ebcdic1144_irr : List (Nat × Nat) := []

/-- `tests/data/IBM-1145.TXT`. -/
def ebcdic1145_from : List (Nat × Nat) :=
  [(0x0, 0x0), (0x1, 0x1), (0x2, 0x2), (0x3, 0x3), (0x4, 0x9c), (0x5, 0x9), (0x6, 0x86), (0x7, 0x7f),
    (0x8, 0x97), (0x9, 0x8d), (0xa, 0x8e), (0xb, 0xb), (0xc, 0xc), (0xd, 0xd), (0xe, 0xe), (0xf, 0xf),
    (0x10, 0x10), (0x11, 0x11), (0x12, 0x12), (0x13, 0x13), (0x14, 0x9d), (0x15, 0x85), (0x16, 0x8), (0x17, 0x87),
    (0x18, 0x18), (0x19, 0x19), (0x1a, 0x92), (0x1b, 0x8f), (0x1c, 0x1c), (0x1d, 0x1d), (0x1e, 0x1e), (0x1f, 0x1f),
    (0x20, 0x80), (0x21, 0x81), (0x22, 0x82), (0x23, 0x83), (0x24, 0x84), (0x25, 0xa), (0x26, 0x17), (0x27, 0x1b),
    (0x28, 0x88), (0x29, 0x89), (0x2a, 0x8a), (0x2b, 0x8b), (0x2c, 0x8c), (0x2d, 0x5), (0x2e, 0x6), (0x2f, 0x7),
    (0x30, 0x90), (0x31, 0x91), (0x32, 0x16), (0x33, 0x93), (0x34, 0x94), (0x35, 0x95), (0x36, 0x96), (0x37, 0x4),
    (0x38, 0x98), (0x39, 0x99), (0x3a, 0x9a), (0x3b, 0x9b), (0x3c, 0x14), (0x3d, 0x15), (0x3e, 0x9e), (0x3f, 0x1a),
    (0x40, 0x20), (0x41, 0xa0), (0x42, 0xe2), (0x43, 0xe4), (0x44, 0xe0), (0x45, 0xe1), (0x46, 0xe3), (0x47, 0xe5),
    (0x48, 0xe7), (0x49, 0xa6), (0x4a, 0x5b), (0x4b, 0x2e), (0x4c, 0x3c), (0x4d, 0x28), (0x4e, 0x2b), (0x4f, 0x7c),
    (0x50, 0x26), (0x51, 0xe9), (0x52, 0xea), (0x53, 0xeb), (0x54, 0xe8), (0x55, 0xed), (0x56, 0xee), (0x57, 0xef),
    (0x58, 0xec), (0x59, 0xdf), (0x5a, 0x5d), (0x5b, 0x24), (0x5c, 0x2a), (0x5d, 0x29), (0x5e, 0x3b), (0x5f, 0xac),
    (0x60, 0x2d), (0x61, 0x2f), (0x62, 0xc2), (0x63, 0xc4), (0x64, 0xc0), (0x65, 0xc1), (0x66, 0xc3), (0x67, 0xc5),
    (0x68, 0xc7), (0x69, 0x23), (0x6a, 0xf1), (0x6b, 0x2c), (0x6c, 0x25), (0x6d, 0x5f), (0x6e, 0x3e), (0x6f, 0x3f),
    (0x70, 0xf8), (0x71, 0xc9), (0x72, 0xca), (0x73, 0xcb), (0x74, 0xc8), (0x75, 0xcd), (0x76, 0xce), (0x77, 0xcf),
    (0x78, 0xcc), (0x79, 0x60), (0x7a, 0x3a), (0x7b, 0xd1), (0x7c, 0x40), (0x7d, 0x27), (0x7e, 0x3d), (0x7f, 0x22),
    (0x80, 0xd8), (0x81, 0x61), (0x82, 0x62), (0x83, 0x63), (0x84, 0x64), (0x85, 0x65), (0x86, 0x66), (0x87, 0x67),
    (0x88, 0x68), (0x89, 0x69), (0x8a, 0xab), (0x8b, 0xbb), (0x8c, 0xf0), (0x8d, 0xfd), (0x8e, 0xfe), (0x8f, 0xb1),
    (0x90, 0xb0), (0x91, 0x6a), (0x92, 0x6b), (0x93, 0x6c), (0x94, 0x6d), (0x95, 0x6e), (0x96, 0x6f), (0x97, 0x70),
    (0x98, 0x71), (0x99, 0x72), (0x9a, 0xaa), (0x9b, 0xba), (0x9c, 0xe6), (0x9d, 0xb8), (0x9e, 0xc6), (0x9f, 0x20ac),
    (0xa0, 0xb5), (0xa1, 0xa8), (0xa2, 0x73), (0xa3, 0x74), (0xa4, 0x75), (0xa5, 0x76), (0xa6, 0x77), (0xa7, 0x78),
    (0xa8, 0x79), (0xa9, 0x7a), (0xaa, 0xa1), (0xab, 0xbf), (0xac, 0xd0), (0xad, 0xdd), (0xae, 0xde), (0xaf, 0xae),
    (0xb0, 0xa2), (0xb1, 0xa3), (0xb2, 0xa5), (0xb3, 0xb7), (0xb4, 0xa9), (0xb5, 0xa7), (0xb6, 0xb6), (0xb7, 0xbc),
    (0xb8, 0xbd), (0xb9, 0xbe), (0xba, 0x5e), (0xbb, 0x21), (0xbc, 0xaf), (0xbd, 0x7e), (0xbe, 0xb4), (0xbf, 0xd7),
    (0xc0, 0x7b), (0xc1, 0x41), (0xc2, 0x42), (0xc3, 0x43), (0xc4, 0x44), (0xc5, 0x45), (0xc6, 0x46), (0xc7, 0x47),
    (0xc8, 0x48), (0xc9, 0x49), (0xca, 0xad), (0xcb, 0xf4), (0xcc, 0xf6), (0xcd, 0xf2), (0xce, 0xf3), (0xcf, 0xf5),
    (0xd0, 0x7d), (0xd1, 0x4a), (0xd2, 0x4b), (0xd3, 0x4c), (0xd4, 0x4d), (0xd5, 0x4e), (0xd6, 0x4f), (0xd7, 0x50),
    (0xd8, 0x51), (0xd9, 0x52), (0xda, 0xb9), (0xdb, 0xfb), (0xdc, 0xfc), (0xdd, 0xf9), (0xde, 0xfa), (0xdf, 0xff),
    (0xe0, 0x5c), (0xe1, 0xf7), (0xe2, 0x53), (0xe3, 0x54), (0xe4, 0x55), (0xe5, 0x56), (0xe6, 0x57), (0xe7, 0x58),
    (0xe8, 0x59), (0xe9, 0x5a), (0xea, 0xb2), (0xeb, 0xd4), (0xec, 0xd6), (0xed, 0xd2), (0xee, 0xd3), (0xef, 0xd5),
    (0xf0, 0x30), (0xf1, 0x31), (0xf2, 0x32), (0xf3, 0x33), (0xf4, 0x34), (0xf5, 0x35), (0xf6, 0x36), (0xf7, 0x37),
    (0xf8, 0x38), (0xf9, 0x39), (0xfa, 0xb3), (0xfb, 0xdb), (0xfc, 0xdc), (0xfd, 0xd9), (0xfe, 0xda), (0xff, 0x9f)]

/-- There is no file of irreversible mappings in `tests/data`. -/
def ebcdic1145_irr : List (Nat × Nat) := []

/-- `tests/data/IBM-1146.TXT`. -/
def ebcdic1146_from : List (Nat × Nat) :=
  [(0x0, 0x0), (0x1, 0x1), (0x2, 0x2), (0x3, 0x3), (0x4, 0x9c), (0x5, 0x9), (0x6, 0x86), (0x7, 0x7f),
    (0x8, 0x97), (0x9, 0x8d), (0xa, 0x8e), (0xb, 0xb), (0xc, 0xc), (0xd, 0xd), (0xe, 0xe), (0xf, 0xf),
    (0x10, 0x10), (0x11, 0x11), (0x12, 0x12), (0x13, 0x13), (0x14, 0x9d), (0x15, 0x85), (0x16, 0x8), (0x17, 0x87),
    (0x18, 0x18), (0x19, 0x19), (0x1a, 0x92), (0x1b, 0x8f), (0x1c, 0x1c), (0x1d, 0x1d), (0x1e, 0x1e), (0x1f, 0x1f),
    (0x20, 0x80), (0x21, 0x81), (0x22, 0x82), (0x23, 0x83), (0x24, 0x84), (0x25, 0xa), (0x26, 0x17), (0x27, 0x1b),
    (0x28, 0x88), (0x29, 0x89), (0x2a, 0x8a), (0x2b, 0x8b), (0x2c, 0x8c), (0x2d, 0x5), (0x2e, 0x6), (0x2f, 0x7),
    (0x30, 0x90), (0x31, 0x91), (0x32, 0x16), (0x33, 0x93), (0x34, 0x94), (0x35, 0x95), (0x36, 0x96), (0x37, 0x4),
    (0x38, 0x98), (0x39, 0x99), (0x3a, 0x9a), (0x3b, 0x9b), (0x3c, 0x14), (0x3d, 0x15), (0x3e, 0x9e), (0x3f, 0x1a),
    (0x40, 0x20), (0x41, 0xa0), (0x42, 0xe2), (0x43, 0xe4), (0x44, 0xe0), (0x45, 0xe1), (0x46, 0xe3), (0x47, 0xe5),
    (0x48, 0xe7), (0x49, 0xf1), (0x4a, 0x24), (0x4b, 0x2e), (0x4c, 0x3c), (0x4d, 0x28), (0x4e, 0x2b), (0x4f, 0x7c),
    (0x50, 0x26), (0x51, 0xe9), (0x52, 0xea), (0x53, 0xeb), (0x54, 0xe8), (0x55, 0xed), (0x56, 0xee), (0x57, 0xef),
    (0x58, 0xec), (0x59, 0xdf), (0x5a, 0x21), (0x5b, 0xa3), (0x5c, 0x2a), (0x5d, 0x29), (0x5e, 0x3b), (0x5f, 0xac),
    (0x60, 0x2d), (0x61, 0x2f), (0x62, 0xc2), (0x63, 0xc4), (0x64, 0xc0), (0x65, 0xc1), (0x66, 0xc3), (0x67, 0xc5),
    (0x68, 0xc7), (0x69, 0xd1), (0x6a, 0xa6), (0x6b, 0x2c), (0x6c, 0x25), (0x6d, 0x5f), (0x6e, 0x3e), (0x6f, 0x3f),
    (0x70, 0xf8), (0x71, 0xc9), (0x72, 0xca), (0x73, 0xcb), (0x74, 0xc8), (0x75, 0xcd), (0x76, 0xce), (0x77, 0xcf),
    (0x78, 0xcc), (0x79, 0x60), (0x7a, 0x3a), (0x7b, 0x23), (0x7c, 0x40), (0x7d, 0x27), (0x7e, 0x3d), (0x7f, 0x22),
    (0x80, 0xd8), (0x81, 0x61), (0x82, 0x62), (0x83, 0x63), (0x84, 0x64), (0x85, 0x65), (0x86, 0x66), (0x87, 0x67),
    (0x88, 0x68), (0x89, 0x69), (0x8a, 0xab), (0x8b, 0xbb), (0x8c, 0xf0), (0x8d, 0xfd), (0x8e, 0xfe), (0x8f, 0xb1),
    (0x90, 0xb0), (0x91, 0x6a), (0x92, 0x6b), (0x93, 0x6c), (0x94, 0x6d), (0x95, 0x6e), (0x96, 0x6f), (0x97, 0x70),
    (0x98, 0x71), (0x99, 0x72), (0x9a, 0xaa), (0x9b, 0xba), (0x9c, 0xe6), (0x9d, 0xb8), (0x9e, 0xc6), (0x9f, 0x20ac),
    (0xa0, 0xb5), (0xa1, 0xaf), (0xa2, 0x73), (0xa3, 0x74), (0xa4, 0x75), (0xa5, 0x76), (0xa6, 0x77), (0xa7, 0x78),
    (0xa8, 0x79), (0xa9, 0x7a), (0xaa, 0xa1), (0xab, 0xbf), (0xac, 0xd0), (0xad, 0xdd), (0xae, 0xde), (0xaf, 0xae),
    (0xb0, 0xa2), (0xb1, 0x5b), (0xb2, 0xa5), (0xb3, 0xb7), (0xb4, 0xa9), (0xb5, 0xa7), (0xb6, 0xb6), (0xb7, 0xbc),
    (0xb8, 0xbd), (0xb9, 0xbe), (0xba, 0x5e), (0xbb, 0x5d), (0xbc, 0x7e), (0xbd, 0xa8), (0xbe, 0xb4), (0xbf, 0xd7),
    (0xc0, 0x7b), (0xc1, 0x41), (0xc2, 0x42), (0xc3, 0x43), (0xc4, 0x44), (0xc5, 0x45), (0xc6, 0x46), (0xc7, 0x47),
    (0xc8, 0x48), (0xc9, 0x49), (0xca, 0xad), (0xcb, 0xf4), (0xcc, 0xf6), (0xcd, 0xf2), (0xce, 0xf3), (0xcf, 0xf5),
    (0xd0, 0x7d), (0xd1, 0x4a), (0xd2, 0x4b), (0xd3, 0x4c), (0xd4, 0x4d), (0xd5, 0x4e), (0xd6, 0x4f), (0xd7, 0x50),
    (0xd8, 0x51), (0xd9, 0x52), (0xda, 0xb9), (0xdb, 0xfb), (0xdc, 0xfc), (0xdd, 0xf9), (0xde, 0xfa), (0xdf, 0xff),
    (0xe0, 0x5c), (0xe1, 0xf7), (0xe2, 0x53), (0xe3, 0x54), (0xe4, 0x55), (0xe5, 0x56), (0xe6, 0x57), (0xe7, 0x58),
    (0xe8, 0x59), (0xe9, 0x5a), (0xea, 0xb2), (0xeb, 0xd4), (0xec, 0xd6), (0xed, 0xd2), (0xee, 0xd3), (0xef, 0xd5),
    (0xf0, 0x30), (0xf1, 0x31), (0xf2, 0x32), (0xf3, 0x33), (0xf4, 0x34), (0xf5, 0x35), (0xf6, 0x36), (0xf7, 0x37),
    (0xf8, 0x38), (0xf9, 0x39), (0xfa, 0xb3), (0xfb, 0xdb), (0xfc, 0xdc), (0xfd, 0xd9), (0xfe, 0xda), (0xff, 0x9f)]

/-- There is no file of irreversible mappings in `tests/data`. -/
def ebcdic1146_irr : List (Nat × Nat) := []

/-- `tests/data/IBM-1147.TXT`. -/
def ebcdic1147_from : List (Nat × Nat) :=
  [(0x0, 0x0), (0x1, 0x1), (0x2, 0x2), (0x3, 0x3), (0x4, 0x9c), (0x5, 0x9), (0x6, 0x86), (0x7, 0x7f),
    (0x8, 0x97), (0x9, 0x8d), (0xa, 0x8e), (0xb, 0xb), (0xc, 0xc), (0xd, 0xd), (0xe, 0xe), (0xf, 0xf),
    (0x10, 0x10), (0x11, 0x11), (0x12, 0x12), (0x13, 0x13), (0x14, 0x9d), (0x15, 0x85), (0x16, 0x8), (0x17, 0x87),
    (0x18, 0x18), (0x19, 0x19), (0x1a, 0x92), (0x1b, 0x8f), (0x1c, 0x1c), (0x1d, 0x1d), (0x1e, 0x1e), (0x1f, 0x1f),
    (0x20, 0x80), (0x21, 0x81), (0x22, 0x82), (0x23, 0x83), (0x24, 0x84), (0x25, 0xa), (0x26, 0x17), (0x27, 0x1b),
    (0x28, 0x88), (0x29, 0x89), (0x2a, 0x8a), (0x2b, 0x8b), (0x2c, 0x8c), (0x2d, 0x5), (0x2e, 0x6), (0x2f, 0x7),
    (0x30, 0x90), (0x31, 0x91), (0x32, 0x16), (0x33, 0x93), (0x34, 0x94), (0x35, 0x95), (0x36, 0x96), (0x37, 0x4),
    (0x38, 0x98), (0x39, 0x99), (0x3a, 0x9a), (0x3b, 0x9b), (0x3c, 0x14), (0x3d, 0x15), (0x3e, 0x9e), (0x3f, 0x1a),
    (0x40, 0x20), (0x41, 0xa0), (0x42, 0xe2), (0x43, 0xe4), (0x44, 0x40), (0x45, 0xe1), (0x46, 0xe3), (0x47, 0xe5),
    (0x48, 0x5c), (0x49, 0xf1), (0x4a, 0xb0), (0x4b, 0x2e), (0x4c, 0x3c), (0x4d, 0x28), (0x4e, 0x2b), (0x4f, 0x21),
    (0x50, 0x26), (0x51, 0x7b), (0x52, 0xea), (0x53, 0xeb), (0x54, 0x7d), (0x55, 0xed), (0x56, 0xee), (0x57, 0xef),
    (0x58, 0xec), (0x59, 0xdf), (0x5a, 0xa7), (0x5b, 0x24), (0x5c, 0x2a), (0x5d, 0x29), (0x5e, 0x3b), (0x5f, 0x5e),
    (0x60, 0x2d), (0x61, 0x2f), (0x62, 0xc2), (0x63, 0xc4), (0x64, 0xc0), (0x65, 0xc1), (0x66, 0xc3), (0x67, 0xc5),
    (0x68, 0xc7), (0x69, 0xd1), (0x6a, 0xf9), (0x6b, 0x2c), (0x6c, 0x25), (0x6d, 0x5f), (0x6e, 0x3e), (0x6f, 0x3f),
    (0x70, 0xf8), (0x71, 0xc9), (0x72, 0xca), (0x73, 0xcb), (0x74, 0xc8), (0x75, 0xcd), (0x76, 0xce), (0x77, 0xcf),
    (0x78, 0xcc), (0x79, 0xb5), (0x7a, 0x3a), (0x7b, 0xa3), (0x7c, 0xe0), (0x7d, 0x27), (0x7e, 0x3d), (0x7f, 0x22),
    (0x80, 0xd8), (0x81, 0x61), (0x82, 0x62), (0x83, 0x63), (0x84, 0x64), (0x85, 0x65), (0x86, 0x66), (0x87, 0x67),
    (0x88, 0x68), (0x89, 0x69), (0x8a, 0xab), (0x8b, 0xbb), (0x8c, 0xf0), (0x8d, 0xfd), (0x8e, 0xfe), (0x8f, 0xb1),
    (0x90, 0x5b), (0x91, 0x6a), (0x92, 0x6b), (0x93, 0x6c), (0x94, 0x6d), (0x95, 0x6e), (0x96, 0x6f), (0x97, 0x70),
    (0x98, 0x71), (0x99, 0x72), (0x9a, 0xaa), (0x9b, 0xba), (0x9c, 0xe6), (0x9d, 0xb8), (0x9e, 0xc6), (0x9f, 0x20ac),
    (0xa0, 0x60), (0xa1, 0xa8), (0xa2, 0x73), (0xa3, 0x74), (0xa4, 0x75), (0xa5, 0x76), (0xa6, 0x77), (0xa7, 0x78),
    (0xa8, 0x79), (0xa9, 0x7a), (0xaa, 0xa1), (0xab, 0xbf), (0xac, 0xd0), (0xad, 0xdd), (0xae, 0xde), (0xaf, 0xae),
    (0xb0, 0xa2), (0xb1, 0x23), (0xb2, 0xa5), (0xb3, 0xb7), (0xb4, 0xa9), (0xb5, 0x5d), (0xb6, 0xb6), (0xb7, 0xbc),
    (0xb8, 0xbd), (0xb9, 0xbe), (0xba, 0xac), (0xbb, 0x7c), (0xbc, 0xaf), (0xbd, 0x7e), (0xbe, 0xb4), (0xbf, 0xd7),
    (0xc0, 0xe9), (0xc1, 0x41), (0xc2, 0x42), (0xc3, 0x43), (0xc4, 0x44), (0xc5, 0x45), (0xc6, 0x46), (0xc7, 0x47),
    (0xc8, 0x48), (0xc9, 0x49), (0xca, 0xad), (0xcb, 0xf4), (0xcc, 0xf6), (0xcd, 0xf2), (0xce, 0xf3), (0xcf, 0xf5),
    (0xd0, 0xe8), (0xd1, 0x4a), (0xd2, 0x4b), (0xd3, 0x4c), (0xd4, 0x4d), (0xd5, 0x4e), (0xd6, 0x4f), (0xd7, 0x50),
    (0xd8, 0x51), (0xd9, 0x52), (0xda, 0xb9), (0xdb, 0xfb), (0xdc, 0xfc), (0xdd, 0xa6), (0xde, 0xfa), (0xdf, 0xff),
    (0xe0, 0xe7), (0xe1, 0xf7), (0xe2, 0x53), (0xe3, 0x54), (0xe4, 0x55), (0xe5, 0x56), (0xe6, 0x57), (0xe7, 0x58),
    (0xe8, 0x59), (0xe9, 0x5a), (0xea, 0xb2), (0xeb, 0xd4), (0xec, 0xd6), (0xed, 0xd2), (0xee, 0xd3), (0xef, 0xd5),
    (0xf0, 0x30), (0xf1, 0x31), (0xf2, 0x32), (0xf3, 0x33), (0xf4, 0x34), (0xf5, 0x35), (0xf6, 0x36), (0xf7, 0x37),
    (0xf8, 0x38), (0xf9, 0x39), (0xfa, 0xb3), (0xfb, 0xdb), (0xfc, 0xdc), (0xfd, 0xd9), (0xfe, 0xda), (0xff, 0x9f)]

/-- There is no file of irreversible mappings in `tests/data`. -/
def ebcdic1147_irr : List (Nat × Nat) := []

/-- `tests/data/IBM-1148.TXT`. -/
def ebcdic1148_from : List (Nat × Nat) :=
  [(0x0, 0x0), (0x1, 0x1), (0x2, 0x2), (0x3, 0x3), (0x4, 0x9c), (0x5, 0x9), (0x6, 0x86), (0x7, 0x7f),
    (0x8, 0x97), (0x9, 0x8d), (0xa, 0x8e), (0xb, 0xb), (0xc, 0xc), (0xd, 0xd), (0xe, 0xe), (0xf, 0xf),
    (0x10, 0x10), (0x11, 0x11), (0x12, 0x12), (0x13, 0x13), (0x14, 0x9d), (0x15, 0x85), (0x16, 0x8), (0x17, 0x87),
    (0x18, 0x18), (0x19, 0x19), (0x1a, 0x92), (0x1b, 0x8f), (0x1c, 0x1c), (0x1d, 0x1d), (0x1e, 0x1e), (0x1f, 0x1f),
    (0x20, 0x80), (0x21, 0x81), (0x22, 0x82), (0x23, 0x83), (0x24, 0x84), (0x25, 0xa), (0x26, 0x17), (0x27, 0x1b),
    (0x28, 0x88), (0x29, 0x89), (0x2a, 0x8a), (0x2b, 0x8b), (0x2c, 0x8c), (0x2d, 0x5), (0x2e, 0x6), (0x2f, 0x7),
    (0x30, 0x90), (0x31, 0x91), (0x32, 0x16), (0x33, 0x93), (0x34, 0x94), (0x35, 0x95), (0x36, 0x96), (0x37, 0x4),
    (0x38, 0x98), (0x39, 0x99), (0x3a, 0x9a), (0x3b, 0x9b), (0x3c, 0x14), (0x3d, 0x15), (0x3e, 0x9e), (0x3f, 0x1a),
    (0x40, 0x20), (0x41, 0xa0), (0x42, 0xe2), (0x43, 0xe4), (0x44, 0xe0), (0x45, 0xe1), (0x46, 0xe3), (0x47, 0xe5),
    (0x48, 0xe7), (0x49, 0xf1), (0x4a, 0x5b), (0x4b, 0x2e), (0x4c, 0x3c), (0x4d, 0x28), (0x4e, 0x2b), (0x4f, 0x21),
    (0x50, 0x26), (0x51, 0xe9), (0x52, 0xea), (0x53, 0xeb), (0x54, 0xe8), (0x55, 0xed), (0x56, 0xee), (0x57, 0xef),
    (0x58, 0xec), (0x59, 0xdf), (0x5a, 0x5d), (0x5b, 0x24), (0x5c, 0x2a), (0x5d, 0x29), (0x5e, 0x3b), (0x5f, 0x5e),
    (0x60, 0x2d), (0x61, 0x2f), (0x62, 0xc2), (0x63, 0xc4), (0x64, 0xc0), (0x65, 0xc1), (0x66, 0xc3), (0x67, 0xc5),
    (0x68, 0xc7), (0x69, 0xd1), (0x6a, 0xa6), (0x6b, 0x2c), (0x6c, 0x25), (0x6d, 0x5f), (0x6e, 0x3e), (0x6f, 0x3f),
    (0x70, 0xf8), (0x71, 0xc9), (0x72, 0xca), (0x73, 0xcb), (0x74, 0xc8), (0x75, 0xcd), (0x76, 0xce), (0x77, 0xcf),
    (0x78, 0xcc), (0x79, 0x60), (0x7a, 0x3a), (0x7b, 0x23), (0x7c, 0x40), (0x7d, 0x27), (0x7e, 0x3d), (0x7f, 0x22),
    (0x80, 0xd8), (0x81, 0x61), (0x82, 0x62), (0x83, 0x63), (0x84, 0x64), (0x85, 0x65), (0x86, 0x66), (0x87, 0x67),
    (0x88, 0x68), (0x89, 0x69), (0x8a, 0xab), (0x8b, 0xbb), (0x8c, 0xf0), (0x8d, 0xfd), (0x8e, 0xfe), (0x8f, 0xb1),
    (0x90, 0xb0), (0x91, 0x6a), (0x92, 0x6b), (0x93, 0x6c), (0x94, 0x6d), (0x95, 0x6e), (0x96, 0x6f), (0x97, 0x70),
    (0x98, 0x71), (0x99, 0x72), (0x9a, 0xaa), (0x9b, 0xba), (0x9c, 0xe6), (0x9d, 0xb8), (0x9e, 0xc6), (0x9f, 0x20ac),
    (0xa0, 0xb5), (0xa1, 0x7e), (0xa2, 0x73), (0xa3, 0x74), (0xa4, 0x75), (0xa5, 0x76), (0xa6, 0x77), (0xa7, 0x78),
    (0xa8, 0x79), (0xa9, 0x7a), (0xaa, 0xa1), (0xab, 0xbf), (0xac, 0xd0), (0xad, 0xdd), (0xae, 0xde), (0xaf, 0xae),
    (0xb0, 0xa2), (0xb1, 0xa3), (0xb2, 0xa5), (0xb3, 0xb7), (0xb4, 0xa9), (0xb5, 0xa7), (0xb6, 0xb6), (0xb7, 0xbc),
    (0xb8, 0xbd), (0xb9, 0xbe), (0xba, 0xac), (0xbb, 0x7c), (0xbc, 0xaf), (0xbd, 0xa8), (0xbe, 0xb4), (0xbf, 0xd7),
    (0xc0, 0x7b), (0xc1, 0x41), (0xc2, 0x42), (0xc3, 0x43), (0xc4, 0x44), (0xc5, 0x45), (0xc6, 0x46), (0xc7, 0x47),
    (0xc8, 0x48), (0xc9, 0x49), (0xca, 0xad), (0xcb, 0xf4), (0xcc, 0xf6), (0xcd, 0xf2), (0xce, 0xf3), (0xcf, 0xf5),
    (0xd0, 0x7d), (0xd1, 0x4a), (0xd2, 0x4b), (0xd3, 0x4c), (0xd4, 0x4d), (0xd5, 0x4e), (0xd6, 0x4f), (0xd7, 0x50),
    (0xd8, 0x51), (0xd9, 0x52), (0xda, 0xb9), (0xdb, 0xfb), (0xdc, 0xfc), (0xdd, 0xf9), (0xde, 0xfa), (0xdf, 0xff),
    (0xe0, 0x5c), (0xe1, 0xf7), (0xe2, 0x53), (0xe3, 0x54), (0xe4, 0x55), (0xe5, 0x56), (0xe6, 0x57), (0xe7, 0x58),
    (0xe8, 0x59), (0xe9, 0x5a), (0xea, 0xb2), (0xeb, 0xd4), (0xec, 0xd6), (0xed, 0xd2), (0xee, 0xd3), (0xef, 0xd5),
    (0xf0, 0x30), (0xf1, 0x31), (0xf2, 0x32), (0xf3, 0x33), (0xf4, 0x34), (0xf5, 0x35), (0xf6, 0x36), (0xf7, 0x37),
    (0xf8, 0x38), (0xf9, 0x39), (0xfa, 0xb3), (0xfb, 0xdb), (0xfc, 0xdc), (0xfd, 0xd9), (0xfe, 0xda), (0xff, 0x9f)]

/-- There is no file of irreversible mappings in `tests/data`. -/
def ebcdic1148_irr : List (Nat × Nat) := []

/-- `tests/data/IBM-1149.TXT`. -/
def ebcdic1149_from : List (Nat × Nat) :=
  [(0x0, 0x0), (0x1, 0x1), (0x2, 0x2), (0x3, 0x3), (0x4, 0x9c), (0x5, 0x9), (0x6, 0x86), (0x7, 0x7f),
    (0x8, 0x97), (0x9, 0x8d), (0xa, 0x8e), (0xb, 0xb), (0xc, 0xc), (0xd, 0xd), (0xe, 0xe), (0xf, 0xf),
    (0x10, 0x10), (0x11, 0x11), (0x12, 0x12), (0x13, 0x13), (0x14, 0x9d), (0x15, 0x85), (0x16, 0x8), (0x17, 0x87),
    (0x18, 0x18), (0x19, 0x19), (0x1a, 0x92), (0x1b, 0x8f), (0x1c, 0x1c), (0x1d, 0x1d), (0x1e, 0x1e), (0x1f, 0x1f),
    (0x20, 0x80), (0x21, 0x81), (0x22, 0x82), (0x23, 0x83), (0x24, 0x84), (0x25, 0xa), (0x26, 0x17), (0x27, 0x1b),
    (0x28, 0x88), (0x29, 0x89), (0x2a, 0x8a), (0x2b, 0x8b), (0x2c, 0x8c), (0x2d, 0x5), (0x2e, 0x6), (0x2f, 0x7),
    (0x30, 0x90), (0x31, 0x91), (0x32, 0x16), (0x33, 0x93), (0x34, 0x94), (0x35, 0x95), (0x36, 0x96), (0x37, 0x4),
    (0x38, 0x98), (0x39, 0x99), (0x3a, 0x9a), (0x3b, 0x9b), (0x3c, 0x14), (0x3d, 0x15), (0x3e, 0x9e), (0x3f, 0x1a),
    (0x40, 0x20), (0x41, 0xa0), (0x42, 0xe2), (0x43, 0xe4), (0x44, 0xe0), (0x45, 0xe1), (0x46, 0xe3), (0x47, 0xe5),
    (0x48, 0xe7), (0x49, 0xf1), (0x4a, 0xde), (0x4b, 0x2e), (0x4c, 0x3c), (0x4d, 0x28), (0x4e, 0x2b), (0x4f, 0x21),
    (0x50, 0x26), (0x51, 0xe9), (0x52, 0xea), (0x53, 0xeb), (0x54, 0xe8), (0x55, 0xed), (0x56, 0xee), (0x57, 0xef),
    (0x58, 0xec), (0x59, 0xdf), (0x5a, 0xc6), (0x5b, 0x24), (0x5c, 0x2a), (0x5d, 0x29), (0x5e, 0x3b), (0x5f, 0xd6),
    (0x60, 0x2d), (0x61, 0x2f), (0x62, 0xc2), (0x63, 0xc4), (0x64, 0xc0), (0x65, 0xc1), (0x66, 0xc3), (0x67, 0xc5),
    (0x68, 0xc7), (0x69, 0xd1), (0x6a, 0xa6), (0x6b, 0x2c), (0x6c, 0x25), (0x6d, 0x5f), (0x6e, 0x3e), (0x6f, 0x3f),
    (0x70, 0xf8), (0x71, 0xc9), (0x72, 0xca), (0x73, 0xcb), (0x74, 0xc8), (0x75, 0xcd), (0x76, 0xce), (0x77, 0xcf),
    (0x78, 0xcc), (0x79, 0xf0), (0x7a, 0x3a), (0x7b, 0x23), (0x7c, 0xd0), (0x7d, 0x27), (0x7e, 0x3d), (0x7f, 0x22),
    (0x80, 0xd8), (0x81, 0x61), (0x82, 0x62), (0x83, 0x63), (0x84, 0x64), (0x85, 0x65), (0x86, 0x66), (0x87, 0x67),
    (0x88, 0x68), (0x89, 0x69), (0x8a, 0xab), (0x8b, 0xbb), (0x8c, 0x60), (0x8d, 0xfd), (0x8e, 0x7b), (0x8f, 0xb1),
    (0x90, 0xb0), (0x91, 0x6a), (0x92, 0x6b), (0x93, 0x6c), (0x94, 0x6d), (0x95, 0x6e), (0x96, 0x6f), (0x97, 0x70),
    (0x98, 0x71), (0x99, 0x72), (0x9a, 0xaa), (0x9b, 0xba), (0x9c, 0x7d), (0x9d, 0xb8), (0x9e, 0x5d), (0x9f, 0x20ac),
    (0xa0, 0xb5), (0xa1, 0xf6), (0xa2, 0x73), (0xa3, 0x74), (0xa4, 0x75), (0xa5, 0x76), (0xa6, 0x77), (0xa7, 0x78),
    (0xa8, 0x79), (0xa9, 0x7a), (0xaa, 0xa1), (0xab, 0xbf), (0xac, 0x40), (0xad, 0xdd), (0xae, 0x5b), (0xaf, 0xae),
    (0xb0, 0xa2), (0xb1, 0xa3), (0xb2, 0xa5), (0xb3, 0xb7), (0xb4, 0xa9), (0xb5, 0xa7), (0xb6, 0xb6), (0xb7, 0xbc),
    (0xb8, 0xbd), (0xb9, 0xbe), (0xba, 0xac), (0xbb, 0x7c), (0xbc, 0xaf), (0xbd, 0xa8), (0xbe, 0x5c), (0xbf, 0xd7),
    (0xc0, 0xfe), (0xc1, 0x41), (0xc2, 0x42), (0xc3, 0x43), (0xc4, 0x44), (0xc5, 0x45), (0xc6, 0x46), (0xc7, 0x47),
    (0xc8, 0x48), (0xc9, 0x49), (0xca, 0xad), (0xcb, 0xf4), (0xcc, 0x7e), (0xcd, 0xf2), (0xce, 0xf3), (0xcf, 0xf5),
    (0xd0, 0xe6), (0xd1, 0x4a), (0xd2, 0x4b), (0xd3, 0x4c), (0xd4, 0x4d), (0xd5, 0x4e), (0xd6, 0x4f), (0xd7, 0x50),
    (0xd8, 0x51), (0xd9, 0x52), (0xda, 0xb9), (0xdb, 0xfb), (0xdc, 0xfc), (0xdd, 0xf9), (0xde, 0xfa), (0xdf, 0xff),
    (0xe0, 0xb4), (0xe1, 0xf7), (0xe2, 0x53), (0xe3, 0x54), (0xe4, 0x55), (0xe5, 0x56), (0xe6, 0x57), (0xe7, 0x58),
    (0xe8, 0x59), (0xe9, 0x5a), (0xea, 0xb2), (0xeb, 0xd4), (0xec, 0x5e), (0xed, 0xd2), (0xee, 0xd3), (0xef, 0xd5),
    (0xf0, 0x30), (0xf1, 0x31), (0xf2, 0x32), (0xf3, 0x33), (0xf4, 0x34), (0xf5, 0x35), (0xf6, 0x36), (0xf7, 0x37),
    (0xf8, 0x38), (0xf9, 0x39), (0xfa, 0xb3), (0xfb, 0xdb), (0xfc, 0xdc), (0xfd, 0xd9), (0xfe, 0xda), (0xff, 0x9f)]

/-- There is no file of irreversible mappings in `tests/data`. -/
def ebcdic1149_irr : List (Nat × Nat) := []

/-- `tests/data/IBM-1153.TXT`. -/
def ebcdic1153_from : List (Nat × Nat) :=
  [(0x0, 0x0), (0x1, 0x1), (0x2, 0x2), (0x3, 0x3), (0x4, 0x9c), (0x5, 0x9), (0x6, 0x86), (0x7, 0x7f),
    (0x8, 0x97), (0x9, 0x8d), (0xa, 0x8e), (0xb, 0xb), (0xc, 0xc), (0xd, 0xd), (0xe, 0xe), (0xf, 0xf),
    (0x10, 0x10), (0x11, 0x11), (0x12, 0x12), (0x13, 0x13), (0x14, 0x9d), (0x15, 0x85), (0x16, 0x8), (0x17, 0x87),
    (0x18, 0x18), (0x19, 0x19), (0x1a, 0x92), (0x1b, 0x8f), (0x1c, 0x1c), (0x1d, 0x1d), (0x1e, 0x1e), (0x1f, 0x1f),
    (0x20, 0x80), (0x21, 0x81), (0x22, 0x82), (0x23, 0x83), (0x24, 0x84), (0x25, 0xa), (0x26, 0x17), (0x27, 0x1b),
    (0x28, 0x88), (0x29, 0x89), (0x2a, 0x8a), (0x2b, 0x8b), (0x2c, 0x8c), (0x2d, 0x5), (0x2e, 0x6), (0x2f, 0x7),
    (0x30, 0x90), (0x31, 0x91), (0x32, 0x16), (0x33, 0x93), (0x34, 0x94), (0x35, 0x95), (0x36, 0x96), (0x37, 0x4),
    (0x38, 0x98), (0x39, 0x99), (0x3a, 0x9a), (0x3b, 0x9b), (0x3c, 0x14), (0x3d, 0x15), (0x3e, 0x9e), (0x3f, 0x1a),
    (0x40, 0x20), (0x41, 0xa0), (0x42, 0xe2), (0x43, 0xe4), (0x44, 0x163), (0x45, 0xe1), (0x46, 0x103), (0x47, 0x10d),
    (0x48, 0xe7), (0x49, 0x107), (0x4a, 0x5b), (0x4b, 0x2e), (0x4c, 0x3c), (0x4d, 0x28), (0x4e, 0x2b), (0x4f, 0x21),
    (0x50, 0x26), (0x51, 0xe9), (0x52, 0x119), (0x53, 0xeb), (0x54, 0x16f), (0x55, 0xed), (0x56, 0xee), (0x57, 0x13e),
    (0x58, 0x13a), (0x59, 0xdf), (0x5a, 0x5d), (0x5b, 0x24), (0x5c, 0x2a), (0x5d, 0x29), (0x5e, 0x3b), (0x5f, 0x5e),
    (0x60, 0x2d), (0x61, 0x2f), (0x62, 0xc2), (0x63, 0xc4), (0x64, 0x2dd), (0x65, 0xc1), (0x66, 0x102), (0x67, 0x10c),
    (0x68, 0xc7), (0x69, 0x106), (0x6a, 0x7c), (0x6b, 0x2c), (0x6c, 0x25), (0x6d, 0x5f), (0x6e, 0x3e), (0x6f, 0x3f),
    (0x70, 0x2c7), (0x71, 0xc9), (0x72, 0x118), (0x73, 0xcb), (0x74, 0x16e), (0x75, 0xcd), (0x76, 0xce), (0x77, 0x13d),
    (0x78, 0x139), (0x79, 0x60), (0x7a, 0x3a), (0x7b, 0x23), (0x7c, 0x40), (0x7d, 0x27), (0x7e, 0x3d), (0x7f, 0x22),
    (0x80, 0x2d8), (0x81, 0x61), (0x82, 0x62), (0x83, 0x63), (0x84, 0x64), (0x85, 0x65), (0x86, 0x66), (0x87, 0x67),
    (0x88, 0x68), (0x89, 0x69), (0x8a, 0x15b), (0x8b, 0x148), (0x8c, 0x111), (0x8d, 0xfd), (0x8e, 0x159), (0x8f, 0x15f),
    (0x90, 0xb0), (0x91, 0x6a), (0x92, 0x6b), (0x93, 0x6c), (0x94, 0x6d), (0x95, 0x6e), (0x96, 0x6f), (0x97, 0x70),
    (0x98, 0x71), (0x99, 0x72), (0x9a, 0x142), (0x9b, 0x144), (0x9c, 0x161), (0x9d, 0xb8), (0x9e, 0x2db), (0x9f, 0x20ac),
    (0xa0, 0x105), (0xa1, 0x7e), (0xa2, 0x73), (0xa3, 0x74), (0xa4, 0x75), (0xa5, 0x76), (0xa6, 0x77), (0xa7, 0x78),
    (0xa8, 0x79), (0xa9, 0x7a), (0xaa, 0x15a), (0xab, 0x147), (0xac, 0x110), (0xad, 0xdd), (0xae, 0x158), (0xaf, 0x15e),
    (0xb0, 0x2d9), (0xb1, 0x104), (0xb2, 0x17c), (0xb3, 0x162), (0xb4, 0x17b), (0xb5, 0xa7), (0xb6, 0x17e), (0xb7, 0x17a),
    (0xb8, 0x17d), (0xb9, 0x179), (0xba, 0x141), (0xbb, 0x143), (0xbc, 0x160), (0xbd, 0xa8), (0xbe, 0xb4), (0xbf, 0xd7),
    (0xc0, 0x7b), (0xc1, 0x41), (0xc2, 0x42), (0xc3, 0x43), (0xc4, 0x44), (0xc5, 0x45), (0xc6, 0x46), (0xc7, 0x47),
    (0xc8, 0x48), (0xc9, 0x49), (0xca, 0xad), (0xcb, 0xf4), (0xcc, 0xf6), (0xcd, 0x155), (0xce, 0xf3), (0xcf, 0x151),
    (0xd0, 0x7d), (0xd1, 0x4a), (0xd2, 0x4b), (0xd3, 0x4c), (0xd4, 0x4d), (0xd5, 0x4e), (0xd6, 0x4f), (0xd7, 0x50),
    (0xd8, 0x51), (0xd9, 0x52), (0xda, 0x11a), (0xdb, 0x171), (0xdc, 0xfc), (0xdd, 0x165), (0xde, 0xfa), (0xdf, 0x11b),
    (0xe0, 0x5c), (0xe1, 0xf7), (0xe2, 0x53), (0xe3, 0x54), (0xe4, 0x55), (0xe5, 0x56), (0xe6, 0x57), (0xe7, 0x58),
    (0xe8, 0x59), (0xe9, 0x5a), (0xea, 0x10f), (0xeb, 0xd4), (0xec, 0xd6), (0xed, 0x154), (0xee, 0xd3), (0xef, 0x150),
    (0xf0, 0x30), (0xf1, 0x31), (0xf2, 0x32), (0xf3, 0x33), (0xf4, 0x34), (0xf5, 0x35), (0xf6, 0x36), (0xf7, 0x37),
    (0xf8, 0x38), (0xf9, 0x39), (0xfa, 0x10e), (0xfb, 0x170), (0xfc, 0xdc), (0xfd, 0x164), (0xfe, 0xda), (0xff, 0x9f)]

/-- There is no file of irreversible mappings in `tests/data`. -/
def ebcdic1153_irr : List (Nat × Nat) := []

/-- `tests/data/IBM-1154.TXT`. -/
def ebcdic1154_from : List (Nat × Nat) :=
  [(0x0, 0x0), (0x1, 0x1), (0x2, 0x2), (0x3, 0x3), (0x4, 0x9c), (0x5, 0x9), (0x6, 0x86), (0x7, 0x7f),
    (0x8, 0x97), (0x9, 0x8d), (0xa, 0x8e), (0xb, 0xb), (0xc, 0xc), (0xd, 0xd), (0xe, 0xe), (0xf, 0xf),
    (0x10, 0x10), (0x11, 0x11), (0x12, 0x12), (0x13, 0x13), (0x14, 0x9d), (0x15, 0x85), (0x16, 0x8), (0x17, 0x87),
    (0x18, 0x18), (0x19, 0x19), (0x1a, 0x92), (0x1b, 0x8f), (0x1c, 0x1c), (0x1d, 0x1d), (0x1e, 0x1e), (0x1f, 0x1f),
    (0x20, 0x80), (0x21, 0x81), (0x22, 0x82), (0x23, 0x83), (0x24, 0x84), (0x25, 0xa), (0x26, 0x17), (0x27, 0x1b),
    (0x28, 0x88), (0x29, 0x89), (0x2a, 0x8a), (0x2b, 0x8b), (0x2c, 0x8c), (0x2d, 0x5), (0x2e, 0x6), (0x2f, 0x7),
    (0x30, 0x90), (0x31, 0x91), (0x32, 0x16), (0x33, 0x93), (0x34, 0x94), (0x35, 0x95), (0x36, 0x96), (0x37, 0x4),
    (0x38, 0x98), (0x39, 0x99), (0x3a, 0x9a), (0x3b, 0x9b), (0x3c, 0x14), (0x3d, 0x15), (0x3e, 0x9e), (0x3f, 0x1a),
    (0x40, 0x20), (0x41, 0xa0), (0x42, 0x452), (0x43, 0x453), (0x44, 0x451), (0x45, 0x454), (0x46, 0x455), (0x47, 0x456),
    (0x48, 0x457), (0x49, 0x458), (0x4a, 0x5b), (0x4b, 0x2e), (0x4c, 0x3c), (0x4d, 0x28), (0x4e, 0x2b), (0x4f, 0x21),
    (0x50, 0x26), (0x51, 0x459), (0x52, 0x45a), (0x53, 0x45b), (0x54, 0x45c), (0x55, 0x45e), (0x56, 0x45f), (0x57, 0x42a),
    (0x58, 0x2116), (0x59, 0x402), (0x5a, 0x5d), (0x5b, 0x24), (0x5c, 0x2a), (0x5d, 0x29), (0x5e, 0x3b), (0x5f, 0x5e),
    (0x60, 0x2d), (0x61, 0x2f), (0x62, 0x403), (0x63, 0x401), (0x64, 0x404), (0x65, 0x405), (0x66, 0x406), (0x67, 0x407),
    (0x68, 0x408), (0x69, 0x409), (0x6a, 0x7c), (0x6b, 0x2c), (0x6c, 0x25), (0x6d, 0x5f), (0x6e, 0x3e), (0x6f, 0x3f),
    (0x70, 0x40a), (0x71, 0x40b), (0x72, 0x40c), (0x73, 0xad), (0x74, 0x40e), (0x75, 0x40f), (0x76, 0x44e), (0x77, 0x430),
    (0x78, 0x431), (0x79, 0x60), (0x7a, 0x3a), (0x7b, 0x23), (0x7c, 0x40), (0x7d, 0x27), (0x7e, 0x3d), (0x7f, 0x22),
    (0x80, 0x446), (0x81, 0x61), (0x82, 0x62), (0x83, 0x63), (0x84, 0x64), (0x85, 0x65), (0x86, 0x66), (0x87, 0x67),
    (0x88, 0x68), (0x89, 0x69), (0x8a, 0x434), (0x8b, 0x435), (0x8c, 0x444), (0x8d, 0x433), (0x8e, 0x445), (0x8f, 0x438),
    (0x90, 0x439), (0x91, 0x6a), (0x92, 0x6b), (0x93, 0x6c), (0x94, 0x6d), (0x95, 0x6e), (0x96, 0x6f), (0x97, 0x70),
    (0x98, 0x71), (0x99, 0x72), (0x9a, 0x43a), (0x9b, 0x43b), (0x9c, 0x43c), (0x9d, 0x43d), (0x9e, 0x43e), (0x9f, 0x43f),
    (0xa0, 0x44f), (0xa1, 0x7e), (0xa2, 0x73), (0xa3, 0x74), (0xa4, 0x75), (0xa5, 0x76), (0xa6, 0x77), (0xa7, 0x78),
    (0xa8, 0x79), (0xa9, 0x7a), (0xaa, 0x440), (0xab, 0x441), (0xac, 0x442), (0xad, 0x443), (0xae, 0x436), (0xaf, 0x432),
    (0xb0, 0x44c), (0xb1, 0x44b), (0xb2, 0x437), (0xb3, 0x448), (0xb4, 0x44d), (0xb5, 0x449), (0xb6, 0x447), (0xb7, 0x44a),
    (0xb8, 0x42e), (0xb9, 0x410), (0xba, 0x411), (0xbb, 0x426), (0xbc, 0x414), (0xbd, 0x415), (0xbe, 0x424), (0xbf, 0x413),
    (0xc0, 0x7b), (0xc1, 0x41), (0xc2, 0x42), (0xc3, 0x43), (0xc4, 0x44), (0xc5, 0x45), (0xc6, 0x46), (0xc7, 0x47),
    (0xc8, 0x48), (0xc9, 0x49), (0xca, 0x425), (0xcb, 0x418), (0xcc, 0x419), (0xcd, 0x41a), (0xce, 0x41b), (0xcf, 0x41c),
    (0xd0, 0x7d), (0xd1, 0x4a), (0xd2, 0x4b), (0xd3, 0x4c), (0xd4, 0x4d), (0xd5, 0x4e), (0xd6, 0x4f), (0xd7, 0x50),
    (0xd8, 0x51), (0xd9, 0x52), (0xda, 0x41d), (0xdb, 0x41e), (0xdc, 0x41f), (0xdd, 0x42f), (0xde, 0x420), (0xdf, 0x421),
    (0xe0, 0x5c), (0xe1, 0x20ac), (0xe2, 0x53), (0xe3, 0x54), (0xe4, 0x55), (0xe5, 0x56), (0xe6, 0x57), (0xe7, 0x58),
    (0xe8, 0x59), (0xe9, 0x5a), (0xea, 0x422), (0xeb, 0x423), (0xec, 0x416), (0xed, 0x412), (0xee, 0x42c), (0xef, 0x42b),
    (0xf0, 0x30), (0xf1, 0x31), (0xf2, 0x32), (0xf3, 0x33), (0xf4, 0x34), (0xf5, 0x35), (0xf6, 0x36), (0xf7, 0x37),
    (0xf8, 0x38), (0xf9, 0x39), (0xfa, 0x417), (0xfb, 0x428), (0xfc, 0x42d), (0xfd, 0x429), (0xfe, 0x427), (0xff, 0x9f)]

/-- There is no file of irreversible mappings in `tests/data`. -/
def ebcdic1154_irr : List (Nat × Nat) := []

/-- `tests/data/IBM-1155.TXT`. -/
def ebcdic1155_from : List (Nat × Nat) :=
  [(0x0, 0x0), (0x1, 0x1), (0x2, 0x2), (0x3, 0x3), (0x4, 0x9c), (0x5, 0x9), (0x6, 0x86), (0x7, 0x7f),
    (0x8, 0x97), (0x9, 0x8d), (0xa, 0x8e), (0xb, 0xb), (0xc, 0xc), (0xd, 0xd), (0xe, 0xe), (0xf, 0xf),
    (0x10, 0x10), (0x11, 0x11), (0x12, 0x12), (0x13, 0x13), (0x14, 0x9d), (0x15, 0x85), (0x16, 0x8), (0x17, 0x87),
    (0x18, 0x18), (0x19, 0x19), (0x1a, 0x92), (0x1b, 0x8f), (0x1c, 0x1c), (0x1d, 0x1d), (0x1e, 0x1e), (0x1f, 0x1f),
    (0x20, 0x80), (0x21, 0x81), (0x22, 0x82), (0x23, 0x83), (0x24, 0x84), (0x25, 0xa), (0x26, 0x17), (0x27, 0x1b),
    (0x28, 0x88), (0x29, 0x89), (0x2a, 0x8a), (0x2b, 0x8b), (0x2c, 0x8c), (0x2d, 0x5), (0x2e, 0x6), (0x2f, 0x7),
    (0x30, 0x90), (0x31, 0x91), (0x32, 0x16), (0x33, 0x93), (0x34, 0x94), (0x35, 0x95), (0x36, 0x96), (0x37, 0x4),
    (0x38, 0x98), (0x39, 0x99), (0x3a, 0x9a), (0x3b, 0x9b), (0x3c, 0x14), (0x3d, 0x15), (0x3e, 0x9e), (0x3f, 0x1a),
    (0x40, 0x20), (0x41, 0xa0), (0x42, 0xe2), (0x43, 0xe4), (0x44, 0xe0), (0x45, 0xe1), (0x46, 0xe3), (0x47, 0xe5),
    (0x48, 0x7b), (0x49, 0xf1), (0x4a, 0xc7), (0x4b, 0x2e), (0x4c, 0x3c), (0x4d, 0x28), (0x4e, 0x2b), (0x4f, 0x21),
    (0x50, 0x26), (0x51, 0xe9), (0x52, 0xea), (0x53, 0xeb), (0x54, 0xe8), (0x55, 0xed), (0x56, 0xee), (0x57, 0xef),
    (0x58, 0xec), (0x59, 0xdf), (0x5a, 0x11e), (0x5b, 0x130), (0x5c, 0x2a), (0x5d, 0x29), (0x5e, 0x3b), (0x5f, 0x5e),
    (0x60, 0x2d), (0x61, 0x2f), (0x62, 0xc2), (0x63, 0xc4), (0x64, 0xc0), (0x65, 0xc1), (0x66, 0xc3), (0x67, 0xc5),
    (0x68, 0x5b), (0x69, 0xd1), (0x6a, 0x15f), (0x6b, 0x2c), (0x6c, 0x25), (0x6d, 0x5f), (0x6e, 0x3e), (0x6f, 0x3f),
    (0x70, 0xf8), (0x71, 0xc9), (0x72, 0xca), (0x73, 0xcb), (0x74, 0xc8), (0x75, 0xcd), (0x76, 0xce), (0x77, 0xcf),
    (0x78, 0xcc), (0x79, 0x131), (0x7a, 0x3a), (0x7b, 0xd6), (0x7c, 0x15e), (0x7d, 0x27), (0x7e, 0x3d), (0x7f, 0xdc),
    (0x80, 0xd8), (0x81, 0x61), (0x82, 0x62), (0x83, 0x63), (0x84, 0x64), (0x85, 0x65), (0x86, 0x66), (0x87, 0x67),
    (0x88, 0x68), (0x89, 0x69), (0x8a, 0xab), (0x8b, 0xbb), (0x8c, 0x7d), (0x8d, 0x60), (0x8e, 0xa6), (0x8f, 0xb1),
    (0x90, 0xb0), (0x91, 0x6a), (0x92, 0x6b), (0x93, 0x6c), (0x94, 0x6d), (0x95, 0x6e), (0x96, 0x6f), (0x97, 0x70),
    (0x98, 0x71), (0x99, 0x72), (0x9a, 0xaa), (0x9b, 0xba), (0x9c, 0xe6), (0x9d, 0xb8), (0x9e, 0xc6), (0x9f, 0x20ac),
    (0xa0, 0xb5), (0xa1, 0xf6), (0xa2, 0x73), (0xa3, 0x74), (0xa4, 0x75), (0xa5, 0x76), (0xa6, 0x77), (0xa7, 0x78),
    (0xa8, 0x79), (0xa9, 0x7a), (0xaa, 0xa1), (0xab, 0xbf), (0xac, 0x5d), (0xad, 0x24), (0xae, 0x40), (0xaf, 0xae),
    (0xb0, 0xa2), (0xb1, 0xa3), (0xb2, 0xa5), (0xb3, 0xb7), (0xb4, 0xa9), (0xb5, 0xa7), (0xb6, 0xb6), (0xb7, 0xbc),
    (0xb8, 0xbd), (0xb9, 0xbe), (0xba, 0xac), (0xbb, 0x7c), (0xbc, 0xaf), (0xbd, 0xa8), (0xbe, 0xb4), (0xbf, 0xd7),
    (0xc0, 0xe7), (0xc1, 0x41), (0xc2, 0x42), (0xc3, 0x43), (0xc4, 0x44), (0xc5, 0x45), (0xc6, 0x46), (0xc7, 0x47),
    (0xc8, 0x48), (0xc9, 0x49), (0xca, 0xad), (0xcb, 0xf4), (0xcc, 0x7e), (0xcd, 0xf2), (0xce, 0xf3), (0xcf, 0xf5),
    (0xd0, 0x11f), (0xd1, 0x4a), (0xd2, 0x4b), (0xd3, 0x4c), (0xd4, 0x4d), (0xd5, 0x4e), (0xd6, 0x4f), (0xd7, 0x50),
    (0xd8, 0x51), (0xd9, 0x52), (0xda, 0xb9), (0xdb, 0xfb), (0xdc, 0x5c), (0xdd, 0xf9), (0xde, 0xfa), (0xdf, 0xff),
    (0xe0, 0xfc), (0xe1, 0xf7), (0xe2, 0x53), (0xe3, 0x54), (0xe4, 0x55), (0xe5, 0x56), (0xe6, 0x57), (0xe7, 0x58),
    (0xe8, 0x59), (0xe9, 0x5a), (0xea, 0xb2), (0xeb, 0xd4), (0xec, 0x23), (0xed, 0xd2), (0xee, 0xd3), (0xef, 0xd5),
    (0xf0, 0x30), (0xf1, 0x31), (0xf2, 0x32), (0xf3, 0x33), (0xf4, 0x34), (0xf5, 0x35), (0xf6, 0x36), (0xf7, 0x37),
    (0xf8, 0x38), (0xf9, 0x39), (0xfa, 0xb3), (0xfb, 0xdb), (0xfc, 0x22), (0xfd, 0xd9), (0xfe, 0xda), (0xff, 0x9f)]

/-- There is no file of irreversible mappings in `tests/data`. -/
def ebcdic1155_irr : List (Nat × Nat) := []

/-- `tests/data/IBM-1156.TXT`. -/
def ebcdic1156_from : List (Nat × Nat) :=
  [(0x0, 0x0), (0x1, 0x1), (0x2, 0x2), (0x3, 0x3), (0x4, 0x9c), (0x5, 0x9), (0x6, 0x86), (0x7, 0x7f),
    (0x8, 0x97), (0x9, 0x8d), (0xa, 0x8e), (0xb, 0xb), (0xc, 0xc), (0xd, 0xd), (0xe, 0xe), (0xf, 0xf),
    (0x10, 0x10), (0x11, 0x11), (0x12, 0x12), (0x13, 0x13), (0x14, 0x9d), (0x15, 0x85), (0x16, 0x8), (0x17, 0x87),
    (0x18, 0x18), (0x19, 0x19), (0x1a, 0x92), (0x1b, 0x8f), (0x1c, 0x1c), (0x1d, 0x1d), (0x1e, 0x1e), (0x1f, 0x1f),
    (0x20, 0x80), (0x21, 0x81), (0x22, 0x82), (0x23, 0x83), (0x24, 0x84), (0x25, 0xa), (0x26, 0x17), (0x27, 0x1b),
    (0x28, 0x88), (0x29, 0x89), (0x2a, 0x8a), (0x2b, 0x8b), (0x2c, 0x8c), (0x2d, 0x5), (0x2e, 0x6), (0x2f, 0x7),
    (0x30, 0x90), (0x31, 0x91), (0x32, 0x16), (0x33, 0x93), (0x34, 0x94), (0x35, 0x95), (0x36, 0x96), (0x37, 0x4),
    (0x38, 0x98), (0x39, 0x99), (0x3a, 0x9a), (0x3b, 0x9b), (0x3c, 0x14), (0x3d, 0x15), (0x3e, 0x9e), (0x3f, 0x1a),
    (0x40, 0x20), (0x41, 0xa0), (0x42, 0x161), (0x43, 0xe4), (0x44, 0x105), (0x45, 0x12f), (0x46, 0x16b), (0x47, 0xe5),
    (0x48, 0x113), (0x49, 0x17e), (0x4a, 0xa2), (0x4b, 0x2e), (0x4c, 0x3c), (0x4d, 0x28), (0x4e, 0x2b), (0x4f, 0x7c),
    (0x50, 0x26), (0x51, 0xe9), (0x52, 0x119), (0x53, 0x117), (0x54, 0x10d), (0x55, 0x173), (0x56, 0x201e), (0x57, 0x201c),
    (0x58, 0x123), (0x59, 0xdf), (0x5a, 0x21), (0x5b, 0x24), (0x5c, 0x2a), (0x5d, 0x29), (0x5e, 0x3b), (0x5f, 0xac),
    (0x60, 0x2d), (0x61, 0x2f), (0x62, 0x160), (0x63, 0xc4), (0x64, 0x104), (0x65, 0x12e), (0x66, 0x16a), (0x67, 0xc5),
    (0x68, 0x112), (0x69, 0x17d), (0x6a, 0xa6), (0x6b, 0x2c), (0x6c, 0x25), (0x6d, 0x5f), (0x6e, 0x3e), (0x6f, 0x3f),
    (0x70, 0xf8), (0x71, 0xc9), (0x72, 0x118), (0x73, 0x116), (0x74, 0x10c), (0x75, 0x172), (0x76, 0x12a), (0x77, 0x13b),
    (0x78, 0x122), (0x79, 0x60), (0x7a, 0x3a), (0x7b, 0x23), (0x7c, 0x40), (0x7d, 0x27), (0x7e, 0x3d), (0x7f, 0x22),
    (0x80, 0xd8), (0x81, 0x61), (0x82, 0x62), (0x83, 0x63), (0x84, 0x64), (0x85, 0x65), (0x86, 0x66), (0x87, 0x67),
    (0x88, 0x68), (0x89, 0x69), (0x8a, 0xab), (0x8b, 0xbb), (0x8c, 0x101), (0x8d, 0x17c), (0x8e, 0x144), (0x8f, 0xb1),
    (0x90, 0xb0), (0x91, 0x6a), (0x92, 0x6b), (0x93, 0x6c), (0x94, 0x6d), (0x95, 0x6e), (0x96, 0x6f), (0x97, 0x70),
    (0x98, 0x71), (0x99, 0x72), (0x9a, 0x156), (0x9b, 0x157), (0x9c, 0xe6), (0x9d, 0x137), (0x9e, 0xc6), (0x9f, 0x20ac),
    (0xa0, 0xb5), (0xa1, 0x7e), (0xa2, 0x73), (0xa3, 0x74), (0xa4, 0x75), (0xa5, 0x76), (0xa6, 0x77), (0xa7, 0x78),
    (0xa8, 0x79), (0xa9, 0x7a), (0xaa, 0x201d), (0xab, 0x17a), (0xac, 0x100), (0xad, 0x17b), (0xae, 0x143), (0xaf, 0xae),
    (0xb0, 0x5e), (0xb1, 0xa3), (0xb2, 0x12b), (0xb3, 0xb7), (0xb4, 0xa9), (0xb5, 0xa7), (0xb6, 0xb6), (0xb7, 0xbc),
    (0xb8, 0xbd), (0xb9, 0xbe), (0xba, 0x5b), (0xbb, 0x5d), (0xbc, 0x179), (0xbd, 0x136), (0xbe, 0x13c), (0xbf, 0xd7),
    (0xc0, 0x7b), (0xc1, 0x41), (0xc2, 0x42), (0xc3, 0x43), (0xc4, 0x44), (0xc5, 0x45), (0xc6, 0x46), (0xc7, 0x47),
    (0xc8, 0x48), (0xc9, 0x49), (0xca, 0xad), (0xcb, 0x14d), (0xcc, 0xf6), (0xcd, 0x146), (0xce, 0xf3), (0xcf, 0xf5),
    (0xd0, 0x7d), (0xd1, 0x4a), (0xd2, 0x4b), (0xd3, 0x4c), (0xd4, 0x4d), (0xd5, 0x4e), (0xd6, 0x4f), (0xd7, 0x50),
    (0xd8, 0x51), (0xd9, 0x52), (0xda, 0xb9), (0xdb, 0x107), (0xdc, 0xfc), (0xdd, 0x142), (0xde, 0x15b), (0xdf, 0x2019),
    (0xe0, 0x5c), (0xe1, 0xf7), (0xe2, 0x53), (0xe3, 0x54), (0xe4, 0x55), (0xe5, 0x56), (0xe6, 0x57), (0xe7, 0x58),
    (0xe8, 0x59), (0xe9, 0x5a), (0xea, 0xb2), (0xeb, 0x14c), (0xec, 0xd6), (0xed, 0x145), (0xee, 0xd3), (0xef, 0xd5),
    (0xf0, 0x30), (0xf1, 0x31), (0xf2, 0x32), (0xf3, 0x33), (0xf4, 0x34), (0xf5, 0x35), (0xf6, 0x36), (0xf7, 0x37),
    (0xf8, 0x38), (0xf9, 0x39), (0xfa, 0xb3), (0xfb, 0x106), (0xfc, 0xdc), (0xfd, 0x141), (0xfe, 0x15a), (0xff, 0x9f)]

/-- There is no file of irreversible mappings in `tests/data`. -/
def ebcdic1156_irr : List (Nat × Nat) := []

/-- `tests/data/IBM-1157.TXT`. -/
def ebcdic1157_from : List (Nat × Nat) :=
  [(0x0, 0x0), (0x1, 0x1), (0x2, 0x2), (0x3, 0x3), (0x4, 0x9c), (0x5, 0x9), (0x6, 0x86), (0x7, 0x7f),
    (0x8, 0x97), (0x9, 0x8d), (0xa, 0x8e), (0xb, 0xb), (0xc, 0xc), (0xd, 0xd), (0xe, 0xe), (0xf, 0xf),
    (0x10, 0x10), (0x11, 0x11), (0x12, 0x12), (0x13, 0x13), (0x14, 0x9d), (0x15, 0x85), (0x16, 0x8), (0x17, 0x87),
    (0x18, 0x18), (0x19, 0x19), (0x1a, 0x92), (0x1b, 0x8f), (0x1c, 0x1c), (0x1d, 0x1d), (0x1e, 0x1e), (0x1f, 0x1f),
    (0x20, 0x80), (0x21, 0x81), (0x22, 0x82), (0x23, 0x83), (0x24, 0x84), (0x25, 0xa), (0x26, 0x17), (0x27, 0x1b),
    (0x28, 0x88), (0x29, 0x89), (0x2a, 0x8a), (0x2b, 0x8b), (0x2c, 0x8c), (0x2d, 0x5), (0x2e, 0x6), (0x2f, 0x7),
    (0x30, 0x90), (0x31, 0x91), (0x32, 0x16), (0x33, 0x93), (0x34, 0x94), (0x35, 0x95), (0x36, 0x96), (0x37, 0x4),
    (0x38, 0x98), (0x39, 0x99), (0x3a, 0x9a), (0x3b, 0x9b), (0x3c, 0x14), (0x3d, 0x15), (0x3e, 0x9e), (0x3f, 0x1a),
    (0x40, 0x20), (0x41, 0xa0), (0x42, 0xe2), (0x43, 0x7b), (0x44, 0xe0), (0x45, 0xe1), (0x46, 0xe3), (0x47, 0x7d),
    (0x48, 0xe7), (0x49, 0xf1), (0x4a, 0xa7), (0x4b, 0x2e), (0x4c, 0x3c), (0x4d, 0x28), (0x4e, 0x2b), (0x4f, 0x21),
    (0x50, 0x26), (0x51, 0x60), (0x52, 0xea), (0x53, 0xeb), (0x54, 0xe8), (0x55, 0xed), (0x56, 0xee), (0x57, 0xef),
    (0x58, 0xec), (0x59, 0xdf), (0x5a, 0x20ac), (0x5b, 0xc5), (0x5c, 0x2a), (0x5d, 0x29), (0x5e, 0x3b), (0x5f, 0x5e),
    (0x60, 0x2d), (0x61, 0x2f), (0x62, 0xc2), (0x63, 0x23), (0x64, 0xc0), (0x65, 0xc1), (0x66, 0xc3), (0x67, 0x24),
    (0x68, 0xc7), (0x69, 0xd1), (0x6a, 0xf6), (0x6b, 0x2c), (0x6c, 0x25), (0x6d, 0x5f), (0x6e, 0x3e), (0x6f, 0x3f),
    (0x70, 0xf8), (0x71, 0x5c), (0x72, 0xca), (0x73, 0xcb), (0x74, 0xc8), (0x75, 0xcd), (0x76, 0xce), (0x77, 0xcf),
    (0x78, 0xcc), (0x79, 0xe9), (0x7a, 0x3a), (0x7b, 0xc4), (0x7c, 0xd6), (0x7d, 0x27), (0x7e, 0x3d), (0x7f, 0x22),
    (0x80, 0xd8), (0x81, 0x61), (0x82, 0x62), (0x83, 0x63), (0x84, 0x64), (0x85, 0x65), (0x86, 0x66), (0x87, 0x67),
    (0x88, 0x68), (0x89, 0x69), (0x8a, 0xab), (0x8b, 0xbb), (0x8c, 0x161), (0x8d, 0xfd), (0x8e, 0x17e), (0x8f, 0xb1),
    (0x90, 0xb0), (0x91, 0x6a), (0x92, 0x6b), (0x93, 0x6c), (0x94, 0x6d), (0x95, 0x6e), (0x96, 0x6f), (0x97, 0x70),
    (0x98, 0x71), (0x99, 0x72), (0x9a, 0xaa), (0x9b, 0xba), (0x9c, 0xe6), (0x9d, 0xb8), (0x9e, 0xc6), (0x9f, 0x5d),
    (0xa0, 0xb5), (0xa1, 0xfc), (0xa2, 0x73), (0xa3, 0x74), (0xa4, 0x75), (0xa5, 0x76), (0xa6, 0x77), (0xa7, 0x78),
    (0xa8, 0x79), (0xa9, 0x7a), (0xaa, 0xa1), (0xab, 0xbf), (0xac, 0x160), (0xad, 0xdd), (0xae, 0x17d), (0xaf, 0xae),
    (0xb0, 0xa2), (0xb1, 0xa3), (0xb2, 0xa5), (0xb3, 0xb7), (0xb4, 0xa9), (0xb5, 0x5b), (0xb6, 0xb6), (0xb7, 0xbc),
    (0xb8, 0xbd), (0xb9, 0xbe), (0xba, 0xac), (0xbb, 0x7c), (0xbc, 0xaf), (0xbd, 0xa8), (0xbe, 0xb4), (0xbf, 0xd7),
    (0xc0, 0xe4), (0xc1, 0x41), (0xc2, 0x42), (0xc3, 0x43), (0xc4, 0x44), (0xc5, 0x45), (0xc6, 0x46), (0xc7, 0x47),
    (0xc8, 0x48), (0xc9, 0x49), (0xca, 0xad), (0xcb, 0xf4), (0xcc, 0xa6), (0xcd, 0xf2), (0xce, 0xf3), (0xcf, 0xf5),
    (0xd0, 0xe5), (0xd1, 0x4a), (0xd2, 0x4b), (0xd3, 0x4c), (0xd4, 0x4d), (0xd5, 0x4e), (0xd6, 0x4f), (0xd7, 0x50),
    (0xd8, 0x51), (0xd9, 0x52), (0xda, 0xb9), (0xdb, 0xfb), (0xdc, 0x7e), (0xdd, 0xf9), (0xde, 0xfa), (0xdf, 0xff),
    (0xe0, 0xc9), (0xe1, 0xf7), (0xe2, 0x53), (0xe3, 0x54), (0xe4, 0x55), (0xe5, 0x56), (0xe6, 0x57), (0xe7, 0x58),
    (0xe8, 0x59), (0xe9, 0x5a), (0xea, 0xb2), (0xeb, 0xd4), (0xec, 0x40), (0xed, 0xd2), (0xee, 0xd3), (0xef, 0xd5),
    (0xf0, 0x30), (0xf1, 0x31), (0xf2, 0x32), (0xf3, 0x33), (0xf4, 0x34), (0xf5, 0x35), (0xf6, 0x36), (0xf7, 0x37),
    (0xf8, 0x38), (0xf9, 0x39), (0xfa, 0xb3), (0xfb, 0xdb), (0xfc, 0xdc), (0xfd, 0xd9), (0xfe, 0xda), (0xff, 0x9f)]

/-- There is no file of irreversible mappings in `tests/data`. -/
def ebcdic1157_irr : List (Nat × Nat) := []

/-- `tests/data/IBM-1158.TXT`. -/
def ebcdic1158_from : List (Nat × Nat) :=
  [(0x0, 0x0), (0x1, 0x1), (0x2, 0x2), (0x3, 0x3), (0x4, 0x9c), (0x5, 0x9), (0x6, 0x86), (0x7, 0x7f),
    (0x8, 0x97), (0x9, 0x8d), (0xa, 0x8e), (0xb, 0xb), (0xc, 0xc), (0xd, 0xd), (0xe, 0xe), (0xf, 0xf),
    (0x10, 0x10), (0x11, 0x11), (0x12, 0x12), (0x13, 0x13), (0x14, 0x9d), (0x15, 0x85), (0x16, 0x8), (0x17, 0x87),
    (0x18, 0x18), (0x19, 0x19), (0x1a, 0x92), (0x1b, 0x8f), (0x1c, 0x1c), (0x1d, 0x1d), (0x1e, 0x1e), (0x1f, 0x1f),
    (0x20, 0x80), (0x21, 0x81), (0x22, 0x82), (0x23, 0x83), (0x24, 0x84), (0x25, 0xa), (0x26, 0x17), (0x27, 0x1b),
    (0x28, 0x88), (0x29, 0x89), (0x2a, 0x8a), (0x2b, 0x8b), (0x2c, 0x8c), (0x2d, 0x5), (0x2e, 0x6), (0x2f, 0x7),
    (0x30, 0x90), (0x31, 0x91), (0x32, 0x16), (0x33, 0x93), (0x34, 0x94), (0x35, 0x95), (0x36, 0x96), (0x37, 0x4),
    (0x38, 0x98), (0x39, 0x99), (0x3a, 0x9a), (0x3b, 0x9b), (0x3c, 0x14), (0x3d, 0x15), (0x3e, 0x9e), (0x3f, 0x1a),
    (0x40, 0x20), (0x41, 0xa0), (0x42, 0x452), (0x43, 0x491), (0x44, 0x451), (0x45, 0x454), (0x46, 0x455), (0x47, 0x456),
    (0x48, 0x457), (0x49, 0x458), (0x4a, 0x5b), (0x4b, 0x2e), (0x4c, 0x3c), (0x4d, 0x28), (0x4e, 0x2b), (0x4f, 0x21),
    (0x50, 0x26), (0x51, 0x459), (0x52, 0x45a), (0x53, 0x45b), (0x54, 0x45c), (0x55, 0x45e), (0x56, 0x45f), (0x57, 0x42a),
    (0x58, 0x2116), (0x59, 0x402), (0x5a, 0x5d), (0x5b, 0x24), (0x5c, 0x2a), (0x5d, 0x29), (0x5e, 0x3b), (0x5f, 0x5e),
    (0x60, 0x2d), (0x61, 0x2f), (0x62, 0x490), (0x63, 0x401), (0x64, 0x404), (0x65, 0x405), (0x66, 0x406), (0x67, 0x407),
    (0x68, 0x408), (0x69, 0x409), (0x6a, 0x7c), (0x6b, 0x2c), (0x6c, 0x25), (0x6d, 0x5f), (0x6e, 0x3e), (0x6f, 0x3f),
    (0x70, 0x40a), (0x71, 0x40b), (0x72, 0x40c), (0x73, 0xad), (0x74, 0x40e), (0x75, 0x40f), (0x76, 0x44e), (0x77, 0x430),
    (0x78, 0x431), (0x79, 0x60), (0x7a, 0x3a), (0x7b, 0x23), (0x7c, 0x40), (0x7d, 0x27), (0x7e, 0x3d), (0x7f, 0x22),
    (0x80, 0x446), (0x81, 0x61), (0x82, 0x62), (0x83, 0x63), (0x84, 0x64), (0x85, 0x65), (0x86, 0x66), (0x87, 0x67),
    (0x88, 0x68), (0x89, 0x69), (0x8a, 0x434), (0x8b, 0x435), (0x8c, 0x444), (0x8d, 0x433), (0x8e, 0x445), (0x8f, 0x438),
    (0x90, 0x439), (0x91, 0x6a), (0x92, 0x6b), (0x93, 0x6c), (0x94, 0x6d), (0x95, 0x6e), (0x96, 0x6f), (0x97, 0x70),
    (0x98, 0x71), (0x99, 0x72), (0x9a, 0x43a), (0x9b, 0x43b), (0x9c, 0x43c), (0x9d, 0x43d), (0x9e, 0x43e), (0x9f, 0x43f),
    (0xa0, 0x44f), (0xa1, 0x7e), (0xa2, 0x73), (0xa3, 0x74), (0xa4, 0x75), (0xa5, 0x76), (0xa6, 0x77), (0xa7, 0x78),
    (0xa8, 0x79), (0xa9, 0x7a), (0xaa, 0x440), (0xab, 0x441), (0xac, 0x442), (0xad, 0x443), (0xae, 0x436), (0xaf, 0x432),
    (0xb0, 0x44c), (0xb1, 0x44b), (0xb2, 0x437), (0xb3, 0x448), (0xb4, 0x44d), (0xb5, 0x449), (0xb6, 0x447), (0xb7, 0x44a),
    (0xb8, 0x42e), (0xb9, 0x410), (0xba, 0x411), (0xbb, 0x426), (0xbc, 0x414), (0xbd, 0x415), (0xbe, 0x424), (0xbf, 0x413),
    (0xc0, 0x7b), (0xc1, 0x41), (0xc2, 0x42), (0xc3, 0x43), (0xc4, 0x44), (0xc5, 0x45), (0xc6, 0x46), (0xc7, 0x47),
    (0xc8, 0x48), (0xc9, 0x49), (0xca, 0x425), (0xcb, 0x418), (0xcc, 0x419), (0xcd, 0x41a), (0xce, 0x41b), (0xcf, 0x41c),
    (0xd0, 0x7d), (0xd1, 0x4a), (0xd2, 0x4b), (0xd3, 0x4c), (0xd4, 0x4d), (0xd5, 0x4e), (0xd6, 0x4f), (0xd7, 0x50),
    (0xd8, 0x51), (0xd9, 0x52), (0xda, 0x41d), (0xdb, 0x41e), (0xdc, 0x41f), (0xdd, 0x42f), (0xde, 0x420), (0xdf, 0x421),
    (0xe0, 0x5c), (0xe1, 0x20ac), (0xe2, 0x53), (0xe3, 0x54), (0xe4, 0x55), (0xe5, 0x56), (0xe6, 0x57), (0xe7, 0x58),
    (0xe8, 0x59), (0xe9, 0x5a), (0xea, 0x422), (0xeb, 0x423), (0xec, 0x416), (0xed, 0x412), (0xee, 0x42c), (0xef, 0x42b),
    (0xf0, 0x30), (0xf1, 0x31), (0xf2, 0x32), (0xf3, 0x33), (0xf4, 0x34), (0xf5, 0x35), (0xf6, 0x36), (0xf7, 0x37),
    (0xf8, 0x38), (0xf9, 0x39), (0xfa, 0x417), (0xfb, 0x428), (0xfc, 0x42d), (0xfd, 0x429), (0xfe, 0x427), (0xff, 0x9f)]

/-- There is no file of irreversible mappings in `tests/data`. -/
def ebcdic1158_irr : List (Nat × Nat) := []

/-- `tests/data/IBM-1160.TXT`. -/
def ebcdic1160_from : List (Nat × Nat) :=
  [(0x0, 0x0), (0x1, 0x1), (0x2, 0x2), (0x3, 0x3), (0x4, 0x9c), (0x5, 0x9), (0x6, 0x86), (0x7, 0x7f),
    (0x8, 0x97), (0x9, 0x8d), (0xa, 0x8e), (0xb, 0xb), (0xc, 0xc), (0xd, 0xd), (0xe, 0xe), (0xf, 0xf),
    (0x10, 0x10), (0x11, 0x11), (0x12, 0x12), (0x13, 0x13), (0x14, 0x9d), (0x15, 0x85), (0x16, 0x8), (0x17, 0x87),
    (0x18, 0x18), (0x19, 0x19), (0x1a, 0x92), (0x1b, 0x8f), (0x1c, 0x1c), (0x1d, 0x1d), (0x1e, 0x1e), (0x1f, 0x1f),
    (0x20, 0x80), (0x21, 0x81), (0x22, 0x82), (0x23, 0x83), (0x24, 0x84), (0x25, 0xa), (0x26, 0x17), (0x27, 0x1b),
    (0x28, 0x88), (0x29, 0x89), (0x2a, 0x8a), (0x2b, 0x8b), (0x2c, 0x8c), (0x2d, 0x5), (0x2e, 0x6), (0x2f, 0x7),
    (0x30, 0x90), (0x31, 0x91), (0x32, 0x16), (0x33, 0x93), (0x34, 0x94), (0x35, 0x95), (0x36, 0x96), (0x37, 0x4),
    (0x38, 0x98), (0x39, 0x99), (0x3a, 0x9a), (0x3b, 0x9b), (0x3c, 0x14), (0x3d, 0x15), (0x3e, 0x9e), (0x3f, 0x1a),
    (0x40, 0x20), (0x41, 0xa0), (0x42, 0xe01), (0x43, 0xe02), (0x44, 0xe03), (0x45, 0xe04), (0x46, 0xe05), (0x47, 0xe06),
    (0x48, 0xe07), (0x49, 0x5b), (0x4a, 0xa2), (0x4b, 0x2e), (0x4c, 0x3c), (0x4d, 0x28), (0x4e, 0x2b), (0x4f, 0x7c),
    (0x50, 0x26), (0x51, 0xe48), (0x52, 0xe08), (0x53, 0xe09), (0x54, 0xe0a), (0x55, 0xe0b), (0x56, 0xe0c), (0x57, 0xe0d),
    (0x58, 0xe0e), (0x59, 0x5d), (0x5a, 0x21), (0x5b, 0x24), (0x5c, 0x2a), (0x5d, 0x29), (0x5e, 0x3b), (0x5f, 0xac),
    (0x60, 0x2d), (0x61, 0x2f), (0x62, 0xe0f), (0x63, 0xe10), (0x64, 0xe11), (0x65, 0xe12), (0x66, 0xe13), (0x67, 0xe14),
    (0x68, 0xe15), (0x69, 0x5e), (0x6a, 0xa6), (0x6b, 0x2c), (0x6c, 0x25), (0x6d, 0x5f), (0x6e, 0x3e), (0x6f, 0x3f),
    (0x70, 0xe3f), (0x71, 0xe4e), (0x72, 0xe16), (0x73, 0xe17), (0x74, 0xe18), (0x75, 0xe19), (0x76, 0xe1a), (0x77, 0xe1b),
    (0x78, 0xe1c), (0x79, 0x60), (0x7a, 0x3a), (0x7b, 0x23), (0x7c, 0x40), (0x7d, 0x27), (0x7e, 0x3d), (0x7f, 0x22),
    (0x80, 0xe4f), (0x81, 0x61), (0x82, 0x62), (0x83, 0x63), (0x84, 0x64), (0x85, 0x65), (0x86, 0x66), (0x87, 0x67),
    (0x88, 0x68), (0x89, 0x69), (0x8a, 0xe1d), (0x8b, 0xe1e), (0x8c, 0xe1f), (0x8d, 0xe20), (0x8e, 0xe21), (0x8f, 0xe22),
    (0x90, 0xe5a), (0x91, 0x6a), (0x92, 0x6b), (0x93, 0x6c), (0x94, 0x6d), (0x95, 0x6e), (0x96, 0x6f), (0x97, 0x70),
    (0x98, 0x71), (0x99, 0x72), (0x9a, 0xe23), (0x9b, 0xe24), (0x9c, 0xe25), (0x9d, 0xe26), (0x9e, 0xe27), (0x9f, 0xe28),
    (0xa0, 0xe5b), (0xa1, 0x7e), (0xa2, 0x73), (0xa3, 0x74), (0xa4, 0x75), (0xa5, 0x76), (0xa6, 0x77), (0xa7, 0x78),
    (0xa8, 0x79), (0xa9, 0x7a), (0xaa, 0xe29), (0xab, 0xe2a), (0xac, 0xe2b), (0xad, 0xe2c), (0xae, 0xe2d), (0xaf, 0xe2e),
    (0xb0, 0xe50), (0xb1, 0xe51), (0xb2, 0xe52), (0xb3, 0xe53), (0xb4, 0xe54), (0xb5, 0xe55), (0xb6, 0xe56), (0xb7, 0xe57),
    (0xb8, 0xe58), (0xb9, 0xe59), (0xba, 0xe2f), (0xbb, 0xe30), (0xbc, 0xe31), (0xbd, 0xe32), (0xbe, 0xe33), (0xbf, 0xe34),
    (0xc0, 0x7b), (0xc1, 0x41), (0xc2, 0x42), (0xc3, 0x43), (0xc4, 0x44), (0xc5, 0x45), (0xc6, 0x46), (0xc7, 0x47),
    (0xc8, 0x48), (0xc9, 0x49), (0xca, 0xe49), (0xcb, 0xe35), (0xcc, 0xe36), (0xcd, 0xe37), (0xce, 0xe38), (0xcf, 0xe39),
    (0xd0, 0x7d), (0xd1, 0x4a), (0xd2, 0x4b), (0xd3, 0x4c), (0xd4, 0x4d), (0xd5, 0x4e), (0xd6, 0x4f), (0xd7, 0x50),
    (0xd8, 0x51), (0xd9, 0x52), (0xda, 0xe3a), (0xdb, 0xe40), (0xdc, 0xe41), (0xdd, 0xe42), (0xde, 0xe43), (0xdf, 0xe44),
    (0xe0, 0x5c), (0xe1, 0xe4a), (0xe2, 0x53), (0xe3, 0x54), (0xe4, 0x55), (0xe5, 0x56), (0xe6, 0x57), (0xe7, 0x58),
    (0xe8, 0x59), (0xe9, 0x5a), (0xea, 0xe45), (0xeb, 0xe46), (0xec, 0xe47), (0xed, 0xe48), (0xee, 0xe49), (0xef, 0xe4a),
    (0xf0, 0x30), (0xf1, 0x31), (0xf2, 0x32), (0xf3, 0x33), (0xf4, 0x34), (0xf5, 0x35), (0xf6, 0x36), (0xf7, 0x37),
    (0xf8, 0x38), (0xf9, 0x39), (0xfa, 0xe4b), (0xfb, 0xe4c), (0xfc, 0xe4d), (0xfd, 0xe4b), (0xfe, 0x20ac), (0xff, 0x9f)]

/-- `tests/data/IBM-1160.IRREVERSIBLE.TXT`. -/
def ebcdic1160_irr : List (Nat × Nat) :=
  [(0x51, 0xe48), (0xca, 0xe49), (0xe1, 0xe4a), (0xfd, 0xe4b)]

/-- `tests/data/IBM-1164.TXT`. -/
def ebcdic1164_from : List (Nat × Nat) :=
  [(0x0, 0x0), (0x1, 0x1), (0x2, 0x2), (0x3, 0x3), (0x4, 0x9c), (0x5, 0x9), (0x6, 0x86), (0x7, 0x7f),
    (0x8, 0x97), (0x9, 0x8d), (0xa, 0x8e), (0xb, 0xb), (0xc, 0xc), (0xd, 0xd), (0xe, 0xe), (0xf, 0xf),
    (0x10, 0x10), (0x11, 0x11), (0x12, 0x12), (0x13, 0x13), (0x14, 0x9d), (0x15, 0x85), (0x16, 0x8), (0x17, 0x87),
    (0x18, 0x18), (0x19, 0x19), (0x1a, 0x92), (0x1b, 0x8f), (0x1c, 0x1c), (0x1d, 0x1d), (0x1e, 0x1e), (0x1f, 0x1f),
    (0x20, 0x80), (0x21, 0x81), (0x22, 0x82), (0x23, 0x83), (0x24, 0x84), (0x25, 0xa), (0x26, 0x17), (0x27, 0x1b),
    (0x28, 0x88), (0x29, 0x89), (0x2a, 0x8a), (0x2b, 0x8b), (0x2c, 0x8c), (0x2d, 0x5), (0x2e, 0x6), (0x2f, 0x7),
    (0x30, 0x90), (0x31, 0x91), (0x32, 0x16), (0x33, 0x93), (0x34, 0x94), (0x35, 0x95), (0x36, 0x96), (0x37, 0x4),
    (0x38, 0x98), (0x39, 0x99), (0x3a, 0x9a), (0x3b, 0x9b), (0x3c, 0x14), (0x3d, 0x15), (0x3e, 0x9e), (0x3f, 0x1a),
    (0x40, 0x20), (0x41, 0xa0), (0x42, 0xe2), (0x43, 0xe4), (0x44, 0xe0), (0x45, 0xe1), (0x46, 0x103), (0x47, 0xe5),
    (0x48, 0xe7), (0x49, 0xf1), (0x4a, 0x5b), (0x4b, 0x2e), (0x4c, 0x3c), (0x4d, 0x28), (0x4e, 0x2b), (0x4f, 0x21),
    (0x50, 0x26), (0x51, 0xe9), (0x52, 0xea), (0x53, 0xeb), (0x54, 0xe8), (0x55, 0xed), (0x56, 0xee), (0x57, 0xef),
    (0x58, 0x303), (0x59, 0xdf), (0x5a, 0x5d), (0x5b, 0x24), (0x5c, 0x2a), (0x5d, 0x29), (0x5e, 0x3b), (0x5f, 0x5e),
    (0x60, 0x2d), (0x61, 0x2f), (0x62, 0xc2), (0x63, 0xc4), (0x64, 0xc0), (0x65, 0xc1), (0x66, 0x102), (0x67, 0xc5),
    (0x68, 0xc7), (0x69, 0xd1), (0x6a, 0xa6), (0x6b, 0x2c), (0x6c, 0x25), (0x6d, 0x5f), (0x6e, 0x3e), (0x6f, 0x3f),
    (0x70, 0xf8), (0x71, 0xc9), (0x72, 0xca), (0x73, 0xcb), (0x74, 0xc8), (0x75, 0xcd), (0x76, 0xce), (0x77, 0xcf),
    (0x78, 0x20ab), (0x79, 0x60), (0x7a, 0x3a), (0x7b, 0x23), (0x7c, 0x40), (0x7d, 0x27), (0x7e, 0x3d), (0x7f, 0x22),
    (0x80, 0xd8), (0x81, 0x61), (0x82, 0x62), (0x83, 0x63), (0x84, 0x64), (0x85, 0x65), (0x86, 0x66), (0x87, 0x67),
    (0x88, 0x68), (0x89, 0x69), (0x8a, 0xab), (0x8b, 0xbb), (0x8c, 0x111), (0x8d, 0x309), (0x8e, 0x300), (0x8f, 0xb1),
    (0x90, 0xb0), (0x91, 0x6a), (0x92, 0x6b), (0x93, 0x6c), (0x94, 0x6d), (0x95, 0x6e), (0x96, 0x6f), (0x97, 0x70),
    (0x98, 0x71), (0x99, 0x72), (0x9a, 0xaa), (0x9b, 0xba), (0x9c, 0xe6), (0x9d, 0x152), (0x9e, 0xc6), (0x9f, 0x20ac),
    (0xa0, 0xb5), (0xa1, 0x7e), (0xa2, 0x73), (0xa3, 0x74), (0xa4, 0x75), (0xa5, 0x76), (0xa6, 0x77), (0xa7, 0x78),
    (0xa8, 0x79), (0xa9, 0x7a), (0xaa, 0xa1), (0xab, 0xbf), (0xac, 0x110), (0xad, 0x323), (0xae, 0x301), (0xaf, 0xae),
    (0xb0, 0xa2), (0xb1, 0xa3), (0xb2, 0xa5), (0xb3, 0xb7), (0xb4, 0xa9), (0xb5, 0xa7), (0xb6, 0xb6), (0xb7, 0xbc),
    (0xb8, 0xbd), (0xb9, 0xbe), (0xba, 0xac), (0xbb, 0x7c), (0xbc, 0xaf), (0xbd, 0x153), (0xbe, 0x178), (0xbf, 0xd7),
    (0xc0, 0x7b), (0xc1, 0x41), (0xc2, 0x42), (0xc3, 0x43), (0xc4, 0x44), (0xc5, 0x45), (0xc6, 0x46), (0xc7, 0x47),
    (0xc8, 0x48), (0xc9, 0x49), (0xca, 0xad), (0xcb, 0xf4), (0xcc, 0xf6), (0xcd, 0x1b0), (0xce, 0xf3), (0xcf, 0x1a1),
    (0xd0, 0x7d), (0xd1, 0x4a), (0xd2, 0x4b), (0xd3, 0x4c), (0xd4, 0x4d), (0xd5, 0x4e), (0xd6, 0x4f), (0xd7, 0x50),
    (0xd8, 0x51), (0xd9, 0x52), (0xda, 0xb9), (0xdb, 0xfb), (0xdc, 0xfc), (0xdd, 0xf9), (0xde, 0xfa), (0xdf, 0xff),
    (0xe0, 0x5c), (0xe1, 0xf7), (0xe2, 0x53), (0xe3, 0x54), (0xe4, 0x55), (0xe5, 0x56), (0xe6, 0x57), (0xe7, 0x58),
    (0xe8, 0x59), (0xe9, 0x5a), (0xea, 0xb2), (0xeb, 0xd4), (0xec, 0xd6), (0xed, 0x1af), (0xee, 0xd3), (0xef, 0x1a0),
    (0xf0, 0x30), (0xf1, 0x31), (0xf2, 0x32), (0xf3, 0x33), (0xf4, 0x34), (0xf5, 0x35), (0xf6, 0x36), (0xf7, 0x37),
    (0xf8, 0x38), (0xf9, 0x39), (0xfa, 0xb3), (0xfb, 0xdb), (0xfc, 0xdc), (0xfd, 0xd9), (0xfe, 0xda), (0xff, 0x9f)]

/-- There is no file of irreversible mappings in `tests/data`. -/
def ebcdic1164_irr : List (Nat × Nat) := []

/-- `tests/data/IBM-1165.TXT`. -/
def ebcdic1165_from : List (Nat × Nat) :=
  [(0x0, 0x0), (0x1, 0x1), (0x2, 0x2), (0x3, 0x3), (0x4, 0x9c), (0x5, 0x9), (0x6, 0x86), (0x7, 0x7f),
    (0x8, 0x97), (0x9, 0x8d), (0xa, 0x8e), (0xb, 0xb), (0xc, 0xc), (0xd, 0xd), (0xe, 0xe), (0xf, 0xf),
    (0x10, 0x10), (0x11, 0x11), (0x12, 0x12), (0x13, 0x13), (0x14, 0x9d), (0x15, 0x85), (0x16, 0x8), (0x17, 0x87),
    (0x18, 0x18), (0x19, 0x19), (0x1a, 0x92), (0x1b, 0x8f), (0x1c, 0x1c), (0x1d, 0x1d), (0x1e, 0x1e), (0x1f, 0x1f),
    (0x20, 0x80), (0x21, 0x81), (0x22, 0x82), (0x23, 0x83), (0x24, 0x84), (0x25, 0xa), (0x26, 0x17), (0x27, 0x1b),
    (0x28, 0x88), (0x29, 0x89), (0x2a, 0x8a), (0x2b, 0x8b), (0x2c, 0x8c), (0x2d, 0x5), (0x2e, 0x6), (0x2f, 0x7),
    (0x30, 0x90), (0x31, 0x91), (0x32, 0x16), (0x33, 0x93), (0x34, 0x94), (0x35, 0x95), (0x36, 0x96), (0x37, 0x4),
    (0x38, 0x98), (0x39, 0x99), (0x3a, 0x9a), (0x3b, 0x9b), (0x3c, 0x14), (0x3d, 0x15), (0x3e, 0x9e), (0x3f, 0x1a),
    (0x40, 0x20), (0x41, 0xa0), (0x42, 0xe2), (0x43, 0xe4), (0x44, 0x163), (0x45, 0xe1), (0x46, 0x103), (0x47, 0x10d),
    (0x48, 0xe7), (0x49, 0x107), (0x4a, 0xdd), (0x4b, 0x2e), (0x4c, 0x3c), (0x4d, 0x28), (0x4e, 0x2b), (0x4f, 0x7c),
    (0x50, 0x26), (0x51, 0xe9), (0x52, 0x119), (0x53, 0xeb), (0x54, 0x16f), (0x55, 0xed), (0x56, 0xee), (0x57, 0x13e),
    (0x58, 0x13a), (0x59, 0xdf), (0x5a, 0x21), (0x5b, 0x24), (0x5c, 0x2a), (0x5d, 0x29), (0x5e, 0x3b), (0x5f, 0x5e),
    (0x60, 0x2d), (0x61, 0x2f), (0x62, 0xc2), (0x63, 0xc4), (0x64, 0x2dd), (0x65, 0xc1), (0x66, 0x102), (0x67, 0x10c),
    (0x68, 0xc7), (0x69, 0x106), (0x6a, 0xa8), (0x6b, 0x2c), (0x6c, 0x25), (0x6d, 0x5f), (0x6e, 0x3e), (0x6f, 0x3f),
    (0x70, 0x2c7), (0x71, 0xc9), (0x72, 0x118), (0x73, 0xcb), (0x74, 0x16e), (0x75, 0xcd), (0x76, 0xce), (0x77, 0x13d),
    (0x78, 0x139), (0x79, 0x60), (0x7a, 0x3a), (0x7b, 0x23), (0x7c, 0x40), (0x7d, 0x27), (0x7e, 0x3d), (0x7f, 0x22),
    (0x80, 0x2d8), (0x81, 0x61), (0x82, 0x62), (0x83, 0x63), (0x84, 0x64), (0x85, 0x65), (0x86, 0x66), (0x87, 0x67),
    (0x88, 0x68), (0x89, 0x69), (0x8a, 0x15b), (0x8b, 0x148), (0x8c, 0x111), (0x8d, 0xfd), (0x8e, 0x159), (0x8f, 0x15f),
    (0x90, 0xb0), (0x91, 0x6a), (0x92, 0x6b), (0x93, 0x6c), (0x94, 0x6d), (0x95, 0x6e), (0x96, 0x6f), (0x97, 0x70),
    (0x98, 0x71), (0x99, 0x72), (0x9a, 0x142), (0x9b, 0x144), (0x9c, 0x161), (0x9d, 0xb8), (0x9e, 0x2db), (0x9f, 0x20ac),
    (0xa0, 0x105), (0xa1, 0x7e), (0xa2, 0x73), (0xa3, 0x74), (0xa4, 0x75), (0xa5, 0x76), (0xa6, 0x77), (0xa7, 0x78),
    (0xa8, 0x79), (0xa9, 0x7a), (0xaa, 0x15a), (0xab, 0x147), (0xac, 0x110), (0xad, 0x5b), (0xae, 0x158), (0xaf, 0x15e),
    (0xb0, 0x2d9), (0xb1, 0x104), (0xb2, 0x17c), (0xb3, 0x162), (0xb4, 0x17b), (0xb5, 0xa7), (0xb6, 0x17e), (0xb7, 0x17a),
    (0xb8, 0x17d), (0xb9, 0x179), (0xba, 0x141), (0xbb, 0x143), (0xbc, 0x160), (0xbd, 0x5d), (0xbe, 0xb4), (0xbf, 0xd7),
    (0xc0, 0x7b), (0xc1, 0x41), (0xc2, 0x42), (0xc3, 0x43), (0xc4, 0x44), (0xc5, 0x45), (0xc6, 0x46), (0xc7, 0x47),
    (0xc8, 0x48), (0xc9, 0x49), (0xca, 0xad), (0xcb, 0xf4), (0xcc, 0xf6), (0xcd, 0x155), (0xce, 0xf3), (0xcf, 0x151),
    (0xd0, 0x7d), (0xd1, 0x4a), (0xd2, 0x4b), (0xd3, 0x4c), (0xd4, 0x4d), (0xd5, 0x4e), (0xd6, 0x4f), (0xd7, 0x50),
    (0xd8, 0x51), (0xd9, 0x52), (0xda, 0x11a), (0xdb, 0x171), (0xdc, 0xfc), (0xdd, 0x165), (0xde, 0xfa), (0xdf, 0x11b),
    (0xe0, 0x5c), (0xe1, 0xf7), (0xe2, 0x53), (0xe3, 0x54), (0xe4, 0x55), (0xe5, 0x56), (0xe6, 0x57), (0xe7, 0x58),
    (0xe8, 0x59), (0xe9, 0x5a), (0xea, 0x10f), (0xeb, 0xd4), (0xec, 0xd6), (0xed, 0x154), (0xee, 0xd3), (0xef, 0x150),
    (0xf0, 0x30), (0xf1, 0x31), (0xf2, 0x32), (0xf3, 0x33), (0xf4, 0x34), (0xf5, 0x35), (0xf6, 0x36), (0xf7, 0x37),
    (0xf8, 0x38), (0xf9, 0x39), (0xfa, 0x10e), (0xfb, 0x170), (0xfc, 0xdc), (0xfd, 0x164), (0xfe, 0xda), (0xff, 0x9f)]

/-- There is no file of irreversible mappings in `tests/data`. -/
def ebcdic1165_irr : List (Nat × Nat) := []

/-- `tests/data/IBM-1166.TXT`. -/
def ebcdic1166_from : List (Nat × Nat) :=
  [(0x0, 0x0), (0x1, 0x1), (0x2, 0x2), (0x3, 0x3), (0x4, 0x9c), (0x5, 0x9), (0x6, 0x86), (0x7, 0x7f),
    (0x8, 0x97), (0x9, 0x8d), (0xa, 0x8e), (0xb, 0xb), (0xc, 0xc), (0xd, 0xd), (0xe, 0xe), (0xf, 0xf),
    (0x10, 0x10), (0x11, 0x11), (0x12, 0x12), (0x13, 0x13), (0x14, 0x9d), (0x15, 0x85), (0x16, 0x8), (0x17, 0x87),
    (0x18, 0x18), (0x19, 0x19), (0x1a, 0x92), (0x1b, 0x8f), (0x1c, 0x1c), (0x1d, 0x1d), (0x1e, 0x1e), (0x1f, 0x1f),
    (0x20, 0x80), (0x21, 0x81), (0x22, 0x82), (0x23, 0x83), (0x24, 0x84), (0x25, 0xa), (0x26, 0x17), (0x27, 0x1b),
    (0x28, 0x88), (0x29, 0x89), (0x2a, 0x8a), (0x2b, 0x8b), (0x2c, 0x8c), (0x2d, 0x5), (0x2e, 0x6), (0x2f, 0x7),
    (0x30, 0x90), (0x31, 0x91), (0x32, 0x16), (0x33, 0x93), (0x34, 0x94), (0x35, 0x95), (0x36, 0x96), (0x37, 0x4),
    (0x38, 0x98), (0x39, 0x99), (0x3a, 0x9a), (0x3b, 0x9b), (0x3c, 0x14), (0x3d, 0x15), (0x3e, 0x9e), (0x3f, 0x1a),
    (0x40, 0x20), (0x41, 0xa0), (0x42, 0x4d9), (0x43, 0x493), (0x44, 0x451), (0x45, 0x454), (0x46, 0x455), (0x47, 0x456),
    (0x48, 0x49b), (0x49, 0x458), (0x4a, 0x5b), (0x4b, 0x2e), (0x4c, 0x3c), (0x4d, 0x28), (0x4e, 0x2b), (0x4f, 0x21),
    (0x50, 0x26), (0x51, 0x4a3), (0x52, 0x4e9), (0x53, 0x4b1), (0x54, 0x4af), (0x55, 0x45e), (0x56, 0x4bb), (0x57, 0x42a),
    (0x58, 0x2116), (0x59, 0x4d8), (0x5a, 0x5d), (0x5b, 0x24), (0x5c, 0x2a), (0x5d, 0x29), (0x5e, 0x3b), (0x5f, 0x5e),
    (0x60, 0x2d), (0x61, 0x2f), (0x62, 0x492), (0x63, 0x401), (0x64, 0x404), (0x65, 0x405), (0x66, 0x406), (0x67, 0x49a),
    (0x68, 0x408), (0x69, 0x4a2), (0x6a, 0x7c), (0x6b, 0x2c), (0x6c, 0x25), (0x6d, 0x5f), (0x6e, 0x3e), (0x6f, 0x3f),
    (0x70, 0x4e8), (0x71, 0x4b0), (0x72, 0x4ae), (0x73, 0xad), (0x74, 0x40e), (0x75, 0x4ba), (0x76, 0x44e), (0x77, 0x430),
    (0x78, 0x431), (0x79, 0x60), (0x7a, 0x3a), (0x7b, 0x23), (0x7c, 0x40), (0x7d, 0x27), (0x7e, 0x3d), (0x7f, 0x22),
    (0x80, 0x446), (0x81, 0x61), (0x82, 0x62), (0x83, 0x63), (0x84, 0x64), (0x85, 0x65), (0x86, 0x66), (0x87, 0x67),
    (0x88, 0x68), (0x89, 0x69), (0x8a, 0x434), (0x8b, 0x435), (0x8c, 0x444), (0x8d, 0x433), (0x8e, 0x445), (0x8f, 0x438),
    (0x90, 0x439), (0x91, 0x6a), (0x92, 0x6b), (0x93, 0x6c), (0x94, 0x6d), (0x95, 0x6e), (0x96, 0x6f), (0x97, 0x70),
    (0x98, 0x71), (0x99, 0x72), (0x9a, 0x43a), (0x9b, 0x43b), (0x9c, 0x43c), (0x9d, 0x43d), (0x9e, 0x43e), (0x9f, 0x43f),
    (0xa0, 0x44f), (0xa1, 0x7e), (0xa2, 0x73), (0xa3, 0x74), (0xa4, 0x75), (0xa5, 0x76), (0xa6, 0x77), (0xa7, 0x78),
    (0xa8, 0x79), (0xa9, 0x7a), (0xaa, 0x440), (0xab, 0x441), (0xac, 0x442), (0xad, 0x443), (0xae, 0x436), (0xaf, 0x432),
    (0xb0, 0x44c), (0xb1, 0x44b), (0xb2, 0x437), (0xb3, 0x448), (0xb4, 0x44d), (0xb5, 0x449), (0xb6, 0x447), (0xb7, 0x44a),
    (0xb8, 0x42e), (0xb9, 0x410), (0xba, 0x411), (0xbb, 0x426), (0xbc, 0x414), (0xbd, 0x415), (0xbe, 0x424), (0xbf, 0x413),
    (0xc0, 0x7b), (0xc1, 0x41), (0xc2, 0x42), (0xc3, 0x43), (0xc4, 0x44), (0xc5, 0x45), (0xc6, 0x46), (0xc7, 0x47),
    (0xc8, 0x48), (0xc9, 0x49), (0xca, 0x425), (0xcb, 0x418), (0xcc, 0x419), (0xcd, 0x41a), (0xce, 0x41b), (0xcf, 0x41c),
    (0xd0, 0x7d), (0xd1, 0x4a), (0xd2, 0x4b), (0xd3, 0x4c), (0xd4, 0x4d), (0xd5, 0x4e), (0xd6, 0x4f), (0xd7, 0x50),
    (0xd8, 0x51), (0xd9, 0x52), (0xda, 0x41d), (0xdb, 0x41e), (0xdc, 0x41f), (0xdd, 0x42f), (0xde, 0x420), (0xdf, 0x421),
    (0xe0, 0x5c), (0xe1, 0x20ac), (0xe2, 0x53), (0xe3, 0x54), (0xe4, 0x55), (0xe5, 0x56), (0xe6, 0x57), (0xe7, 0x58),
    (0xe8, 0x59), (0xe9, 0x5a), (0xea, 0x422), (0xeb, 0x423), (0xec, 0x416), (0xed, 0x412), (0xee, 0x42c), (0xef, 0x42b),
    (0xf0, 0x30), (0xf1, 0x31), (0xf2, 0x32), (0xf3, 0x33), (0xf4, 0x34), (0xf5, 0x35), (0xf6, 0x36), (0xf7, 0x37),
    (0xf8, 0x38), (0xf9, 0x39), (0xfa, 0x417), (0xfb, 0x428), (0xfc, 0x42d), (0xfd, 0x429), (0xfe, 0x427), (0xff, 0x9f)]

/-- There is no file of irreversible mappings in `tests/data`. -/
def ebcdic1166_irr : List (Nat × Nat) := []

/-- `tests/data/IBM-12712.TXT`. -/
def ebcdic12712_from : List (Nat × Nat) :=
  [(0x0, 0x0), (0x1, 0x1), (0x2, 0x2), (0x3, 0x3), (0x4, 0x9c), (0x5, 0x9), (0x6, 0x86), (0x7, 0x7f),
    (0x8, 0x97), (0x9, 0x8d), (0xa, 0x8e), (0xb, 0xb), (0xc, 0xc), (0xd, 0xd), (0xe, 0xe), (0xf, 0xf),
    (0x10, 0x10), (0x11, 0x11), (0x12, 0x12), (0x13, 0x13), (0x14, 0x9d), (0x15, 0x85), (0x16, 0x8), (0x17, 0x87),
    (0x18, 0x18), (0x19, 0x19), (0x1a, 0x92), (0x1b, 0x8f), (0x1c, 0x1c), (0x1d, 0x1d), (0x1e, 0x1e), (0x1f, 0x1f),
    (0x20, 0x80), (0x21, 0x81), (0x22, 0x82), (0x23, 0x83), (0x24, 0x84), (0x25, 0xa), (0x26, 0x17), (0x27, 0x1b),
    (0x28, 0x88), (0x29, 0x89), (0x2a, 0x8a), (0x2b, 0x8b), (0x2c, 0x8c), (0x2d, 0x5), (0x2e, 0x6), (0x2f, 0x7),
    (0x30, 0x90), (0x31, 0x91), (0x32, 0x16), (0x33, 0x93), (0x34, 0x94), (0x35, 0x95), (0x36, 0x96), (0x37, 0x4),
    (0x38, 0x98), (0x39, 0x99), (0x3a, 0x9a), (0x3b, 0x9b), (0x3c, 0x14), (0x3d, 0x15), (0x3e, 0x9e), (0x3f, 0x1a),
    (0x40, 0x20), (0x41, 0x5d0), (0x42, 0x5d1), (0x43, 0x5d2), (0x44, 0x5d3), (0x45, 0x5d4), (0x46, 0x5d5), (0x47, 0x5d6),
    (0x48, 0x5d7), (0x49, 0x5d8), (0x4a, 0xa2), (0x4b, 0x2e), (0x4c, 0x3c), (0x4d, 0x28), (0x4e, 0x2b), (0x4f, 0x7c),
    (0x50, 0x26), (0x51, 0x5d9), (0x52, 0x5da), (0x53, 0x5db), (0x54, 0x5dc), (0x55, 0x5dd), (0x56, 0x5de), (0x57, 0x5df),
    (0x58, 0x5e0), (0x59, 0x5e1), (0x5a, 0x21), (0x5b, 0x24), (0x5c, 0x2a), (0x5d, 0x29), (0x5e, 0x3b), (0x5f, 0xac),
    (0x60, 0x2d), (0x61, 0x2f), (0x62, 0x5e2), (0x63, 0x5e3), (0x64, 0x5e4), (0x65, 0x5e5), (0x66, 0x5e6), (0x67, 0x5e7),
    (0x68, 0x5e8), (0x69, 0x5e9), (0x6a, 0xa6), (0x6b, 0x2c), (0x6c, 0x25), (0x6d, 0x5f), (0x6e, 0x3e), (0x6f, 0x3f),
    (0x71, 0x5ea), (0x74, 0xa0), (0x78, 0x2017), (0x79, 0x60), (0x7a, 0x3a), (0x7b, 0x23), (0x7c, 0x40), (0x7d, 0x27),
    (0x7e, 0x3d), (0x7f, 0x22), (0x81, 0x61), (0x82, 0x62), (0x83, 0x63), (0x84, 0x64), (0x85, 0x65), (0x86, 0x66),
    (0x87, 0x67), (0x88, 0x68), (0x89, 0x69), (0x8a, 0xab), (0x8b, 0xbb), (0x8f, 0xb1), (0x90, 0xb0), (0x91, 0x6a),
    (0x92, 0x6b), (0x93, 0x6c), (0x94, 0x6d), (0x95, 0x6e), (0x96, 0x6f), (0x97, 0x70), (0x98, 0x71), (0x99, 0x72),
    (0x9c, 0x20ac), (0x9d, 0xb8), (0x9e, 0x20aa), (0x9f, 0xa4), (0xa0, 0xb5), (0xa1, 0x7e), (0xa2, 0x73), (0xa3, 0x74),
    (0xa4, 0x75), (0xa5, 0x76), (0xa6, 0x77), (0xa7, 0x78), (0xa8, 0x79), (0xa9, 0x7a), (0xaf, 0xae), (0xb0, 0x5e),
    (0xb1, 0xa3), (0xb2, 0xa5), (0xb3, 0x2022), (0xb4, 0xa9), (0xb5, 0xa7), (0xb6, 0xb6), (0xb7, 0xbc), (0xb8, 0xbd),
    (0xb9, 0xbe), (0xba, 0x5b), (0xbb, 0x5d), (0xbc, 0x203e), (0xbd, 0xa8), (0xbe, 0xb4), (0xbf, 0xd7), (0xc0, 0x7b),
    (0xc1, 0x41), (0xc2, 0x42), (0xc3, 0x43), (0xc4, 0x44), (0xc5, 0x45), (0xc6, 0x46), (0xc7, 0x47), (0xc8, 0x48),
    (0xc9, 0x49), (0xca, 0xad), (0xd0, 0x7d), (0xd1, 0x4a), (0xd2, 0x4b), (0xd3, 0x4c), (0xd4, 0x4d), (0xd5, 0x4e),
    (0xd6, 0x4f), (0xd7, 0x50), (0xd8, 0x51), (0xd9, 0x52), (0xda, 0xb9), (0xdb, 0x202d), (0xdc, 0x202e), (0xdd, 0x202c),
    (0xe0, 0x5c), (0xe1, 0xf7), (0xe2, 0x53), (0xe3, 0x54), (0xe4, 0x55), (0xe5, 0x56), (0xe6, 0x57), (0xe7, 0x58),
    (0xe8, 0x59), (0xe9, 0x5a), (0xea, 0xb2), (0xf0, 0x30), (0xf1, 0x31), (0xf2, 0x32), (0xf3, 0x33), (0xf4, 0x34),
    (0xf5, 0x35), (0xf6, 0x36), (0xf7, 0x37), (0xf8, 0x38), (0xf9, 0x39), (0xfa, 0xb3), (0xfb, 0x202a), (0xfc, 0x202b),
    (0xfd, 0x200e), (0xfe, 0x200f), (0xff, 0x9f)]

/-- There is no file of irreversible mappings in `tests/data`. -/
def ebcdic12712_irr : List (Nat × Nat) := []

/-- `tests/data/IBM-16804.TXT`. -/
def ebcdic16804_from : List (Nat × Nat) :=
  [(0x0, 0x0), (0x1, 0x1), (0x2, 0x2), (0x3, 0x3), (0x4, 0x9c), (0x5, 0x9), (0x6, 0x86), (0x7, 0x7f),
    (0x8, 0x97), (0x9, 0x8d), (0xa, 0x8e), (0xb, 0xb), (0xc, 0xc), (0xd, 0xd), (0xe, 0xe), (0xf, 0xf),
    (0x10, 0x10), (0x11, 0x11), (0x12, 0x12), (0x13, 0x13), (0x14, 0x9d), (0x15, 0x85), (0x16, 0x8), (0x17, 0x87),
    (0x18, 0x18), (0x19, 0x19), (0x1a, 0x92), (0x1b, 0x8f), (0x1c, 0x1c), (0x1d, 0x1d), (0x1e, 0x1e), (0x1f, 0x1f),
    (0x20, 0x80), (0x21, 0x81), (0x22, 0x82), (0x23, 0x83), (0x24, 0x84), (0x25, 0xa), (0x26, 0x17), (0x27, 0x1b),
    (0x28, 0x88), (0x29, 0x89), (0x2a, 0x8a), (0x2b, 0x8b), (0x2c, 0x8c), (0x2d, 0x5), (0x2e, 0x6), (0x2f, 0x7),
    (0x30, 0x90), (0x31, 0x91), (0x32, 0x16), (0x33, 0x93), (0x34, 0x94), (0x35, 0x95), (0x36, 0x96), (0x37, 0x4),
    (0x38, 0x98), (0x39, 0x99), (0x3a, 0x9a), (0x3b, 0x9b), (0x3c, 0x14), (0x3d, 0x15), (0x3e, 0x9e), (0x3f, 0x1a),
    (0x40, 0x20), (0x41, 0xa0), (0x42, 0x651), (0x43, 0xfe7d), (0x44, 0x640), (0x45, 0x200b), (0x46, 0x621), (0x47, 0x622),
    (0x48, 0xfe82), (0x49, 0x623), (0x4a, 0xa2), (0x4b, 0x2e), (0x4c, 0x3c), (0x4d, 0x28), (0x4e, 0x2b), (0x4f, 0x7c),
    (0x50, 0x26), (0x51, 0xfe84), (0x52, 0x624), (0x55, 0x626), (0x56, 0x627), (0x57, 0xfe8e), (0x58, 0x628), (0x59, 0xfe91),
    (0x5a, 0x21), (0x5b, 0x24), (0x5c, 0x2a), (0x5d, 0x29), (0x5e, 0x3b), (0x5f, 0xac), (0x60, 0x2d), (0x61, 0x2f),
    (0x62, 0x629), (0x63, 0x62a), (0x64, 0xfe97), (0x65, 0x62b), (0x66, 0xfe9b), (0x67, 0x62c), (0x68, 0xfe9f), (0x69, 0x62d),
    (0x6a, 0xa6), (0x6b, 0x2c), (0x6c, 0x25), (0x6d, 0x5f), (0x6e, 0x3e), (0x6f, 0x3f), (0x70, 0xfea3), (0x71, 0x62e),
    (0x72, 0xfea7), (0x73, 0x62f), (0x74, 0x630), (0x75, 0x631), (0x76, 0x632), (0x77, 0x633), (0x78, 0xfeb3), (0x79, 0x60c),
    (0x7a, 0x3a), (0x7b, 0x23), (0x7c, 0x40), (0x7d, 0x27), (0x7e, 0x3d), (0x7f, 0x22), (0x80, 0x634), (0x81, 0x61),
    (0x82, 0x62), (0x83, 0x63), (0x84, 0x64), (0x85, 0x65), (0x86, 0x66), (0x87, 0x67), (0x88, 0x68), (0x89, 0x69),
    (0x8a, 0xfeb7), (0x8b, 0x635), (0x8c, 0xfebb), (0x8d, 0x636), (0x8e, 0xfebf), (0x8f, 0x637), (0x90, 0x638), (0x91, 0x6a),
    (0x92, 0x6b), (0x93, 0x6c), (0x94, 0x6d), (0x95, 0x6e), (0x96, 0x6f), (0x97, 0x70), (0x98, 0x71), (0x99, 0x72),
    (0x9a, 0x639), (0x9b, 0xfeca), (0x9c, 0xfecb), (0x9d, 0xfecc), (0x9e, 0x63a), (0x9f, 0xfece), (0xa0, 0xfecf), (0xa1, 0xf7),
    (0xa2, 0x73), (0xa3, 0x74), (0xa4, 0x75), (0xa5, 0x76), (0xa6, 0x77), (0xa7, 0x78), (0xa8, 0x79), (0xa9, 0x7a),
    (0xaa, 0xfed0), (0xab, 0x641), (0xac, 0xfed3), (0xad, 0x642), (0xae, 0xfed7), (0xaf, 0x643), (0xb0, 0xfedb), (0xb1, 0x644),
    (0xb2, 0xfef5), (0xb3, 0xfef6), (0xb4, 0xfef7), (0xb5, 0xfef8), (0xb8, 0xfefb), (0xb9, 0xfefc), (0xba, 0xfedf), (0xbb, 0x645),
    (0xbc, 0xfee3), (0xbd, 0x646), (0xbe, 0xfee7), (0xbf, 0x647), (0xc0, 0x61b), (0xc1, 0x41), (0xc2, 0x42), (0xc3, 0x43),
    (0xc4, 0x44), (0xc5, 0x45), (0xc6, 0x46), (0xc7, 0x47), (0xc8, 0x48), (0xc9, 0x49), (0xca, 0xad), (0xcb, 0xfeeb),
    (0xcd, 0xfeec), (0xcf, 0x648), (0xd0, 0x61f), (0xd1, 0x4a), (0xd2, 0x4b), (0xd3, 0x4c), (0xd4, 0x4d), (0xd5, 0x4e),
    (0xd6, 0x4f), (0xd7, 0x50), (0xd8, 0x51), (0xd9, 0x52), (0xda, 0x649), (0xdb, 0xfef0), (0xdc, 0x64a), (0xdd, 0xfef2),
    (0xde, 0xfef3), (0xdf, 0x660), (0xe0, 0xd7), (0xe1, 0x2007), (0xe2, 0x53), (0xe3, 0x54), (0xe4, 0x55), (0xe5, 0x56),
    (0xe6, 0x57), (0xe7, 0x58), (0xe8, 0x59), (0xe9, 0x5a), (0xea, 0x661), (0xeb, 0x662), (0xed, 0x663), (0xee, 0x664),
    (0xef, 0x665), (0xf0, 0x30), (0xf1, 0x31), (0xf2, 0x32), (0xf3, 0x33), (0xf4, 0x34), (0xf5, 0x35), (0xf6, 0x36),
    (0xf7, 0x37), (0xf8, 0x38), (0xf9, 0x39), (0xfa, 0x20ac), (0xfb, 0x666), (0xfc, 0x667), (0xfd, 0x668), (0xfe, 0x669),
    (0xff, 0x9f)]

/-- There is no file of irreversible mappings in `tests/data`. -/
def ebcdic16804_irr : List (Nat × Nat) := []

end Reiconv
