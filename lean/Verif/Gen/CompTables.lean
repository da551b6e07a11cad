import Verif.SingleByte

/-!
# Tables of the converters that combine characters

Generated by `tools/gencomp.py` from `lib/converters/*.h`.
-/

namespace Reiconv

/-- `cp1255_2uni` (`lib/converters/cp1255.h:131-156`). -/
def cp1255_2uni : Tab := ⟨16, 128, 0xfffd200f200efffdfffd05ea05e905e805e705e605e505e405e305e205e105e005df05de05dd05dc05db05da05d905d805d705d605d505d405d305d205d105d0fffdfffdfffdfffdfffdfffdfffd05f405f305f205f105f005c305c205c105c005bf05be05bd05bc05bb05ba05b905b805b705b605b505b405b305b205b105b000bf00be00bd00bc00bb00f700b900b800b700b600b500b400b300b200b100b000af00ae00ad00ac00ab00d700a900a800a700a600a520aa00a300a200a100a0fffdfffdfffdfffd203afffd212202dc201420132022201d201c20192018fffdfffdfffdfffdfffd2039fffd203002c6202120202026201e0192201afffd20ac⟩

/-- `cp1255_comp_table_data` (`lib/converters/cp1255.h:42-70`): base, composed. -/
def cp1255_comp_table_data : List (Nat × Nat) :=
  [(0x5d9, 0xfb1d), (0x5d0, 0xfb2e), (0x5f2, 0xfb1f), (0x5d0, 0xfb2f), (0x5d5, 0xfb4b), (0x5d0, 0xfb30),
    (0x5d1, 0xfb31), (0x5d2, 0xfb32), (0x5d3, 0xfb33), (0x5d4, 0xfb34), (0x5d5, 0xfb35), (0x5d6, 0xfb36),
    (0x5d8, 0xfb38), (0x5d9, 0xfb39), (0x5da, 0xfb3a), (0x5db, 0xfb3b), (0x5dc, 0xfb3c), (0x5de, 0xfb3e),
    (0x5e0, 0xfb40), (0x5e1, 0xfb41), (0x5e3, 0xfb43), (0x5e4, 0xfb44), (0x5e6, 0xfb46), (0x5e7, 0xfb47),
    (0x5e8, 0xfb48), (0x5e9, 0xfb49), (0x5ea, 0xfb4a), (0xfb2a, 0xfb2c), (0xfb2b, 0xfb2d), (0x5d1, 0xfb4c),
    (0x5db, 0xfb4d), (0x5e4, 0xfb4e), (0x5e9, 0xfb2a), (0xfb49, 0xfb2c), (0x5e9, 0xfb2b), (0xfb49, 0xfb2d)]

/-- `cp1255_comp_table` (`lib/converters/cp1255.h:75-80`): number of rows and first row for each combining
character. -/
def cp1255_comp_table : List (Nat × Nat) :=
  [(1, 0), (2, 1), (1, 3), (1, 4), (24, 5), (3, 29), (2, 32), (2, 34)]

/-- `cp1255_decomp_table` (`lib/converters/cp1255.h:90-125`): composed, base, and comb1, comb2
without negative values. -/
def cp1255_decomp_table : List (Nat × Nat × List Nat) :=
  [(0xfb1d, 0x5d9, [0]), (0xfb1f, 0x5f2, [1]), (0xfb2a, 0x5e9, [6]), (0xfb2b, 0x5e9, [7]), (0xfb2c, 0x5e9, [4, 6]), (0xfb2d, 0x5e9, [4, 7]),
    (0xfb2e, 0x5d0, [1]), (0xfb2f, 0x5d0, [2]), (0xfb30, 0x5d0, [4]), (0xfb31, 0x5d1, [4]), (0xfb32, 0x5d2, [4]), (0xfb33, 0x5d3, [4]),
    (0xfb34, 0x5d4, [4]), (0xfb35, 0x5d5, [4]), (0xfb36, 0x5d6, [4]), (0xfb38, 0x5d8, [4]), (0xfb39, 0x5d9, [4]), (0xfb3a, 0x5da, [4]),
    (0xfb3b, 0x5db, [4]), (0xfb3c, 0x5dc, [4]), (0xfb3e, 0x5de, [4]), (0xfb40, 0x5e0, [4]), (0xfb41, 0x5e1, [4]), (0xfb43, 0x5e3, [4]),
    (0xfb44, 0x5e4, [4]), (0xfb46, 0x5e6, [4]), (0xfb47, 0x5e7, [4]), (0xfb48, 0x5e8, [4]), (0xfb49, 0x5e9, [4]), (0xfb4a, 0x5ea, [4]),
    (0xfb4b, 0x5d5, [3]), (0xfb4c, 0x5d1, [5]), (0xfb4d, 0x5db, [5]), (0xfb4e, 0x5e4, [5])]

/-- `cp1255_comb_table` (`lib/converters/cp1255.h:127-129`). -/
def cp1255_comb_table : Tab := ⟨8, 8, 0xd2d1cfccc9c8c7c4⟩

/-- `cp1255_page00` (`lib/converters/cp1255.h:280-292`). -/
def cp1255_page00 : Tab := ⟨8, 88, 0xba00000000000000000000000000000000000000000000000000000000000000aa0000000000000000000000000000000000000000000000bfbebdbcbb00b9b8b7b6b5b4b3b2b1b0afaeadacab00a9a8a7a6a500a3a2a1a0⟩

/-- `cp1255_page02` (`lib/converters/cp1255.h:293-298`). -/
def cp1255_page02 : Tab := ⟨8, 32, 0x9800000000000000000000000000000000000000000088000000000000⟩

/-- `cp1255_page05` (`lib/converters/cp1255.h:299-309`). -/
def cp1255_page05 : Tab := ⟨8, 72, 0xd8d7d6d5d40000000000faf9f8f7f6f5f4f3f2f1f0efeeedecebeae9e8e7e6e5e4e3e2e1e0000000000000000000000000d3d2d1d0cfcecdcccbcac9c8c7c6c5c4c3c2c1c0⟩

/-- `cp1255_page20` (`lib/converters/cp1255.h:310-318`). -/
def cp1255_page20 : Tab := ⟨8, 56, 0x9b8b0000000000000000890000000000000000008500000095878600849493008292910000009796000000fefd000000000000⟩

/-- `viet_comp_table_data` (`lib/converters/vietcomb.h:32-253`): base, composed. -/
def viet_comp_table_data : List (Nat × Nat) :=
  [(0x41, 0xc0), (0x45, 0xc8), (0x49, 0xcc), (0x4e, 0x1f8), (0x4f, 0xd2), (0x55, 0xd9),
    (0x57, 0x1e80), (0x59, 0x1ef2), (0x61, 0xe0), (0x65, 0xe8), (0x69, 0xec), (0x6e, 0x1f9),
    (0x6f, 0xf2), (0x75, 0xf9), (0x77, 0x1e81), (0x79, 0x1ef3), (0xa8, 0x1fed), (0xc2, 0x1ea6),
    (0xca, 0x1ec0), (0xd4, 0x1ed2), (0xdc, 0x1db), (0xe2, 0x1ea7), (0xea, 0x1ec1), (0xf4, 0x1ed3),
    (0xfc, 0x1dc), (0x102, 0x1eb0), (0x103, 0x1eb1), (0x1a0, 0x1edc), (0x1a1, 0x1edd), (0x1af, 0x1eea),
    (0x1b0, 0x1eeb), (0x41, 0xc1), (0x43, 0x106), (0x45, 0xc9), (0x47, 0x1f4), (0x49, 0xcd),
    (0x4b, 0x1e30), (0x4c, 0x139), (0x4d, 0x1e3e), (0x4e, 0x143), (0x4f, 0xd3), (0x50, 0x1e54),
    (0x52, 0x154), (0x53, 0x15a), (0x55, 0xda), (0x57, 0x1e82), (0x59, 0xdd), (0x5a, 0x179),
    (0x61, 0xe1), (0x63, 0x107), (0x65, 0xe9), (0x67, 0x1f5), (0x69, 0xed), (0x6b, 0x1e31),
    (0x6c, 0x13a), (0x6d, 0x1e3f), (0x6e, 0x144), (0x6f, 0xf3), (0x70, 0x1e55), (0x72, 0x155),
    (0x73, 0x15b), (0x75, 0xfa), (0x77, 0x1e83), (0x79, 0xfd), (0x7a, 0x17a), (0xa8, 0x385),
    (0xc2, 0x1ea4), (0xc5, 0x1fa), (0xc6, 0x1fc), (0xc7, 0x1e08), (0xca, 0x1ebe), (0xcf, 0x1e2e),
    (0xd4, 0x1ed0), (0xd5, 0x1e4c), (0xd8, 0x1fe), (0xdc, 0x1d7), (0xe2, 0x1ea5), (0xe5, 0x1fb),
    (0xe6, 0x1fd), (0xe7, 0x1e09), (0xea, 0x1ebf), (0xef, 0x1e2f), (0xf4, 0x1ed1), (0xf5, 0x1e4d),
    (0xf8, 0x1ff), (0xfc, 0x1d8), (0x102, 0x1eae), (0x103, 0x1eaf), (0x168, 0x1e78), (0x169, 0x1e79),
    (0x1a0, 0x1eda), (0x1a1, 0x1edb), (0x1af, 0x1ee8), (0x1b0, 0x1ee9), (0x41, 0xc3), (0x45, 0x1ebc),
    (0x49, 0x128), (0x4e, 0xd1), (0x4f, 0xd5), (0x55, 0x168), (0x56, 0x1e7c), (0x59, 0x1ef8),
    (0x61, 0xe3), (0x65, 0x1ebd), (0x69, 0x129), (0x6e, 0xf1), (0x6f, 0xf5), (0x75, 0x169),
    (0x76, 0x1e7d), (0x79, 0x1ef9), (0xc2, 0x1eaa), (0xca, 0x1ec4), (0xd3, 0x1e4c), (0xd4, 0x1ed6),
    (0xd6, 0x1e4e), (0xda, 0x1e78), (0xe2, 0x1eab), (0xea, 0x1ec5), (0xf3, 0x1e4d), (0xf4, 0x1ed7),
    (0xf6, 0x1e4f), (0xfa, 0x1e79), (0x102, 0x1eb4), (0x103, 0x1eb5), (0x1a0, 0x1ee0), (0x1a1, 0x1ee1),
    (0x1af, 0x1eee), (0x1b0, 0x1eef), (0x41, 0x1ea2), (0x45, 0x1eba), (0x49, 0x1ec8), (0x4f, 0x1ece),
    (0x55, 0x1ee6), (0x59, 0x1ef6), (0x61, 0x1ea3), (0x65, 0x1ebb), (0x69, 0x1ec9), (0x6f, 0x1ecf),
    (0x75, 0x1ee7), (0x79, 0x1ef7), (0xc2, 0x1ea8), (0xca, 0x1ec2), (0xd4, 0x1ed4), (0xe2, 0x1ea9),
    (0xea, 0x1ec3), (0xf4, 0x1ed5), (0x102, 0x1eb2), (0x103, 0x1eb3), (0x1a0, 0x1ede), (0x1a1, 0x1edf),
    (0x1af, 0x1eec), (0x1b0, 0x1eed), (0x41, 0x1ea0), (0x42, 0x1e04), (0x44, 0x1e0c), (0x45, 0x1eb8),
    (0x48, 0x1e24), (0x49, 0x1eca), (0x4b, 0x1e32), (0x4c, 0x1e36), (0x4d, 0x1e42), (0x4e, 0x1e46),
    (0x4f, 0x1ecc), (0x52, 0x1e5a), (0x53, 0x1e62), (0x54, 0x1e6c), (0x55, 0x1ee4), (0x56, 0x1e7e),
    (0x57, 0x1e88), (0x59, 0x1ef4), (0x5a, 0x1e92), (0x61, 0x1ea1), (0x62, 0x1e05), (0x64, 0x1e0d),
    (0x65, 0x1eb9), (0x68, 0x1e25), (0x69, 0x1ecb), (0x6b, 0x1e33), (0x6c, 0x1e37), (0x6d, 0x1e43),
    (0x6e, 0x1e47), (0x6f, 0x1ecd), (0x72, 0x1e5b), (0x73, 0x1e63), (0x74, 0x1e6d), (0x75, 0x1ee5),
    (0x76, 0x1e7f), (0x77, 0x1e89), (0x79, 0x1ef5), (0x7a, 0x1e93), (0xc2, 0x1eac), (0xca, 0x1ec6),
    (0xd4, 0x1ed8), (0xe2, 0x1ead), (0xea, 0x1ec7), (0xf4, 0x1ed9), (0x102, 0x1eb6), (0x103, 0x1eb7),
    (0x1a0, 0x1ee2), (0x1a1, 0x1ee3), (0x1af, 0x1ef0), (0x1b0, 0x1ef1)]

/-- `viet_comp_table` (`lib/converters/vietcomb.h:254-260`): number of rows and first row for each combining
character. -/
def viet_comp_table : List (Nat × Nat) :=
  [(31, 0), (63, 31), (34, 94), (24, 128), (50, 152)]

/-- `viet_decomp_table` (`lib/converters/vietcomb.h:264-466`): composed, base, comb1. -/
def viet_decomp_table : List (Nat × Nat × List Nat) :=
  [(0xb4, 0x20, [1]), (0xc0, 0x41, [0]), (0xc1, 0x41, [1]), (0xc3, 0x41, [2]), (0xc8, 0x45, [0]), (0xc9, 0x45, [1]),
    (0xcc, 0x49, [0]), (0xcd, 0x49, [1]), (0xd1, 0x4e, [2]), (0xd2, 0x4f, [0]), (0xd3, 0x4f, [1]), (0xd5, 0x4f, [2]),
    (0xd9, 0x55, [0]), (0xda, 0x55, [1]), (0xdd, 0x59, [1]), (0xe0, 0x61, [0]), (0xe1, 0x61, [1]), (0xe3, 0x61, [2]),
    (0xe8, 0x65, [0]), (0xe9, 0x65, [1]), (0xec, 0x69, [0]), (0xed, 0x69, [1]), (0xf1, 0x6e, [2]), (0xf2, 0x6f, [0]),
    (0xf3, 0x6f, [1]), (0xf5, 0x6f, [2]), (0xf9, 0x75, [0]), (0xfa, 0x75, [1]), (0xfd, 0x79, [1]), (0x106, 0x43, [1]),
    (0x107, 0x63, [1]), (0x128, 0x49, [2]), (0x129, 0x69, [2]), (0x139, 0x4c, [1]), (0x13a, 0x6c, [1]), (0x143, 0x4e, [1]),
    (0x144, 0x6e, [1]), (0x154, 0x52, [1]), (0x155, 0x72, [1]), (0x15a, 0x53, [1]), (0x15b, 0x73, [1]), (0x168, 0x55, [2]),
    (0x169, 0x75, [2]), (0x179, 0x5a, [1]), (0x17a, 0x7a, [1]), (0x1d7, 0xdc, [1]), (0x1d8, 0xfc, [1]), (0x1db, 0xdc, [0]),
    (0x1dc, 0xfc, [0]), (0x1f4, 0x47, [1]), (0x1f5, 0x67, [1]), (0x1f8, 0x4e, [0]), (0x1f9, 0x6e, [0]), (0x1fa, 0xc5, [1]),
    (0x1fb, 0xe5, [1]), (0x1fc, 0xc6, [1]), (0x1fd, 0xe6, [1]), (0x1fe, 0xd8, [1]), (0x1ff, 0xf8, [1]), (0x2dc, 0x20, [2]),
    (0x385, 0xa8, [1]), (0x1e04, 0x42, [4]), (0x1e05, 0x62, [4]), (0x1e08, 0xc7, [1]), (0x1e09, 0xe7, [1]), (0x1e0c, 0x44, [4]),
    (0x1e0d, 0x64, [4]), (0x1e24, 0x48, [4]), (0x1e25, 0x68, [4]), (0x1e2e, 0xcf, [1]), (0x1e2f, 0xef, [1]), (0x1e30, 0x4b, [1]),
    (0x1e31, 0x6b, [1]), (0x1e32, 0x4b, [4]), (0x1e33, 0x6b, [4]), (0x1e36, 0x4c, [4]), (0x1e37, 0x6c, [4]), (0x1e3e, 0x4d, [1]),
    (0x1e3f, 0x6d, [1]), (0x1e42, 0x4d, [4]), (0x1e43, 0x6d, [4]), (0x1e46, 0x4e, [4]), (0x1e47, 0x6e, [4]), (0x1e4c, 0xd3, [2]),
    (0x1e4d, 0xf3, [2]), (0x1e4e, 0xd6, [2]), (0x1e4f, 0xf6, [2]), (0x1e54, 0x50, [1]), (0x1e55, 0x70, [1]), (0x1e5a, 0x52, [4]),
    (0x1e5b, 0x72, [4]), (0x1e62, 0x53, [4]), (0x1e63, 0x73, [4]), (0x1e6c, 0x54, [4]), (0x1e6d, 0x74, [4]), (0x1e78, 0xda, [2]),
    (0x1e79, 0xfa, [2]), (0x1e7c, 0x56, [2]), (0x1e7d, 0x76, [2]), (0x1e7e, 0x56, [4]), (0x1e7f, 0x76, [4]), (0x1e80, 0x57, [0]),
    (0x1e81, 0x77, [0]), (0x1e82, 0x57, [1]), (0x1e83, 0x77, [1]), (0x1e88, 0x57, [4]), (0x1e89, 0x77, [4]), (0x1e92, 0x5a, [4]),
    (0x1e93, 0x7a, [4]), (0x1ea0, 0x41, [4]), (0x1ea1, 0x61, [4]), (0x1ea2, 0x41, [3]), (0x1ea3, 0x61, [3]), (0x1ea4, 0xc2, [1]),
    (0x1ea5, 0xe2, [1]), (0x1ea6, 0xc2, [0]), (0x1ea7, 0xe2, [0]), (0x1ea8, 0xc2, [3]), (0x1ea9, 0xe2, [3]), (0x1eaa, 0xc2, [2]),
    (0x1eab, 0xe2, [2]), (0x1eac, 0xc2, [4]), (0x1ead, 0xe2, [4]), (0x1eae, 0x102, [1]), (0x1eaf, 0x103, [1]), (0x1eb0, 0x102, [0]),
    (0x1eb1, 0x103, [0]), (0x1eb2, 0x102, [3]), (0x1eb3, 0x103, [3]), (0x1eb4, 0x102, [2]), (0x1eb5, 0x103, [2]), (0x1eb6, 0x102, [4]),
    (0x1eb7, 0x103, [4]), (0x1eb8, 0x45, [4]), (0x1eb9, 0x65, [4]), (0x1eba, 0x45, [3]), (0x1ebb, 0x65, [3]), (0x1ebc, 0x45, [2]),
    (0x1ebd, 0x65, [2]), (0x1ebe, 0xca, [1]), (0x1ebf, 0xea, [1]), (0x1ec0, 0xca, [0]), (0x1ec1, 0xea, [0]), (0x1ec2, 0xca, [3]),
    (0x1ec3, 0xea, [3]), (0x1ec4, 0xca, [2]), (0x1ec5, 0xea, [2]), (0x1ec6, 0xca, [4]), (0x1ec7, 0xea, [4]), (0x1ec8, 0x49, [3]),
    (0x1ec9, 0x69, [3]), (0x1eca, 0x49, [4]), (0x1ecb, 0x69, [4]), (0x1ecc, 0x4f, [4]), (0x1ecd, 0x6f, [4]), (0x1ece, 0x4f, [3]),
    (0x1ecf, 0x6f, [3]), (0x1ed0, 0xd4, [1]), (0x1ed1, 0xf4, [1]), (0x1ed2, 0xd4, [0]), (0x1ed3, 0xf4, [0]), (0x1ed4, 0xd4, [3]),
    (0x1ed5, 0xf4, [3]), (0x1ed6, 0xd4, [2]), (0x1ed7, 0xf4, [2]), (0x1ed8, 0xd4, [4]), (0x1ed9, 0xf4, [4]), (0x1eda, 0x1a0, [1]),
    (0x1edb, 0x1a1, [1]), (0x1edc, 0x1a0, [0]), (0x1edd, 0x1a1, [0]), (0x1ede, 0x1a0, [3]), (0x1edf, 0x1a1, [3]), (0x1ee0, 0x1a0, [2]),
    (0x1ee1, 0x1a1, [2]), (0x1ee2, 0x1a0, [4]), (0x1ee3, 0x1a1, [4]), (0x1ee4, 0x55, [4]), (0x1ee5, 0x75, [4]), (0x1ee6, 0x55, [3]),
    (0x1ee7, 0x75, [3]), (0x1ee8, 0x1af, [1]), (0x1ee9, 0x1b0, [1]), (0x1eea, 0x1af, [0]), (0x1eeb, 0x1b0, [0]), (0x1eec, 0x1af, [3]),
    (0x1eed, 0x1b0, [3]), (0x1eee, 0x1af, [2]), (0x1eef, 0x1b0, [2]), (0x1ef0, 0x1af, [4]), (0x1ef1, 0x1b0, [4]), (0x1ef2, 0x59, [0]),
    (0x1ef3, 0x79, [0]), (0x1ef4, 0x59, [4]), (0x1ef5, 0x79, [4]), (0x1ef6, 0x59, [3]), (0x1ef7, 0x79, [3]), (0x1ef8, 0x59, [2]),
    (0x1ef9, 0x79, [2]), (0x1fed, 0xa8, [0]), (0x1fee, 0xa8, [1])]

/-- `cp1258_comb_table` (`lib/converters/cp1258.h:35-37`). -/
def cp1258_comb_table : Tab := ⟨8, 5, 0xf2d2deeccc⟩

/-- `cp1258_comp_bases` (`lib/converters/cp1258.h:46-49`). -/
def cp1258_comp_bases : Tab := ⟨32, 12, 0x18003000000000000000000000000000000000000000c155884e4155884e4000001200000000006fdfbbe06fdfbbe⟩

/-- `cp1258_2uni` (`lib/converters/cp1258.h:51-76`). -/
def cp1258_2uni : Tab := ⟨16, 128, 0xff20ab01b000fc00fb00fa00f900f800f700f601a100f400f3032300f1011100ef00ee00ed030100eb00ea00e900e800e700e600e500e4010300e200e100e000df030301af00dc00db00da00d900d800d700d601a000d400d3030900d1011000cf00ce00cd030000cb00ca00c900c800c700c600c500c4010200c200c100c000bf00be00bd00bc00bb00ba00b900b800b700b600b500b400b300b200b100b000af00ae00ad00ac00ab00aa00a900a800a700a600a500a400a300a200a100a00178fffdfffd0153203afffd212202dc201420132022201d201c20192018fffdfffdfffdfffd01522039fffd203002c6202120202026201e0192201afffd20ac⟩

/-- `cp1258_page00` (`lib/converters/cp1258.h:182-195`). -/
def cp1258_page00 : Tab := ⟨8, 88, 0xf0d0000000000000000000000000e3c30000ff0000fcfbfaf9f8f7f600f4f300f100efeeed00ebeae9e8e7e6e5e400e2e1e0df0000dcdbdad9d8d7d600d4d300d100cfcecd00cbcac9c8c7c6c5c400c2c1c0⟩

/-- `cp1258_page01` (`lib/converters/cp1258.h:196-210`). -/
def cp1258_page01 : Tab := ⟨8, 104, 0xfddd00000000000000000000000000f5d50000000000000000000000000083000000000000000000000000000000000000000000000000009f0000000000000000000000000000000000000000000000000000000000000000000000009c8c0000⟩

/-- `cp1258_page02` (`lib/converters/cp1258.h:211-216`). -/
def cp1258_page02 : Tab := ⟨8, 32, 0x9800000000000000000000000000000000000000000088000000000000⟩

/-- `cp1258_page03` (`lib/converters/cp1258.h:217-223`). -/
def cp1258_page03 : Tab := ⟨8, 40, 0xf200000000000000000000000000000000000000000000000000d20000000000de00eccc⟩

/-- `cp1258_page20` (`lib/converters/cp1258.h:224-231`). -/
def cp1258_page20 : Tab := ⟨8, 48, 0x9b8b0000000000000000890000000000000000008500000095878600849493008292910000009796000000⟩

/-- `tcvn_comb_table` (`lib/converters/tcvn.h:35-37`). -/
def tcvn_comb_table : Tab := ⟨8, 5, 0xb4b1b2b3b0⟩

/-- `tcvn_comp_bases` (`lib/converters/tcvn.h:45-48`). -/
def tcvn_comp_bases : Tab := ⟨32, 12, 0x18003000000000000030000000000000000000000000c0478040404780404000000200000000006fdfbbe06fdfbbe⟩

/-- `tcvn_2uni_1` (`lib/converters/tcvn.h:50-56`). -/
def tcvn_2uni_1 : Tab := ⟨16, 24, 0x1ef400dd1ef81ef61ef21ef01ee80010000f000e000d000c000b000a0009000800071eee1eec1eea00031ee400da0000⟩

/-- `tcvn_2uni_2` (`lib/converters/tcvn.h:57-82`). -/
def tcvn_2uni_2 : Tab := ⟨16, 128, 0x1ed01ef500fd1ef91ef71ef31ef11ee91eef1eed1eeb1ee500fa01691ee71ed600f91ee31edb1ee11edf1edd1ed91ed11ed71ed51ed31ecd00f300f51ecf1ed400f21ecb00ed01291ed21ebe1ec41ec900ec1ec71ebf1ec51ec31ec11eb900e91ebd1ebb1ec200e81ead1ea51eab1ea91ea71eb71ec01ea41eaa1ea81ea61eae1eb41eaf1eb51eb31eb11eb21ea100e100e31ea300e0032303010303030903001eb0011101b001a100f400ea00e20103011001af01a000d400ca00c2010200a001681ee600d91ee21eda1ee01ede1edc1ed81ecc00d300d51ece00d21eca00cd01281ec800cc1ec61eb800c91ebc1eba00c81eac1eb61ea000c100c31ea200c0⟩

/-- `tcvn_page00` (`lib/converters/tcvn.h:164-201`). -/
def tcvn_page00 : Tab := ⟨8, 280, 0xada600000000000000000000000000aca5000000000000000000000000000000000000000000000000000000000000000000000000000000000000000000000000000000000000f29f0000000000000000000000000000000000000000000000000000000000000000000000000000000000000000000000000000000000000000000000000000dc8f00000000000000000000000000000000000000000000aea7000000000000000000000000a8a100000000fd0000f3ef000000e2abe3df00000000ddd700aad0cc00000000b7a9b8b50000160000019d00000094a4959200000000908d00a38a870000000082a2838000000000000000000000000000000000000000000000000000000000000000a0⟩

/-- `tcvn_page03` (`lib/converters/tcvn.h:202-208`). -/
def tcvn_page03 : Tab := ⟨8, 40, 0xb400000000000000000000000000000000000000000000000000b10000000000b200b3b0⟩

/-- `tcvn_page1e` (`lib/converters/tcvn.h:209-222`). -/
def tcvn_page1e : Tab := ⟨8, 96, 0xfc15fb14fe17fa13f912f706f605f504f811f19ef402ee9cec9aeb99ea98ed9be997e7f0e6e0e5dbe8ffe193e496de91d88ed68cd4d9d3cdd2c5d5dacf89ce88d18bc685bdbfbcbabbafbec0cb86c9c3c8c2c7c1cac4b681b984⟩

end Reiconv
