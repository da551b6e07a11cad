import Verif.Props.Lines
import Verif.Props.Gb18030
import Verif.Props.Escape
import Verif.Lookup
import Verif.Codec.IsoFollow3
import Verif.Gen.SbEntries
import Verif.CompEntries

/-!
# All registered encodings

The array `all_encodings` (`lib/all_encodings.h:30-41`, `lib/encodings.h.snippet`), in the order of the
encoding numbers. `targets` leaves out GB18030:2005, whose encoder satisfies no contract (`C01_gb18030_2005_overflow`);
`sources` has its decoder.
-/

namespace Reiconv

/-- The encodings with the functions that a descriptor for conversion to them calls, except GB18030:2005. -/
noncomputable def targets : List Entry :=
  [ascii_entry, utf8_entry, ucs2_entry, ucs2be_entry, ucs2le_entry, ucs4_entry, ucs4be_entry, ucs4le_entry,
   utf16_entry, utf16be_entry, utf16le_entry, utf32_entry, utf32be_entry, utf32le_entry, utf7_entry,
   ucs2internal_entry, ucs2swapped_entry, ucs4internal_entry, ucs4swapped_entry, c99_entry, java_entry,
   euc_jp_entry, sjis_entry, cp932_entry, iso2022_jp_entry, iso2022_jp1_entry, iso2022_jp2_entry,
   iso2022_jpms_entry, euc_cn_entry, ces_gbk_entry, cp936_entry, gb18030_2022_entry, iso2022_cn_entry,
   iso2022_cn_ext_entry, hz_entry, euc_tw_entry, ces_big5_entry, cp950_entry, big5hkscs1999_entry,
   big5hkscs2001_entry, big5hkscs2004_entry, big5hkscs2008_entry, euc_kr_entry, cp949_entry, johab_entry,
   iso2022_kr_entry, dec_kanji_entry, dec_hanyu_entry, iso8859_1_entry, iso8859_2_entry, iso8859_3_entry,
   iso8859_4_entry, iso8859_5_entry, iso8859_6_entry, iso8859_7_entry, iso8859_8_entry, iso8859_9_entry,
   iso8859_10_entry, iso8859_11_entry, iso8859_13_entry, iso8859_14_entry, iso8859_15_entry,
   iso8859_16_entry, koi8_r_entry, koi8_u_entry, koi8_ru_entry, cp1250_entry, cp1251_entry, cp1252_entry,
   cp1253_entry, cp1254_entry, cp1255_entry, cp1256_entry, cp1257_entry, cp1258_entry, cp850_entry,
   cp862_entry, cp866_entry, cp1131_entry, mac_roman_entry, mac_centraleurope_entry, mac_iceland_entry,
   mac_croatian_entry, mac_romania_entry, mac_cyrillic_entry, mac_ukraine_entry, mac_greek_entry,
   mac_turkish_entry, mac_hebrew_entry, mac_arabic_entry, mac_thai_entry, hp_roman8_entry, nextstep_entry,
   armscii_8_entry, georgian_academy_entry, georgian_ps_entry, koi8_t_entry, pt154_entry, rk1048_entry,
   mulelao_entry, cp1133_entry, tis620_entry, cp874_entry, viscii_entry, tcvn_entry, iso646_jp_entry,
   jisx0201_entry, jisx0208_entry, jisx0212_entry, iso646_cn_entry, gb2312_entry, isoir165_entry,
   ksc5601_entry, cp856_entry, cp922_entry, cp943_entry, cp1046_entry, cp1124_entry, cp1129_entry,
   cp1161_entry, cp1162_entry, cp1163_entry, cp437_entry, cp737_entry, cp775_entry, cp852_entry, cp853_entry,
   cp855_entry, cp857_entry, cp858_entry, cp860_entry, cp861_entry, cp863_entry, cp864_entry, cp865_entry,
   cp869_entry, cp1125_entry, ebcdic037_entry, ebcdic273_entry, ebcdic277_entry, ebcdic278_entry,
   ebcdic280_entry, ebcdic282_entry, ebcdic284_entry, ebcdic285_entry, ebcdic297_entry, ebcdic423_entry,
   ebcdic424_entry, ebcdic425_entry, ebcdic500_entry, ebcdic838_entry, ebcdic870_entry, ebcdic871_entry,
   ebcdic875_entry, ebcdic880_entry, ebcdic905_entry, ebcdic924_entry, ebcdic1025_entry, ebcdic1026_entry,
   ebcdic1047_entry, ebcdic1097_entry, ebcdic1112_entry, ebcdic1122_entry, ebcdic1123_entry,
   ebcdic1130_entry, ebcdic1132_entry, ebcdic1137_entry, ebcdic1140_entry, ebcdic1141_entry,
   ebcdic1142_entry, ebcdic1143_entry, ebcdic1144_entry, ebcdic1145_entry, ebcdic1146_entry,
   ebcdic1147_entry, ebcdic1148_entry, ebcdic1149_entry, ebcdic1153_entry, ebcdic1154_entry,
   ebcdic1155_entry, ebcdic1156_entry, ebcdic1157_entry, ebcdic1158_entry, ebcdic1160_entry,
   ebcdic1164_entry, ebcdic1165_entry, ebcdic1166_entry, ebcdic4971_entry, ebcdic12712_entry,
   ebcdic16804_entry, euc_jisx0213_entry, shift_jisx0213_entry, iso2022_jp3_entry, big5_2003_entry,
   tds565_entry, atarist_entry, riscos1_entry]

/-- The encodings with the functions that a descriptor for conversion from them calls. -/
noncomputable def sources : List Entry := gb18030_2005_source :: targets

theorem targets_idx : targets.map (·.idx) = (List.range ei_end).filter (fun i => i != ei_gb18030_2005) := by decide +kernel

theorem targets_complete {i : Nat} (hi : i < ei_end) (h : i ≠ ei_gb18030_2005) : ∃ B ∈ targets, B.idx = i := by
  have : i ∈ targets.map (·.idx) := by
    rw [targets_idx, List.mem_filter]
    exact ⟨List.mem_range.2 hi, by simpa using h⟩
  exact List.mem_map.1 this

theorem sources_complete {i : Nat} (hi : i < ei_end) : ∃ A ∈ sources, A.idx = i := by
  by_cases h : i = ei_gb18030_2005
  · exact ⟨gb18030_2005_source, List.mem_cons_self .., h.symm⟩
  · obtain ⟨B, h1, h2⟩ := targets_complete hi h
    exact ⟨B, List.mem_cons_of_mem _ h1, h2⟩

end Reiconv
