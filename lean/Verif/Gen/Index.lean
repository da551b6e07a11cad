/-!
# Encoding numbers

The `enum` of `lib/encoding_indexes.h:32-36`: one number per `DEFENCODING` of
`lib/encodings.h.snippet`, in order. Generated by `tools/genei.py`.
-/

namespace Reiconv

/-- `lib/encodings.h.snippet:60`. -/
abbrev ei_ascii : Nat := 0
/-- `lib/encodings.h.snippet:79`. -/
abbrev ei_utf8 : Nat := 1
/-- `lib/encodings.h.snippet:87`. -/
abbrev ei_ucs2 : Nat := 2
/-- `lib/encodings.h.snippet:93`. -/
abbrev ei_ucs2be : Nat := 3
/-- `lib/encodings.h.snippet:104`. -/
abbrev ei_ucs2le : Nat := 4
/-- `lib/encodings.h.snippet:112`. -/
abbrev ei_ucs4 : Nat := 5
/-- `lib/encodings.h.snippet:118`. -/
abbrev ei_ucs4be : Nat := 6
/-- `lib/encodings.h.snippet:125`. -/
abbrev ei_ucs4le : Nat := 7
/-- `lib/encodings.h.snippet:132`. -/
abbrev ei_utf16 : Nat := 8
/-- `lib/encodings.h.snippet:137`. -/
abbrev ei_utf16be : Nat := 9
/-- `lib/encodings.h.snippet:142`. -/
abbrev ei_utf16le : Nat := 10
/-- `lib/encodings.h.snippet:147`. -/
abbrev ei_utf32 : Nat := 11
/-- `lib/encodings.h.snippet:152`. -/
abbrev ei_utf32be : Nat := 12
/-- `lib/encodings.h.snippet:157`. -/
abbrev ei_utf32le : Nat := 13
/-- `lib/encodings.h.snippet:161`. -/
abbrev ei_utf7 : Nat := 14
/-- `lib/encodings.h.snippet:174`. -/
abbrev ei_ucs2internal : Nat := 15
/-- `lib/encodings.h.snippet:178`. -/
abbrev ei_ucs2swapped : Nat := 16
/-- `lib/encodings.h.snippet:182`. -/
abbrev ei_ucs4internal : Nat := 17
/-- `lib/encodings.h.snippet:186`. -/
abbrev ei_ucs4swapped : Nat := 18
/-- `lib/encodings.h.snippet:190`. -/
abbrev ei_c99 : Nat := 19
/-- `lib/encodings.h.snippet:192`. -/
abbrev ei_java : Nat := 20
/-- `lib/encodings.h.snippet:195`. -/
abbrev ei_euc_jp : Nat := 21
/-- `lib/encodings.h.snippet:206`. -/
abbrev ei_sjis : Nat := 22
/-- `lib/encodings.h.snippet:214`. -/
abbrev ei_cp932 : Nat := 23
/-- `lib/encodings.h.snippet:221`. -/
abbrev ei_iso2022_jp : Nat := 24
/-- `lib/encodings.h.snippet:232`. -/
abbrev ei_iso2022_jp1 : Nat := 25
/-- `lib/encodings.h.snippet:236`. -/
abbrev ei_iso2022_jp2 : Nat := 26
/-- `lib/encodings.h.snippet:241`. -/
abbrev ei_iso2022_jpms : Nat := 27
/-- `lib/encodings.h.snippet:248`. -/
abbrev ei_euc_cn : Nat := 28
/-- `lib/encodings.h.snippet:260`. -/
abbrev ei_ces_gbk : Nat := 29
/-- `lib/encodings.h.snippet:264`. -/
abbrev ei_cp936 : Nat := 30
/-- `lib/encodings.h.snippet:274`. -/
abbrev ei_gb18030_2005 : Nat := 31
/-- `lib/encodings.h.snippet:278`. -/
abbrev ei_gb18030_2022 : Nat := 32
/-- `lib/encodings.h.snippet:288`. -/
abbrev ei_iso2022_cn : Nat := 33
/-- `lib/encodings.h.snippet:297`. -/
abbrev ei_iso2022_cn_ext : Nat := 34
/-- `lib/encodings.h.snippet:302`. -/
abbrev ei_hz : Nat := 35
/-- `lib/encodings.h.snippet:310`. -/
abbrev ei_euc_tw : Nat := 36
/-- `lib/encodings.h.snippet:319`. -/
abbrev ei_ces_big5 : Nat := 37
/-- `lib/encodings.h.snippet:326`. -/
abbrev ei_cp950 : Nat := 38
/-- `lib/encodings.h.snippet:333`. -/
abbrev ei_big5hkscs1999 : Nat := 39
/-- `lib/encodings.h.snippet:338`. -/
abbrev ei_big5hkscs2001 : Nat := 40
/-- `lib/encodings.h.snippet:341`. -/
abbrev ei_big5hkscs2004 : Nat := 41
/-- `lib/encodings.h.snippet:344`. -/
abbrev ei_big5hkscs2008 : Nat := 42
/-- `lib/encodings.h.snippet:351`. -/
abbrev ei_euc_kr : Nat := 43
/-- `lib/encodings.h.snippet:362`. -/
abbrev ei_cp949 : Nat := 44
/-- `lib/encodings.h.snippet:370`. -/
abbrev ei_johab : Nat := 45
/-- `lib/encodings.h.snippet:378`. -/
abbrev ei_iso2022_kr : Nat := 46
/-- `lib/encodings.h.snippet:386`. -/
abbrev ei_dec_kanji : Nat := 47
/-- `lib/encodings.h.snippet:390`. -/
abbrev ei_dec_hanyu : Nat := 48
/-- `lib/encodings.h.snippet:395`. -/
abbrev ei_iso8859_1 : Nat := 49
/-- `lib/encodings.h.snippet:411`. -/
abbrev ei_iso8859_2 : Nat := 50
/-- `lib/encodings.h.snippet:423`. -/
abbrev ei_iso8859_3 : Nat := 51
/-- `lib/encodings.h.snippet:435`. -/
abbrev ei_iso8859_4 : Nat := 52
/-- `lib/encodings.h.snippet:447`. -/
abbrev ei_iso8859_5 : Nat := 53
/-- `lib/encodings.h.snippet:458`. -/
abbrev ei_iso8859_6 : Nat := 54
/-- `lib/encodings.h.snippet:471`. -/
abbrev ei_iso8859_7 : Nat := 55
/-- `lib/encodings.h.snippet:486`. -/
abbrev ei_iso8859_8 : Nat := 56
/-- `lib/encodings.h.snippet:501`. -/
abbrev ei_iso8859_9 : Nat := 57
/-- `lib/encodings.h.snippet:513`. -/
abbrev ei_iso8859_10 : Nat := 58
/-- `lib/encodings.h.snippet:522`. -/
abbrev ei_iso8859_11 : Nat := 59
/-- `lib/encodings.h.snippet:526`. -/
abbrev ei_iso8859_13 : Nat := 60
/-- `lib/encodings.h.snippet:537`. -/
abbrev ei_iso8859_14 : Nat := 61
/-- `lib/encodings.h.snippet:546`. -/
abbrev ei_iso8859_15 : Nat := 62
/-- `lib/encodings.h.snippet:558`. -/
abbrev ei_iso8859_16 : Nat := 63
/-- `lib/encodings.h.snippet:567`. -/
abbrev ei_koi8_r : Nat := 64
/-- `lib/encodings.h.snippet:575`. -/
abbrev ei_koi8_u : Nat := 65
/-- `lib/encodings.h.snippet:580`. -/
abbrev ei_koi8_ru : Nat := 66
/-- `lib/encodings.h.snippet:590`. -/
abbrev ei_cp1250 : Nat := 67
/-- `lib/encodings.h.snippet:601`. -/
abbrev ei_cp1251 : Nat := 68
/-- `lib/encodings.h.snippet:612`. -/
abbrev ei_cp1252 : Nat := 69
/-- `lib/encodings.h.snippet:623`. -/
abbrev ei_cp1253 : Nat := 70
/-- `lib/encodings.h.snippet:633`. -/
abbrev ei_cp1254 : Nat := 71
/-- `lib/encodings.h.snippet:644`. -/
abbrev ei_cp1255 : Nat := 72
/-- `lib/encodings.h.snippet:655`. -/
abbrev ei_cp1256 : Nat := 73
/-- `lib/encodings.h.snippet:666`. -/
abbrev ei_cp1257 : Nat := 74
/-- `lib/encodings.h.snippet:677`. -/
abbrev ei_cp1258 : Nat := 75
/-- `lib/encodings.h.snippet:688`. -/
abbrev ei_cp850 : Nat := 76
/-- `lib/encodings.h.snippet:696`. -/
abbrev ei_cp862 : Nat := 77
/-- `lib/encodings.h.snippet:705`. -/
abbrev ei_cp866 : Nat := 78
/-- `lib/encodings.h.snippet:713`. -/
abbrev ei_cp1131 : Nat := 79
/-- `lib/encodings.h.snippet:722`. -/
abbrev ei_mac_roman : Nat := 80
/-- `lib/encodings.h.snippet:733`. -/
abbrev ei_mac_centraleurope : Nat := 81
/-- `lib/encodings.h.snippet:741`. -/
abbrev ei_mac_iceland : Nat := 82
/-- `lib/encodings.h.snippet:749`. -/
abbrev ei_mac_croatian : Nat := 83
/-- `lib/encodings.h.snippet:757`. -/
abbrev ei_mac_romania : Nat := 84
/-- `lib/encodings.h.snippet:765`. -/
abbrev ei_mac_cyrillic : Nat := 85
/-- `lib/encodings.h.snippet:773`. -/
abbrev ei_mac_ukraine : Nat := 86
/-- `lib/encodings.h.snippet:781`. -/
abbrev ei_mac_greek : Nat := 87
/-- `lib/encodings.h.snippet:789`. -/
abbrev ei_mac_turkish : Nat := 88
/-- `lib/encodings.h.snippet:797`. -/
abbrev ei_mac_hebrew : Nat := 89
/-- `lib/encodings.h.snippet:805`. -/
abbrev ei_mac_arabic : Nat := 90
/-- `lib/encodings.h.snippet:813`. -/
abbrev ei_mac_thai : Nat := 91
/-- `lib/encodings.h.snippet:822`. -/
abbrev ei_hp_roman8 : Nat := 92
/-- `lib/encodings.h.snippet:830`. -/
abbrev ei_nextstep : Nat := 93
/-- `lib/encodings.h.snippet:835`. -/
abbrev ei_armscii_8 : Nat := 94
/-- `lib/encodings.h.snippet:839`. -/
abbrev ei_georgian_academy : Nat := 95
/-- `lib/encodings.h.snippet:843`. -/
abbrev ei_georgian_ps : Nat := 96
/-- `lib/encodings.h.snippet:847`. -/
abbrev ei_koi8_t : Nat := 97
/-- `lib/encodings.h.snippet:851`. -/
abbrev ei_pt154 : Nat := 98
/-- `lib/encodings.h.snippet:863`. -/
abbrev ei_rk1048 : Nat := 99
/-- `lib/encodings.h.snippet:870`. -/
abbrev ei_mulelao : Nat := 100
/-- `lib/encodings.h.snippet:874`. -/
abbrev ei_cp1133 : Nat := 101
/-- `lib/encodings.h.snippet:881`. -/
abbrev ei_tis620 : Nat := 102
/-- `lib/encodings.h.snippet:891`. -/
abbrev ei_cp874 : Nat := 103
/-- `lib/encodings.h.snippet:900`. -/
abbrev ei_viscii : Nat := 104
/-- `lib/encodings.h.snippet:906`. -/
abbrev ei_tcvn : Nat := 105
/-- `lib/encodings.h.snippet:914`. -/
abbrev ei_iso646_jp : Nat := 106
/-- `lib/encodings.h.snippet:922`. -/
abbrev ei_jisx0201 : Nat := 107
/-- `lib/encodings.h.snippet:928`. -/
abbrev ei_jisx0208 : Nat := 108
/-- `lib/encodings.h.snippet:936`. -/
abbrev ei_jisx0212 : Nat := 109
/-- `lib/encodings.h.snippet:943`. -/
abbrev ei_iso646_cn : Nat := 110
/-- `lib/encodings.h.snippet:951`. -/
abbrev ei_gb2312 : Nat := 111
/-- `lib/encodings.h.snippet:957`. -/
abbrev ei_isoir165 : Nat := 112
/-- `lib/encodings.h.snippet:961`. -/
abbrev ei_ksc5601 : Nat := 113
/-- `lib/encodings.h.snippet:971`. -/
abbrev ei_cp856 : Nat := 114
/-- `lib/encodings.h.snippet:978`. -/
abbrev ei_cp922 : Nat := 115
/-- `lib/encodings.h.snippet:985`. -/
abbrev ei_cp943 : Nat := 116
/-- `lib/encodings.h.snippet:992`. -/
abbrev ei_cp1046 : Nat := 117
/-- `lib/encodings.h.snippet:999`. -/
abbrev ei_cp1124 : Nat := 118
/-- `lib/encodings.h.snippet:1006`. -/
abbrev ei_cp1129 : Nat := 119
/-- `lib/encodings.h.snippet:1013`. -/
abbrev ei_cp1161 : Nat := 120
/-- `lib/encodings.h.snippet:1021`. -/
abbrev ei_cp1162 : Nat := 121
/-- `lib/encodings.h.snippet:1029`. -/
abbrev ei_cp1163 : Nat := 122
/-- `lib/encodings.h.snippet:1038`. -/
abbrev ei_cp437 : Nat := 123
/-- `lib/encodings.h.snippet:1046`. -/
abbrev ei_cp737 : Nat := 124
/-- `lib/encodings.h.snippet:1053`. -/
abbrev ei_cp775 : Nat := 125
/-- `lib/encodings.h.snippet:1061`. -/
abbrev ei_cp852 : Nat := 126
/-- `lib/encodings.h.snippet:1069`. -/
abbrev ei_cp853 : Nat := 127
/-- `lib/encodings.h.snippet:1078`. -/
abbrev ei_cp855 : Nat := 128
/-- `lib/encodings.h.snippet:1086`. -/
abbrev ei_cp857 : Nat := 129
/-- `lib/encodings.h.snippet:1094`. -/
abbrev ei_cp858 : Nat := 130
/-- `lib/encodings.h.snippet:1105`. -/
abbrev ei_cp860 : Nat := 131
/-- `lib/encodings.h.snippet:1113`. -/
abbrev ei_cp861 : Nat := 132
/-- `lib/encodings.h.snippet:1122`. -/
abbrev ei_cp863 : Nat := 133
/-- `lib/encodings.h.snippet:1130`. -/
abbrev ei_cp864 : Nat := 134
/-- `lib/encodings.h.snippet:1138`. -/
abbrev ei_cp865 : Nat := 135
/-- `lib/encodings.h.snippet:1146`. -/
abbrev ei_cp869 : Nat := 136
/-- `lib/encodings.h.snippet:1156`. -/
abbrev ei_cp1125 : Nat := 137
/-- `lib/encodings.h.snippet:1168`. -/
abbrev ei_ebcdic037 : Nat := 138
/-- `lib/encodings.h.snippet:1180`. -/
abbrev ei_ebcdic273 : Nat := 139
/-- `lib/encodings.h.snippet:1189`. -/
abbrev ei_ebcdic277 : Nat := 140
/-- `lib/encodings.h.snippet:1200`. -/
abbrev ei_ebcdic278 : Nat := 141
/-- `lib/encodings.h.snippet:1211`. -/
abbrev ei_ebcdic280 : Nat := 142
/-- `lib/encodings.h.snippet:1221`. -/
abbrev ei_ebcdic282 : Nat := 143
/-- `lib/encodings.h.snippet:1228`. -/
abbrev ei_ebcdic284 : Nat := 144
/-- `lib/encodings.h.snippet:1238`. -/
abbrev ei_ebcdic285 : Nat := 145
/-- `lib/encodings.h.snippet:1248`. -/
abbrev ei_ebcdic297 : Nat := 146
/-- `lib/encodings.h.snippet:1258`. -/
abbrev ei_ebcdic423 : Nat := 147
/-- `lib/encodings.h.snippet:1268`. -/
abbrev ei_ebcdic424 : Nat := 148
/-- `lib/encodings.h.snippet:1278`. -/
abbrev ei_ebcdic425 : Nat := 149
/-- `lib/encodings.h.snippet:1285`. -/
abbrev ei_ebcdic500 : Nat := 150
/-- `lib/encodings.h.snippet:1296`. -/
abbrev ei_ebcdic838 : Nat := 151
/-- `lib/encodings.h.snippet:1305`. -/
abbrev ei_ebcdic870 : Nat := 152
/-- `lib/encodings.h.snippet:1315`. -/
abbrev ei_ebcdic871 : Nat := 153
/-- `lib/encodings.h.snippet:1325`. -/
abbrev ei_ebcdic875 : Nat := 154
/-- `lib/encodings.h.snippet:1333`. -/
abbrev ei_ebcdic880 : Nat := 155
/-- `lib/encodings.h.snippet:1343`. -/
abbrev ei_ebcdic905 : Nat := 156
/-- `lib/encodings.h.snippet:1351`. -/
abbrev ei_ebcdic924 : Nat := 157
/-- `lib/encodings.h.snippet:1364`. -/
abbrev ei_ebcdic1025 : Nat := 158
/-- `lib/encodings.h.snippet:1371`. -/
abbrev ei_ebcdic1026 : Nat := 159
/-- `lib/encodings.h.snippet:1379`. -/
abbrev ei_ebcdic1047 : Nat := 160
/-- `lib/encodings.h.snippet:1387`. -/
abbrev ei_ebcdic1097 : Nat := 161
/-- `lib/encodings.h.snippet:1393`. -/
abbrev ei_ebcdic1112 : Nat := 162
/-- `lib/encodings.h.snippet:1400`. -/
abbrev ei_ebcdic1122 : Nat := 163
/-- `lib/encodings.h.snippet:1407`. -/
abbrev ei_ebcdic1123 : Nat := 164
/-- `lib/encodings.h.snippet:1414`. -/
abbrev ei_ebcdic1130 : Nat := 165
/-- `lib/encodings.h.snippet:1421`. -/
abbrev ei_ebcdic1132 : Nat := 166
/-- `lib/encodings.h.snippet:1428`. -/
abbrev ei_ebcdic1137 : Nat := 167
/-- `lib/encodings.h.snippet:1435`. -/
abbrev ei_ebcdic1140 : Nat := 168
/-- `lib/encodings.h.snippet:1447`. -/
abbrev ei_ebcdic1141 : Nat := 169
/-- `lib/encodings.h.snippet:1459`. -/
abbrev ei_ebcdic1142 : Nat := 170
/-- `lib/encodings.h.snippet:1472`. -/
abbrev ei_ebcdic1143 : Nat := 171
/-- `lib/encodings.h.snippet:1485`. -/
abbrev ei_ebcdic1144 : Nat := 172
/-- `lib/encodings.h.snippet:1497`. -/
abbrev ei_ebcdic1145 : Nat := 173
/-- `lib/encodings.h.snippet:1509`. -/
abbrev ei_ebcdic1146 : Nat := 174
/-- `lib/encodings.h.snippet:1521`. -/
abbrev ei_ebcdic1147 : Nat := 175
/-- `lib/encodings.h.snippet:1533`. -/
abbrev ei_ebcdic1148 : Nat := 176
/-- `lib/encodings.h.snippet:1545`. -/
abbrev ei_ebcdic1149 : Nat := 177
/-- `lib/encodings.h.snippet:1557`. -/
abbrev ei_ebcdic1153 : Nat := 178
/-- `lib/encodings.h.snippet:1564`. -/
abbrev ei_ebcdic1154 : Nat := 179
/-- `lib/encodings.h.snippet:1571`. -/
abbrev ei_ebcdic1155 : Nat := 180
/-- `lib/encodings.h.snippet:1578`. -/
abbrev ei_ebcdic1156 : Nat := 181
/-- `lib/encodings.h.snippet:1585`. -/
abbrev ei_ebcdic1157 : Nat := 182
/-- `lib/encodings.h.snippet:1592`. -/
abbrev ei_ebcdic1158 : Nat := 183
/-- `lib/encodings.h.snippet:1599`. -/
abbrev ei_ebcdic1160 : Nat := 184
/-- `lib/encodings.h.snippet:1606`. -/
abbrev ei_ebcdic1164 : Nat := 185
/-- `lib/encodings.h.snippet:1613`. -/
abbrev ei_ebcdic1165 : Nat := 186
/-- `lib/encodings.h.snippet:1620`. -/
abbrev ei_ebcdic1166 : Nat := 187
/-- `lib/encodings.h.snippet:1627`. -/
abbrev ei_ebcdic4971 : Nat := 188
/-- `lib/encodings.h.snippet:1634`. -/
abbrev ei_ebcdic12712 : Nat := 189
/-- `lib/encodings.h.snippet:1641`. -/
abbrev ei_ebcdic16804 : Nat := 190
/-- `lib/encodings.h.snippet:1649`. -/
abbrev ei_euc_jisx0213 : Nat := 191
/-- `lib/encodings.h.snippet:1655`. -/
abbrev ei_shift_jisx0213 : Nat := 192
/-- `lib/encodings.h.snippet:1661`. -/
abbrev ei_iso2022_jp3 : Nat := 193
/-- `lib/encodings.h.snippet:1667`. -/
abbrev ei_big5_2003 : Nat := 194
/-- `lib/encodings.h.snippet:1671`. -/
abbrev ei_tds565 : Nat := 195
/-- `lib/encodings.h.snippet:1676`. -/
abbrev ei_atarist : Nat := 196
/-- `lib/encodings.h.snippet:1682`. -/
abbrev ei_riscos1 : Nat := 197
/-- The number of encodings. -/
abbrev ei_end : Nat := 198

end Reiconv
