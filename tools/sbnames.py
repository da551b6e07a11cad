names='armscii_8 atarist cp1046 cp1124 cp1125 cp1129 cp1131 cp1133 cp1161 cp1162 cp1163 cp1250 cp1251 cp1252 cp1253 cp1254 cp1256 cp1257 cp437 cp737 cp775 cp850 cp852 cp853 cp855 cp856 cp857 cp858 cp860 cp861 cp862 cp863 cp864 cp865 cp866 cp869 cp874 cp922 ebcdic037 ebcdic1025 ebcdic1026 ebcdic1047 ebcdic1097 ebcdic1112 ebcdic1122 ebcdic1123 ebcdic1130 ebcdic1132 ebcdic1137 ebcdic1140 ebcdic1141 ebcdic1142 ebcdic1143 ebcdic1144 ebcdic1145 ebcdic1146 ebcdic1147 ebcdic1148 ebcdic1149 ebcdic1153 ebcdic1154 ebcdic1155 ebcdic1156 ebcdic1157 ebcdic1158 ebcdic1160 ebcdic1164 ebcdic1165 ebcdic1166 ebcdic12712 ebcdic16804 ebcdic273 ebcdic277 ebcdic278 ebcdic280 ebcdic282 ebcdic284 ebcdic285 ebcdic297 ebcdic423 ebcdic424 ebcdic425 ebcdic4971 ebcdic500 ebcdic838 ebcdic870 ebcdic871 ebcdic875 ebcdic880 ebcdic905 ebcdic924 georgian_academy georgian_ps hp_roman8 iso646_cn iso646_jp iso8859_10 iso8859_11 iso8859_13 iso8859_14 iso8859_15 iso8859_16 iso8859_2 iso8859_3 iso8859_4 iso8859_5 iso8859_6 iso8859_7 iso8859_8 iso8859_9 jisx0201 koi8_r koi8_ru koi8_t koi8_u mac_arabic mac_centraleurope mac_croatian mac_cyrillic mac_greek mac_hebrew mac_iceland mac_roman mac_romania mac_thai mac_turkish mac_ukraine mulelao nextstep pt154 riscos1 rk1048 tds565 tis620 viscii'.split()
