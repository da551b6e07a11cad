import Verif.Entry
import Verif.Gen.SbCheck0
import Verif.Gen.SbCheck1
import Verif.Gen.SbCheck2
import Verif.Gen.SbCheck3
import Verif.Gen.SbCheck4
import Verif.Gen.SbCheck5

/-!
# Registry entries of the single-byte encodings

Generated by `tools/gensb.py`.
-/

namespace Reiconv

/-- The registered encoding `armscii_8` (`lib/encodings.h.snippet:835-837`). -/
def armscii_8_entry : Entry := sbEntry armscii_8_sb armscii_8_safe (by decide)
/-- The registered encoding `atarist` (`lib/encodings.h.snippet:1676-1679`). -/
def atarist_entry : Entry := sbEntry atarist_sb atarist_safe (by decide)
/-- The registered encoding `cp1046` (`lib/encodings.h.snippet:992-996`). -/
def cp1046_entry : Entry := sbEntry cp1046_sb cp1046_safe (by decide)
/-- The registered encoding `cp1124` (`lib/encodings.h.snippet:999-1003`). -/
def cp1124_entry : Entry := sbEntry cp1124_sb cp1124_safe (by decide)
/-- The registered encoding `cp1125` (`lib/encodings.h.snippet:1156-1164`). -/
def cp1125_entry : Entry := sbEntry cp1125_sb cp1125_safe (by decide)
/-- The registered encoding `cp1129` (`lib/encodings.h.snippet:1006-1010`). -/
def cp1129_entry : Entry := sbEntry cp1129_sb cp1129_safe (by decide)
/-- The registered encoding `cp1131` (`lib/encodings.h.snippet:713-717`). -/
def cp1131_entry : Entry := sbEntry cp1131_sb cp1131_safe (by decide)
/-- The registered encoding `cp1133` (`lib/encodings.h.snippet:874-878`). -/
def cp1133_entry : Entry := sbEntry cp1133_sb cp1133_safe (by decide)
/-- The registered encoding `cp1161` (`lib/encodings.h.snippet:1013-1018`). -/
def cp1161_entry : Entry := sbEntry cp1161_sb cp1161_safe (by decide)
/-- The registered encoding `cp1162` (`lib/encodings.h.snippet:1021-1026`). -/
def cp1162_entry : Entry := sbEntry cp1162_sb cp1162_safe (by decide)
/-- The registered encoding `cp1163` (`lib/encodings.h.snippet:1029-1034`). -/
def cp1163_entry : Entry := sbEntry cp1163_sb cp1163_safe (by decide)
/-- The registered encoding `cp1250` (`lib/encodings.h.snippet:590-597`). -/
def cp1250_entry : Entry := sbEntry cp1250_sb cp1250_safe (by decide)
/-- The registered encoding `cp1251` (`lib/encodings.h.snippet:601-608`). -/
def cp1251_entry : Entry := sbEntry cp1251_sb cp1251_safe (by decide)
/-- The registered encoding `cp1252` (`lib/encodings.h.snippet:612-619`). -/
def cp1252_entry : Entry := sbEntry cp1252_sb cp1252_safe (by decide)
/-- The registered encoding `cp1253` (`lib/encodings.h.snippet:623-629`). -/
def cp1253_entry : Entry := sbEntry cp1253_sb cp1253_safe (by decide)
/-- The registered encoding `cp1254` (`lib/encodings.h.snippet:633-640`). -/
def cp1254_entry : Entry := sbEntry cp1254_sb cp1254_safe (by decide)
/-- The registered encoding `cp1256` (`lib/encodings.h.snippet:655-662`). -/
def cp1256_entry : Entry := sbEntry cp1256_sb cp1256_safe (by decide)
/-- The registered encoding `cp1257` (`lib/encodings.h.snippet:666-673`). -/
def cp1257_entry : Entry := sbEntry cp1257_sb cp1257_safe (by decide)
/-- The registered encoding `cp437` (`lib/encodings.h.snippet:1038-1043`). -/
def cp437_entry : Entry := sbEntry cp437_sb cp437_safe (by decide)
/-- The registered encoding `cp737` (`lib/encodings.h.snippet:1046-1050`). -/
def cp737_entry : Entry := sbEntry cp737_sb cp737_safe (by decide)
/-- The registered encoding `cp775` (`lib/encodings.h.snippet:1053-1058`). -/
def cp775_entry : Entry := sbEntry cp775_sb cp775_safe (by decide)
/-- The registered encoding `cp850` (`lib/encodings.h.snippet:688-693`). -/
def cp850_entry : Entry := sbEntry cp850_sb cp850_safe (by decide)
/-- The registered encoding `cp852` (`lib/encodings.h.snippet:1061-1066`). -/
def cp852_entry : Entry := sbEntry cp852_sb cp852_safe (by decide)
/-- The registered encoding `cp853` (`lib/encodings.h.snippet:1069-1075`). -/
def cp853_entry : Entry := sbEntry cp853_sb cp853_safe (by decide)
/-- The registered encoding `cp855` (`lib/encodings.h.snippet:1078-1083`). -/
def cp855_entry : Entry := sbEntry cp855_sb cp855_safe (by decide)
/-- The registered encoding `cp856` (`lib/encodings.h.snippet:971-975`). -/
def cp856_entry : Entry := sbEntry cp856_sb cp856_safe (by decide)
/-- The registered encoding `cp857` (`lib/encodings.h.snippet:1086-1091`). -/
def cp857_entry : Entry := sbEntry cp857_sb cp857_safe (by decide)
/-- The registered encoding `cp858` (`lib/encodings.h.snippet:1094-1102`). -/
def cp858_entry : Entry := sbEntry cp858_sb cp858_safe (by decide)
/-- The registered encoding `cp860` (`lib/encodings.h.snippet:1105-1110`). -/
def cp860_entry : Entry := sbEntry cp860_sb cp860_safe (by decide)
/-- The registered encoding `cp861` (`lib/encodings.h.snippet:1113-1119`). -/
def cp861_entry : Entry := sbEntry cp861_sb cp861_safe (by decide)
/-- The registered encoding `cp862` (`lib/encodings.h.snippet:696-702`). -/
def cp862_entry : Entry := sbEntry cp862_sb cp862_safe (by decide)
/-- The registered encoding `cp863` (`lib/encodings.h.snippet:1122-1127`). -/
def cp863_entry : Entry := sbEntry cp863_sb cp863_safe (by decide)
/-- The registered encoding `cp864` (`lib/encodings.h.snippet:1130-1135`). -/
def cp864_entry : Entry := sbEntry cp864_sb cp864_safe (by decide)
/-- The registered encoding `cp865` (`lib/encodings.h.snippet:1138-1143`). -/
def cp865_entry : Entry := sbEntry cp865_sb cp865_safe (by decide)
/-- The registered encoding `cp866` (`lib/encodings.h.snippet:705-710`). -/
def cp866_entry : Entry := sbEntry cp866_sb cp866_safe (by decide)
/-- The registered encoding `cp869` (`lib/encodings.h.snippet:1146-1153`). -/
def cp869_entry : Entry := sbEntry cp869_sb cp869_safe (by decide)
/-- The registered encoding `cp874` (`lib/encodings.h.snippet:891-897`). -/
def cp874_entry : Entry := sbEntry cp874_sb cp874_safe (by decide)
/-- The registered encoding `cp922` (`lib/encodings.h.snippet:978-982`). -/
def cp922_entry : Entry := sbEntry cp922_sb cp922_safe (by decide)
/-- The registered encoding `georgian_academy` (`lib/encodings.h.snippet:839-841`). -/
def georgian_academy_entry : Entry := sbEntry georgian_academy_sb georgian_academy_safe (by decide)
/-- The registered encoding `georgian_ps` (`lib/encodings.h.snippet:843-845`). -/
def georgian_ps_entry : Entry := sbEntry georgian_ps_sb georgian_ps_safe (by decide)
/-- The registered encoding `hp_roman8` (`lib/encodings.h.snippet:822-828`). -/
def hp_roman8_entry : Entry := sbEntry hp_roman8_sb hp_roman8_safe (by decide)
/-- The registered encoding `iso646_cn` (`lib/encodings.h.snippet:943-949`). -/
def iso646_cn_entry : Entry := sbEntry iso646_cn_sb iso646_cn_safe (by decide)
/-- The registered encoding `iso646_jp` (`lib/encodings.h.snippet:914-920`). -/
def iso646_jp_entry : Entry := sbEntry iso646_jp_sb iso646_jp_safe (by decide)
/-- The registered encoding `iso8859_10` (`lib/encodings.h.snippet:513-520`). -/
def iso8859_10_entry : Entry := sbEntry iso8859_10_sb iso8859_10_safe (by decide)
/-- The registered encoding `iso8859_11` (`lib/encodings.h.snippet:522-524`). -/
def iso8859_11_entry : Entry := sbEntry iso8859_11_sb iso8859_11_safe (by decide)
/-- The registered encoding `iso8859_13` (`lib/encodings.h.snippet:526-534`). -/
def iso8859_13_entry : Entry := sbEntry iso8859_13_sb iso8859_13_safe (by decide)
/-- The registered encoding `iso8859_14` (`lib/encodings.h.snippet:537-544`). -/
def iso8859_14_entry : Entry := sbEntry iso8859_14_sb iso8859_14_safe (by decide)
/-- The registered encoding `iso8859_15` (`lib/encodings.h.snippet:546-555`). -/
def iso8859_15_entry : Entry := sbEntry iso8859_15_sb iso8859_15_safe (by decide)
/-- The registered encoding `iso8859_16` (`lib/encodings.h.snippet:558-565`). -/
def iso8859_16_entry : Entry := sbEntry iso8859_16_sb iso8859_16_safe (by decide)
/-- The registered encoding `iso8859_2` (`lib/encodings.h.snippet:411-420`). -/
def iso8859_2_entry : Entry := sbEntry iso8859_2_sb iso8859_2_safe (by decide)
/-- The registered encoding `iso8859_3` (`lib/encodings.h.snippet:423-432`). -/
def iso8859_3_entry : Entry := sbEntry iso8859_3_sb iso8859_3_safe (by decide)
/-- The registered encoding `iso8859_4` (`lib/encodings.h.snippet:435-444`). -/
def iso8859_4_entry : Entry := sbEntry iso8859_4_sb iso8859_4_safe (by decide)
/-- The registered encoding `iso8859_5` (`lib/encodings.h.snippet:447-455`). -/
def iso8859_5_entry : Entry := sbEntry iso8859_5_sb iso8859_5_safe (by decide)
/-- The registered encoding `iso8859_6` (`lib/encodings.h.snippet:458-468`). -/
def iso8859_6_entry : Entry := sbEntry iso8859_6_sb iso8859_6_safe (by decide)
/-- The registered encoding `iso8859_7` (`lib/encodings.h.snippet:471-483`). -/
def iso8859_7_entry : Entry := sbEntry iso8859_7_sb iso8859_7_safe (by decide)
/-- The registered encoding `iso8859_8` (`lib/encodings.h.snippet:486-497`). -/
def iso8859_8_entry : Entry := sbEntry iso8859_8_sb iso8859_8_safe (by decide)
/-- The registered encoding `iso8859_9` (`lib/encodings.h.snippet:501-510`). -/
def iso8859_9_entry : Entry := sbEntry iso8859_9_sb iso8859_9_safe (by decide)
/-- The registered encoding `jisx0201` (`lib/encodings.h.snippet:922-926`). -/
def jisx0201_entry : Entry := sbEntry jisx0201_sb jisx0201_safe (by decide)
/-- The registered encoding `koi8_r` (`lib/encodings.h.snippet:567-572`). -/
def koi8_r_entry : Entry := sbEntry koi8_r_sb koi8_r_safe (by decide)
/-- The registered encoding `koi8_ru` (`lib/encodings.h.snippet:580-586`). -/
def koi8_ru_entry : Entry := sbEntry koi8_ru_sb koi8_ru_safe (by decide)
/-- The registered encoding `koi8_t` (`lib/encodings.h.snippet:847-849`). -/
def koi8_t_entry : Entry := sbEntry koi8_t_sb koi8_t_safe (by decide)
/-- The registered encoding `koi8_u` (`lib/encodings.h.snippet:575-578`). -/
def koi8_u_entry : Entry := sbEntry koi8_u_sb koi8_u_safe (by decide)
/-- The registered encoding `mac_arabic` (`lib/encodings.h.snippet:805-810`). -/
def mac_arabic_entry : Entry := sbEntry mac_arabic_sb mac_arabic_safe (by decide)
/-- The registered encoding `mac_centraleurope` (`lib/encodings.h.snippet:733-738`). -/
def mac_centraleurope_entry : Entry := sbEntry mac_centraleurope_sb mac_centraleurope_safe (by decide)
/-- The registered encoding `mac_croatian` (`lib/encodings.h.snippet:749-754`). -/
def mac_croatian_entry : Entry := sbEntry mac_croatian_sb mac_croatian_safe (by decide)
/-- The registered encoding `mac_cyrillic` (`lib/encodings.h.snippet:765-770`). -/
def mac_cyrillic_entry : Entry := sbEntry mac_cyrillic_sb mac_cyrillic_safe (by decide)
/-- The registered encoding `mac_greek` (`lib/encodings.h.snippet:781-786`). -/
def mac_greek_entry : Entry := sbEntry mac_greek_sb mac_greek_safe (by decide)
/-- The registered encoding `mac_hebrew` (`lib/encodings.h.snippet:797-802`). -/
def mac_hebrew_entry : Entry := sbEntry mac_hebrew_sb mac_hebrew_safe (by decide)
/-- The registered encoding `mac_iceland` (`lib/encodings.h.snippet:741-746`). -/
def mac_iceland_entry : Entry := sbEntry mac_iceland_sb mac_iceland_safe (by decide)
/-- The registered encoding `mac_roman` (`lib/encodings.h.snippet:722-729`). -/
def mac_roman_entry : Entry := sbEntry mac_roman_sb mac_roman_safe (by decide)
/-- The registered encoding `mac_romania` (`lib/encodings.h.snippet:757-762`). -/
def mac_romania_entry : Entry := sbEntry mac_romania_sb mac_romania_safe (by decide)
/-- The registered encoding `mac_thai` (`lib/encodings.h.snippet:813-818`). -/
def mac_thai_entry : Entry := sbEntry mac_thai_sb mac_thai_safe (by decide)
/-- The registered encoding `mac_turkish` (`lib/encodings.h.snippet:789-794`). -/
def mac_turkish_entry : Entry := sbEntry mac_turkish_sb mac_turkish_safe (by decide)
/-- The registered encoding `mac_ukraine` (`lib/encodings.h.snippet:773-778`). -/
def mac_ukraine_entry : Entry := sbEntry mac_ukraine_sb mac_ukraine_safe (by decide)
/-- The registered encoding `mulelao` (`lib/encodings.h.snippet:870-872`). -/
def mulelao_entry : Entry := sbEntry mulelao_sb mulelao_safe (by decide)
/-- The registered encoding `nextstep` (`lib/encodings.h.snippet:830-832`). -/
def nextstep_entry : Entry := sbEntry nextstep_sb nextstep_safe (by decide)
/-- The registered encoding `pt154` (`lib/encodings.h.snippet:851-860`). -/
def pt154_entry : Entry := sbEntry pt154_sb pt154_safe (by decide)
/-- The registered encoding `riscos1` (`lib/encodings.h.snippet:1682-1684`). -/
def riscos1_entry : Entry := sbEntry riscos1_sb riscos1_safe (by decide)
/-- The registered encoding `rk1048` (`lib/encodings.h.snippet:863-868`). -/
def rk1048_entry : Entry := sbEntry rk1048_sb rk1048_safe (by decide)
/-- The registered encoding `tds565` (`lib/encodings.h.snippet:1671-1674`). -/
def tds565_entry : Entry := sbEntry tds565_sb tds565_safe (by decide)
/-- The registered encoding `tis620` (`lib/encodings.h.snippet:881-889`). -/
def tis620_entry : Entry := sbEntry tis620_sb tis620_safe (by decide)
/-- The registered encoding `viscii` (`lib/encodings.h.snippet:900-904`). -/
def viscii_entry : Entry := sbEntry viscii_sb viscii_safe (by decide)
/-- The registered encoding `ebcdic037` (`lib/encodings.h.snippet:1168-1177`). -/
def ebcdic037_entry : Entry := sbEntry ebcdic037_sb ebcdic037_safe (by decide)
/-- The registered encoding `ebcdic1025` (`lib/encodings.h.snippet:1364-1368`). -/
def ebcdic1025_entry : Entry := sbEntry ebcdic1025_sb ebcdic1025_safe (by decide)
/-- The registered encoding `ebcdic1026` (`lib/encodings.h.snippet:1371-1376`). -/
def ebcdic1026_entry : Entry := sbEntry ebcdic1026_sb ebcdic1026_safe (by decide)
/-- The registered encoding `ebcdic1047` (`lib/encodings.h.snippet:1379-1384`). -/
def ebcdic1047_entry : Entry := sbEntry ebcdic1047_sb ebcdic1047_safe (by decide)
/-- The registered encoding `ebcdic1097` (`lib/encodings.h.snippet:1387-1390`). -/
def ebcdic1097_entry : Entry := sbEntry ebcdic1097_sb ebcdic1097_safe (by decide)
/-- The registered encoding `ebcdic1112` (`lib/encodings.h.snippet:1393-1397`). -/
def ebcdic1112_entry : Entry := sbEntry ebcdic1112_sb ebcdic1112_safe (by decide)
/-- The registered encoding `ebcdic1122` (`lib/encodings.h.snippet:1400-1404`). -/
def ebcdic1122_entry : Entry := sbEntry ebcdic1122_sb ebcdic1122_safe (by decide)
/-- The registered encoding `ebcdic1123` (`lib/encodings.h.snippet:1407-1411`). -/
def ebcdic1123_entry : Entry := sbEntry ebcdic1123_sb ebcdic1123_safe (by decide)
/-- The registered encoding `ebcdic1130` (`lib/encodings.h.snippet:1414-1418`). -/
def ebcdic1130_entry : Entry := sbEntry ebcdic1130_sb ebcdic1130_safe (by decide)
/-- The registered encoding `ebcdic1132` (`lib/encodings.h.snippet:1421-1425`). -/
def ebcdic1132_entry : Entry := sbEntry ebcdic1132_sb ebcdic1132_safe (by decide)
/-- The registered encoding `ebcdic1137` (`lib/encodings.h.snippet:1428-1432`). -/
def ebcdic1137_entry : Entry := sbEntry ebcdic1137_sb ebcdic1137_safe (by decide)
/-- The registered encoding `ebcdic1140` (`lib/encodings.h.snippet:1435-1444`). -/
def ebcdic1140_entry : Entry := sbEntry ebcdic1140_sb ebcdic1140_safe (by decide)
/-- The registered encoding `ebcdic1141` (`lib/encodings.h.snippet:1447-1456`). -/
def ebcdic1141_entry : Entry := sbEntry ebcdic1141_sb ebcdic1141_safe (by decide)
/-- The registered encoding `ebcdic1142` (`lib/encodings.h.snippet:1459-1469`). -/
def ebcdic1142_entry : Entry := sbEntry ebcdic1142_sb ebcdic1142_safe (by decide)
/-- The registered encoding `ebcdic1143` (`lib/encodings.h.snippet:1472-1482`). -/
def ebcdic1143_entry : Entry := sbEntry ebcdic1143_sb ebcdic1143_safe (by decide)
/-- The registered encoding `ebcdic1144` (`lib/encodings.h.snippet:1485-1494`). -/
def ebcdic1144_entry : Entry := sbEntry ebcdic1144_sb ebcdic1144_safe (by decide)
/-- The registered encoding `ebcdic1145` (`lib/encodings.h.snippet:1497-1506`). -/
def ebcdic1145_entry : Entry := sbEntry ebcdic1145_sb ebcdic1145_safe (by decide)
/-- The registered encoding `ebcdic1146` (`lib/encodings.h.snippet:1509-1518`). -/
def ebcdic1146_entry : Entry := sbEntry ebcdic1146_sb ebcdic1146_safe (by decide)
/-- The registered encoding `ebcdic1147` (`lib/encodings.h.snippet:1521-1530`). -/
def ebcdic1147_entry : Entry := sbEntry ebcdic1147_sb ebcdic1147_safe (by decide)
/-- The registered encoding `ebcdic1148` (`lib/encodings.h.snippet:1533-1542`). -/
def ebcdic1148_entry : Entry := sbEntry ebcdic1148_sb ebcdic1148_safe (by decide)
/-- The registered encoding `ebcdic1149` (`lib/encodings.h.snippet:1545-1554`). -/
def ebcdic1149_entry : Entry := sbEntry ebcdic1149_sb ebcdic1149_safe (by decide)
/-- The registered encoding `ebcdic1153` (`lib/encodings.h.snippet:1557-1561`). -/
def ebcdic1153_entry : Entry := sbEntry ebcdic1153_sb ebcdic1153_safe (by decide)
/-- The registered encoding `ebcdic1154` (`lib/encodings.h.snippet:1564-1568`). -/
def ebcdic1154_entry : Entry := sbEntry ebcdic1154_sb ebcdic1154_safe (by decide)
/-- The registered encoding `ebcdic1155` (`lib/encodings.h.snippet:1571-1575`). -/
def ebcdic1155_entry : Entry := sbEntry ebcdic1155_sb ebcdic1155_safe (by decide)
/-- The registered encoding `ebcdic1156` (`lib/encodings.h.snippet:1578-1582`). -/
def ebcdic1156_entry : Entry := sbEntry ebcdic1156_sb ebcdic1156_safe (by decide)
/-- The registered encoding `ebcdic1157` (`lib/encodings.h.snippet:1585-1589`). -/
def ebcdic1157_entry : Entry := sbEntry ebcdic1157_sb ebcdic1157_safe (by decide)
/-- The registered encoding `ebcdic1158` (`lib/encodings.h.snippet:1592-1596`). -/
def ebcdic1158_entry : Entry := sbEntry ebcdic1158_sb ebcdic1158_safe (by decide)
/-- The registered encoding `ebcdic1160` (`lib/encodings.h.snippet:1599-1603`). -/
def ebcdic1160_entry : Entry := sbEntry ebcdic1160_sb ebcdic1160_safe (by decide)
/-- The registered encoding `ebcdic1164` (`lib/encodings.h.snippet:1606-1610`). -/
def ebcdic1164_entry : Entry := sbEntry ebcdic1164_sb ebcdic1164_safe (by decide)
/-- The registered encoding `ebcdic1165` (`lib/encodings.h.snippet:1613-1617`). -/
def ebcdic1165_entry : Entry := sbEntry ebcdic1165_sb ebcdic1165_safe (by decide)
/-- The registered encoding `ebcdic1166` (`lib/encodings.h.snippet:1620-1624`). -/
def ebcdic1166_entry : Entry := sbEntry ebcdic1166_sb ebcdic1166_safe (by decide)
/-- The registered encoding `ebcdic12712` (`lib/encodings.h.snippet:1634-1638`). -/
def ebcdic12712_entry : Entry := sbEntry ebcdic12712_sb ebcdic12712_safe (by decide)
/-- The registered encoding `ebcdic16804` (`lib/encodings.h.snippet:1641-1645`). -/
def ebcdic16804_entry : Entry := sbEntry ebcdic16804_sb ebcdic16804_safe (by decide)
/-- The registered encoding `ebcdic273` (`lib/encodings.h.snippet:1180-1185`). -/
def ebcdic273_entry : Entry := sbEntry ebcdic273_sb ebcdic273_safe (by decide)
/-- The registered encoding `ebcdic277` (`lib/encodings.h.snippet:1189-1196`). -/
def ebcdic277_entry : Entry := sbEntry ebcdic277_sb ebcdic277_safe (by decide)
/-- The registered encoding `ebcdic278` (`lib/encodings.h.snippet:1200-1207`). -/
def ebcdic278_entry : Entry := sbEntry ebcdic278_sb ebcdic278_safe (by decide)
/-- The registered encoding `ebcdic280` (`lib/encodings.h.snippet:1211-1217`). -/
def ebcdic280_entry : Entry := sbEntry ebcdic280_sb ebcdic280_safe (by decide)
/-- The registered encoding `ebcdic282` (`lib/encodings.h.snippet:1221-1225`). -/
def ebcdic282_entry : Entry := sbEntry ebcdic282_sb ebcdic282_safe (by decide)
/-- The registered encoding `ebcdic284` (`lib/encodings.h.snippet:1228-1234`). -/
def ebcdic284_entry : Entry := sbEntry ebcdic284_sb ebcdic284_safe (by decide)
/-- The registered encoding `ebcdic285` (`lib/encodings.h.snippet:1238-1244`). -/
def ebcdic285_entry : Entry := sbEntry ebcdic285_sb ebcdic285_safe (by decide)
/-- The registered encoding `ebcdic297` (`lib/encodings.h.snippet:1248-1254`). -/
def ebcdic297_entry : Entry := sbEntry ebcdic297_sb ebcdic297_safe (by decide)
/-- The registered encoding `ebcdic423` (`lib/encodings.h.snippet:1258-1264`). -/
def ebcdic423_entry : Entry := sbEntry ebcdic423_sb ebcdic423_safe (by decide)
/-- The registered encoding `ebcdic424` (`lib/encodings.h.snippet:1268-1274`). -/
def ebcdic424_entry : Entry := sbEntry ebcdic424_sb ebcdic424_safe (by decide)
/-- The registered encoding `ebcdic425` (`lib/encodings.h.snippet:1278-1282`). -/
def ebcdic425_entry : Entry := sbEntry ebcdic425_sb ebcdic425_safe (by decide)
/-- The registered encoding `ebcdic4971` (`lib/encodings.h.snippet:1627-1631`). -/
def ebcdic4971_entry : Entry := sbEntry ebcdic4971_sb ebcdic4971_safe (by decide)
/-- The registered encoding `ebcdic500` (`lib/encodings.h.snippet:1285-1292`). -/
def ebcdic500_entry : Entry := sbEntry ebcdic500_sb ebcdic500_safe (by decide)
/-- The registered encoding `ebcdic838` (`lib/encodings.h.snippet:1296-1302`). -/
def ebcdic838_entry : Entry := sbEntry ebcdic838_sb ebcdic838_safe (by decide)
/-- The registered encoding `ebcdic870` (`lib/encodings.h.snippet:1305-1312`). -/
def ebcdic870_entry : Entry := sbEntry ebcdic870_sb ebcdic870_safe (by decide)
/-- The registered encoding `ebcdic871` (`lib/encodings.h.snippet:1315-1321`). -/
def ebcdic871_entry : Entry := sbEntry ebcdic871_sb ebcdic871_safe (by decide)
/-- The registered encoding `ebcdic875` (`lib/encodings.h.snippet:1325-1330`). -/
def ebcdic875_entry : Entry := sbEntry ebcdic875_sb ebcdic875_safe (by decide)
/-- The registered encoding `ebcdic880` (`lib/encodings.h.snippet:1333-1339`). -/
def ebcdic880_entry : Entry := sbEntry ebcdic880_sb ebcdic880_safe (by decide)
/-- The registered encoding `ebcdic905` (`lib/encodings.h.snippet:1343-1347`). -/
def ebcdic905_entry : Entry := sbEntry ebcdic905_sb ebcdic905_safe (by decide)
/-- The registered encoding `ebcdic924` (`lib/encodings.h.snippet:1351-1360`). -/
def ebcdic924_entry : Entry := sbEntry ebcdic924_sb ebcdic924_safe (by decide)

/-- All single-byte encodings that are made of tables. -/
def sbEntries : List Entry :=
  [armscii_8_entry, atarist_entry, cp1046_entry, cp1124_entry,
    cp1125_entry, cp1129_entry, cp1131_entry, cp1133_entry,
    cp1161_entry, cp1162_entry, cp1163_entry, cp1250_entry,
    cp1251_entry, cp1252_entry, cp1253_entry, cp1254_entry,
    cp1256_entry, cp1257_entry, cp437_entry, cp737_entry,
    cp775_entry, cp850_entry, cp852_entry, cp853_entry,
    cp855_entry, cp856_entry, cp857_entry, cp858_entry,
    cp860_entry, cp861_entry, cp862_entry, cp863_entry,
    cp864_entry, cp865_entry, cp866_entry, cp869_entry,
    cp874_entry, cp922_entry, georgian_academy_entry, georgian_ps_entry,
    hp_roman8_entry, iso646_cn_entry, iso646_jp_entry, iso8859_10_entry,
    iso8859_11_entry, iso8859_13_entry, iso8859_14_entry, iso8859_15_entry,
    iso8859_16_entry, iso8859_2_entry, iso8859_3_entry, iso8859_4_entry,
    iso8859_5_entry, iso8859_6_entry, iso8859_7_entry, iso8859_8_entry,
    iso8859_9_entry, jisx0201_entry, koi8_r_entry, koi8_ru_entry,
    koi8_t_entry, koi8_u_entry, mac_arabic_entry, mac_centraleurope_entry,
    mac_croatian_entry, mac_cyrillic_entry, mac_greek_entry, mac_hebrew_entry,
    mac_iceland_entry, mac_roman_entry, mac_romania_entry, mac_thai_entry,
    mac_turkish_entry, mac_ukraine_entry, mulelao_entry, nextstep_entry,
    pt154_entry, riscos1_entry, rk1048_entry, tds565_entry,
    tis620_entry, viscii_entry, ebcdic037_entry, ebcdic1025_entry,
    ebcdic1026_entry, ebcdic1047_entry, ebcdic1097_entry, ebcdic1112_entry,
    ebcdic1122_entry, ebcdic1123_entry, ebcdic1130_entry, ebcdic1132_entry,
    ebcdic1137_entry, ebcdic1140_entry, ebcdic1141_entry, ebcdic1142_entry,
    ebcdic1143_entry, ebcdic1144_entry, ebcdic1145_entry, ebcdic1146_entry,
    ebcdic1147_entry, ebcdic1148_entry, ebcdic1149_entry, ebcdic1153_entry,
    ebcdic1154_entry, ebcdic1155_entry, ebcdic1156_entry, ebcdic1157_entry,
    ebcdic1158_entry, ebcdic1160_entry, ebcdic1164_entry, ebcdic1165_entry,
    ebcdic1166_entry, ebcdic12712_entry, ebcdic16804_entry, ebcdic273_entry,
    ebcdic277_entry, ebcdic278_entry, ebcdic280_entry, ebcdic282_entry,
    ebcdic284_entry, ebcdic285_entry, ebcdic297_entry, ebcdic423_entry,
    ebcdic424_entry, ebcdic425_entry, ebcdic4971_entry, ebcdic500_entry,
    ebcdic838_entry, ebcdic870_entry, ebcdic871_entry, ebcdic875_entry,
    ebcdic880_entry, ebcdic905_entry, ebcdic924_entry]

/-- The single-byte encodings with their reference tables. -/
def sbRows : List SbRow :=
  [⟨"ARMSCII-8", armscii_8_entry, armscii_8_from, armscii_8_irr⟩,
    ⟨"ATARIST", atarist_entry, atarist_from, atarist_irr⟩,
    ⟨"CP1046", cp1046_entry, cp1046_from, cp1046_irr⟩,
    ⟨"CP1124", cp1124_entry, cp1124_from, cp1124_irr⟩,
    ⟨"CP1125", cp1125_entry, cp1125_from, cp1125_irr⟩,
    ⟨"CP1129", cp1129_entry, cp1129_from, cp1129_irr⟩,
    ⟨"CP1131", cp1131_entry, cp1131_from, cp1131_irr⟩,
    ⟨"CP1133", cp1133_entry, cp1133_from, cp1133_irr⟩,
    ⟨"CP1161", cp1161_entry, cp1161_from, cp1161_irr⟩,
    ⟨"CP1162", cp1162_entry, cp1162_from, cp1162_irr⟩,
    ⟨"CP1163", cp1163_entry, cp1163_from, cp1163_irr⟩,
    ⟨"CP1250", cp1250_entry, cp1250_from, cp1250_irr⟩,
    ⟨"CP1251", cp1251_entry, cp1251_from, cp1251_irr⟩,
    ⟨"CP1252", cp1252_entry, cp1252_from, cp1252_irr⟩,
    ⟨"CP1253", cp1253_entry, cp1253_from, cp1253_irr⟩,
    ⟨"CP1254", cp1254_entry, cp1254_from, cp1254_irr⟩,
    ⟨"CP1256", cp1256_entry, cp1256_from, cp1256_irr⟩,
    ⟨"CP1257", cp1257_entry, cp1257_from, cp1257_irr⟩,
    ⟨"CP437", cp437_entry, cp437_from, cp437_irr⟩,
    ⟨"CP737", cp737_entry, cp737_from, cp737_irr⟩,
    ⟨"CP775", cp775_entry, cp775_from, cp775_irr⟩,
    ⟨"CP850", cp850_entry, cp850_from, cp850_irr⟩,
    ⟨"CP852", cp852_entry, cp852_from, cp852_irr⟩,
    ⟨"CP853", cp853_entry, cp853_from, cp853_irr⟩,
    ⟨"CP855", cp855_entry, cp855_from, cp855_irr⟩,
    ⟨"CP856", cp856_entry, cp856_from, cp856_irr⟩,
    ⟨"CP857", cp857_entry, cp857_from, cp857_irr⟩,
    ⟨"CP858", cp858_entry, cp858_from, cp858_irr⟩,
    ⟨"CP860", cp860_entry, cp860_from, cp860_irr⟩,
    ⟨"CP861", cp861_entry, cp861_from, cp861_irr⟩,
    ⟨"CP862", cp862_entry, cp862_from, cp862_irr⟩,
    ⟨"CP863", cp863_entry, cp863_from, cp863_irr⟩,
    ⟨"CP864", cp864_entry, cp864_from, cp864_irr⟩,
    ⟨"CP865", cp865_entry, cp865_from, cp865_irr⟩,
    ⟨"CP866", cp866_entry, cp866_from, cp866_irr⟩,
    ⟨"CP869", cp869_entry, cp869_from, cp869_irr⟩,
    ⟨"CP874", cp874_entry, cp874_from, cp874_irr⟩,
    ⟨"CP922", cp922_entry, cp922_from, cp922_irr⟩,
    ⟨"Georgian-Academy", georgian_academy_entry, georgian_academy_from, georgian_academy_irr⟩,
    ⟨"Georgian-PS", georgian_ps_entry, georgian_ps_from, georgian_ps_irr⟩,
    ⟨"HP-ROMAN8", hp_roman8_entry, hp_roman8_from, hp_roman8_irr⟩,
    ⟨"ISO646-CN", iso646_cn_entry, iso646_cn_from, iso646_cn_irr⟩,
    ⟨"ISO646-JP", iso646_jp_entry, iso646_jp_from, iso646_jp_irr⟩,
    ⟨"ISO-8859-10", iso8859_10_entry, iso8859_10_from, iso8859_10_irr⟩,
    ⟨"ISO-8859-11", iso8859_11_entry, iso8859_11_from, iso8859_11_irr⟩,
    ⟨"ISO-8859-13", iso8859_13_entry, iso8859_13_from, iso8859_13_irr⟩,
    ⟨"ISO-8859-14", iso8859_14_entry, iso8859_14_from, iso8859_14_irr⟩,
    ⟨"ISO-8859-15", iso8859_15_entry, iso8859_15_from, iso8859_15_irr⟩,
    ⟨"ISO-8859-16", iso8859_16_entry, iso8859_16_from, iso8859_16_irr⟩,
    ⟨"ISO-8859-2", iso8859_2_entry, iso8859_2_from, iso8859_2_irr⟩,
    ⟨"ISO-8859-3", iso8859_3_entry, iso8859_3_from, iso8859_3_irr⟩,
    ⟨"ISO-8859-4", iso8859_4_entry, iso8859_4_from, iso8859_4_irr⟩,
    ⟨"ISO-8859-5", iso8859_5_entry, iso8859_5_from, iso8859_5_irr⟩,
    ⟨"ISO-8859-6", iso8859_6_entry, iso8859_6_from, iso8859_6_irr⟩,
    ⟨"ISO-8859-7", iso8859_7_entry, iso8859_7_from, iso8859_7_irr⟩,
    ⟨"ISO-8859-8", iso8859_8_entry, iso8859_8_from, iso8859_8_irr⟩,
    ⟨"ISO-8859-9", iso8859_9_entry, iso8859_9_from, iso8859_9_irr⟩,
    ⟨"JIS_X0201", jisx0201_entry, jisx0201_from, jisx0201_irr⟩,
    ⟨"KOI8-R", koi8_r_entry, koi8_r_from, koi8_r_irr⟩,
    ⟨"KOI8-RU", koi8_ru_entry, koi8_ru_from, koi8_ru_irr⟩,
    ⟨"KOI8-T", koi8_t_entry, koi8_t_from, koi8_t_irr⟩,
    ⟨"KOI8-U", koi8_u_entry, koi8_u_from, koi8_u_irr⟩,
    ⟨"MacArabic", mac_arabic_entry, mac_arabic_from, mac_arabic_irr⟩,
    ⟨"MacCentralEurope", mac_centraleurope_entry, mac_centraleurope_from, mac_centraleurope_irr⟩,
    ⟨"MacCroatian", mac_croatian_entry, mac_croatian_from, mac_croatian_irr⟩,
    ⟨"MacCyrillic", mac_cyrillic_entry, mac_cyrillic_from, mac_cyrillic_irr⟩,
    ⟨"MacGreek", mac_greek_entry, mac_greek_from, mac_greek_irr⟩,
    ⟨"MacHebrew", mac_hebrew_entry, mac_hebrew_from, mac_hebrew_irr⟩,
    ⟨"MacIceland", mac_iceland_entry, mac_iceland_from, mac_iceland_irr⟩,
    ⟨"MacRoman", mac_roman_entry, mac_roman_from, mac_roman_irr⟩,
    ⟨"MacRomania", mac_romania_entry, mac_romania_from, mac_romania_irr⟩,
    ⟨"MacThai", mac_thai_entry, mac_thai_from, mac_thai_irr⟩,
    ⟨"MacTurkish", mac_turkish_entry, mac_turkish_from, mac_turkish_irr⟩,
    ⟨"MacUkraine", mac_ukraine_entry, mac_ukraine_from, mac_ukraine_irr⟩,
    ⟨"MuleLao-1", mulelao_entry, mulelao_from, mulelao_irr⟩,
    ⟨"NEXTSTEP", nextstep_entry, nextstep_from, nextstep_irr⟩,
    ⟨"PT154", pt154_entry, pt154_from, pt154_irr⟩,
    ⟨"RISCOS-LATIN1", riscos1_entry, riscos1_from, riscos1_irr⟩,
    ⟨"RK1048", rk1048_entry, rk1048_from, rk1048_irr⟩,
    ⟨"TDS565", tds565_entry, tds565_from, tds565_irr⟩,
    ⟨"TIS-620", tis620_entry, tis620_from, tis620_irr⟩,
    ⟨"VISCII", viscii_entry, viscii_from, viscii_irr⟩,
    ⟨"IBM-037", ebcdic037_entry, ebcdic037_from, ebcdic037_irr⟩,
    ⟨"IBM-1025", ebcdic1025_entry, ebcdic1025_from, ebcdic1025_irr⟩,
    ⟨"IBM-1026", ebcdic1026_entry, ebcdic1026_from, ebcdic1026_irr⟩,
    ⟨"IBM-1047", ebcdic1047_entry, ebcdic1047_from, ebcdic1047_irr⟩,
    ⟨"IBM-1097", ebcdic1097_entry, ebcdic1097_from, ebcdic1097_irr⟩,
    ⟨"IBM-1112", ebcdic1112_entry, ebcdic1112_from, ebcdic1112_irr⟩,
    ⟨"IBM-1122", ebcdic1122_entry, ebcdic1122_from, ebcdic1122_irr⟩,
    ⟨"IBM-1123", ebcdic1123_entry, ebcdic1123_from, ebcdic1123_irr⟩,
    ⟨"IBM-1130", ebcdic1130_entry, ebcdic1130_from, ebcdic1130_irr⟩,
    ⟨"IBM-1132", ebcdic1132_entry, ebcdic1132_from, ebcdic1132_irr⟩,
    ⟨"IBM-1137", ebcdic1137_entry, ebcdic1137_from, ebcdic1137_irr⟩,
    ⟨"IBM-1140", ebcdic1140_entry, ebcdic1140_from, ebcdic1140_irr⟩,
    ⟨"IBM-1141", ebcdic1141_entry, ebcdic1141_from, ebcdic1141_irr⟩,
    ⟨"IBM-1142", ebcdic1142_entry, ebcdic1142_from, ebcdic1142_irr⟩,
    ⟨"IBM-1143", ebcdic1143_entry, ebcdic1143_from, ebcdic1143_irr⟩,
    ⟨"IBM-1144", ebcdic1144_entry, ebcdic1144_from, ebcdic1144_irr⟩,
    ⟨"IBM-1145", ebcdic1145_entry, ebcdic1145_from, ebcdic1145_irr⟩,
    ⟨"IBM-1146", ebcdic1146_entry, ebcdic1146_from, ebcdic1146_irr⟩,
    ⟨"IBM-1147", ebcdic1147_entry, ebcdic1147_from, ebcdic1147_irr⟩,
    ⟨"IBM-1148", ebcdic1148_entry, ebcdic1148_from, ebcdic1148_irr⟩,
    ⟨"IBM-1149", ebcdic1149_entry, ebcdic1149_from, ebcdic1149_irr⟩,
    ⟨"IBM-1153", ebcdic1153_entry, ebcdic1153_from, ebcdic1153_irr⟩,
    ⟨"IBM-1154", ebcdic1154_entry, ebcdic1154_from, ebcdic1154_irr⟩,
    ⟨"IBM-1155", ebcdic1155_entry, ebcdic1155_from, ebcdic1155_irr⟩,
    ⟨"IBM-1156", ebcdic1156_entry, ebcdic1156_from, ebcdic1156_irr⟩,
    ⟨"IBM-1157", ebcdic1157_entry, ebcdic1157_from, ebcdic1157_irr⟩,
    ⟨"IBM-1158", ebcdic1158_entry, ebcdic1158_from, ebcdic1158_irr⟩,
    ⟨"IBM-1160", ebcdic1160_entry, ebcdic1160_from, ebcdic1160_irr⟩,
    ⟨"IBM-1164", ebcdic1164_entry, ebcdic1164_from, ebcdic1164_irr⟩,
    ⟨"IBM-1165", ebcdic1165_entry, ebcdic1165_from, ebcdic1165_irr⟩,
    ⟨"IBM-1166", ebcdic1166_entry, ebcdic1166_from, ebcdic1166_irr⟩,
    ⟨"IBM-12712", ebcdic12712_entry, ebcdic12712_from, ebcdic12712_irr⟩,
    ⟨"IBM-16804", ebcdic16804_entry, ebcdic16804_from, ebcdic16804_irr⟩,
    ⟨"IBM-273", ebcdic273_entry, ebcdic273_from, ebcdic273_irr⟩,
    ⟨"IBM-277", ebcdic277_entry, ebcdic277_from, ebcdic277_irr⟩,
    ⟨"IBM-278", ebcdic278_entry, ebcdic278_from, ebcdic278_irr⟩,
    ⟨"IBM-280", ebcdic280_entry, ebcdic280_from, ebcdic280_irr⟩,
    ⟨"IBM-282", ebcdic282_entry, ebcdic282_from, ebcdic282_irr⟩,
    ⟨"IBM-284", ebcdic284_entry, ebcdic284_from, ebcdic284_irr⟩,
    ⟨"IBM-285", ebcdic285_entry, ebcdic285_from, ebcdic285_irr⟩,
    ⟨"IBM-297", ebcdic297_entry, ebcdic297_from, ebcdic297_irr⟩,
    ⟨"IBM-423", ebcdic423_entry, ebcdic423_from, ebcdic423_irr⟩,
    ⟨"IBM-424", ebcdic424_entry, ebcdic424_from, ebcdic424_irr⟩,
    ⟨"IBM-425", ebcdic425_entry, ebcdic425_from, ebcdic425_irr⟩,
    ⟨"IBM-4971", ebcdic4971_entry, ebcdic4971_from, ebcdic4971_irr⟩,
    ⟨"IBM-500", ebcdic500_entry, ebcdic500_from, ebcdic500_irr⟩,
    ⟨"IBM-838", ebcdic838_entry, ebcdic838_from, ebcdic838_irr⟩,
    ⟨"IBM-870", ebcdic870_entry, ebcdic870_from, ebcdic870_irr⟩,
    ⟨"IBM-871", ebcdic871_entry, ebcdic871_from, ebcdic871_irr⟩,
    ⟨"IBM-875", ebcdic875_entry, ebcdic875_from, ebcdic875_irr⟩,
    ⟨"IBM-880", ebcdic880_entry, ebcdic880_from, ebcdic880_irr⟩,
    ⟨"IBM-905", ebcdic905_entry, ebcdic905_from, ebcdic905_irr⟩,
    ⟨"IBM-924", ebcdic924_entry, ebcdic924_from, ebcdic924_irr⟩]

theorem sbRows_ok : ∀ r ∈ sbRows, r.Checked := by
  unfold sbRows
  simp only [List.forall_mem_cons]
  exact ⟨⟨_, _, _, rfl, armscii_8_chkDec, armscii_8_chkInv⟩,
    ⟨_, _, _, rfl, atarist_chkDec, atarist_chkInv⟩,
    ⟨_, _, _, rfl, cp1046_chkDec, cp1046_chkInv⟩,
    ⟨_, _, _, rfl, cp1124_chkDec, cp1124_chkInv⟩,
    ⟨_, _, _, rfl, cp1125_chkDec, cp1125_chkInv⟩,
    ⟨_, _, _, rfl, cp1129_chkDec, cp1129_chkInv⟩,
    ⟨_, _, _, rfl, cp1131_chkDec, cp1131_chkInv⟩,
    ⟨_, _, _, rfl, cp1133_chkDec, cp1133_chkInv⟩,
    ⟨_, _, _, rfl, cp1161_chkDec, cp1161_chkInv⟩,
    ⟨_, _, _, rfl, cp1162_chkDec, cp1162_chkInv⟩,
    ⟨_, _, _, rfl, cp1163_chkDec, cp1163_chkInv⟩,
    ⟨_, _, _, rfl, cp1250_chkDec, cp1250_chkInv⟩,
    ⟨_, _, _, rfl, cp1251_chkDec, cp1251_chkInv⟩,
    ⟨_, _, _, rfl, cp1252_chkDec, cp1252_chkInv⟩,
    ⟨_, _, _, rfl, cp1253_chkDec, cp1253_chkInv⟩,
    ⟨_, _, _, rfl, cp1254_chkDec, cp1254_chkInv⟩,
    ⟨_, _, _, rfl, cp1256_chkDec, cp1256_chkInv⟩,
    ⟨_, _, _, rfl, cp1257_chkDec, cp1257_chkInv⟩,
    ⟨_, _, _, rfl, cp437_chkDec, cp437_chkInv⟩,
    ⟨_, _, _, rfl, cp737_chkDec, cp737_chkInv⟩,
    ⟨_, _, _, rfl, cp775_chkDec, cp775_chkInv⟩,
    ⟨_, _, _, rfl, cp850_chkDec, cp850_chkInv⟩,
    ⟨_, _, _, rfl, cp852_chkDec, cp852_chkInv⟩,
    ⟨_, _, _, rfl, cp853_chkDec, cp853_chkInv⟩,
    ⟨_, _, _, rfl, cp855_chkDec, cp855_chkInv⟩,
    ⟨_, _, _, rfl, cp856_chkDec, cp856_chkInv⟩,
    ⟨_, _, _, rfl, cp857_chkDec, cp857_chkInv⟩,
    ⟨_, _, _, rfl, cp858_chkDec, cp858_chkInv⟩,
    ⟨_, _, _, rfl, cp860_chkDec, cp860_chkInv⟩,
    ⟨_, _, _, rfl, cp861_chkDec, cp861_chkInv⟩,
    ⟨_, _, _, rfl, cp862_chkDec, cp862_chkInv⟩,
    ⟨_, _, _, rfl, cp863_chkDec, cp863_chkInv⟩,
    ⟨_, _, _, rfl, cp864_chkDec, cp864_chkInv⟩,
    ⟨_, _, _, rfl, cp865_chkDec, cp865_chkInv⟩,
    ⟨_, _, _, rfl, cp866_chkDec, cp866_chkInv⟩,
    ⟨_, _, _, rfl, cp869_chkDec, cp869_chkInv⟩,
    ⟨_, _, _, rfl, cp874_chkDec, cp874_chkInv⟩,
    ⟨_, _, _, rfl, cp922_chkDec, cp922_chkInv⟩,
    ⟨_, _, _, rfl, georgian_academy_chkDec, georgian_academy_chkInv⟩,
    ⟨_, _, _, rfl, georgian_ps_chkDec, georgian_ps_chkInv⟩,
    ⟨_, _, _, rfl, hp_roman8_chkDec, hp_roman8_chkInv⟩,
    ⟨_, _, _, rfl, iso646_cn_chkDec, iso646_cn_chkInv⟩,
    ⟨_, _, _, rfl, iso646_jp_chkDec, iso646_jp_chkInv⟩,
    ⟨_, _, _, rfl, iso8859_10_chkDec, iso8859_10_chkInv⟩,
    ⟨_, _, _, rfl, iso8859_11_chkDec, iso8859_11_chkInv⟩,
    ⟨_, _, _, rfl, iso8859_13_chkDec, iso8859_13_chkInv⟩,
    ⟨_, _, _, rfl, iso8859_14_chkDec, iso8859_14_chkInv⟩,
    ⟨_, _, _, rfl, iso8859_15_chkDec, iso8859_15_chkInv⟩,
    ⟨_, _, _, rfl, iso8859_16_chkDec, iso8859_16_chkInv⟩,
    ⟨_, _, _, rfl, iso8859_2_chkDec, iso8859_2_chkInv⟩,
    ⟨_, _, _, rfl, iso8859_3_chkDec, iso8859_3_chkInv⟩,
    ⟨_, _, _, rfl, iso8859_4_chkDec, iso8859_4_chkInv⟩,
    ⟨_, _, _, rfl, iso8859_5_chkDec, iso8859_5_chkInv⟩,
    ⟨_, _, _, rfl, iso8859_6_chkDec, iso8859_6_chkInv⟩,
    ⟨_, _, _, rfl, iso8859_7_chkDec, iso8859_7_chkInv⟩,
    ⟨_, _, _, rfl, iso8859_8_chkDec, iso8859_8_chkInv⟩,
    ⟨_, _, _, rfl, iso8859_9_chkDec, iso8859_9_chkInv⟩,
    ⟨_, _, _, rfl, jisx0201_chkDec, jisx0201_chkInv⟩,
    ⟨_, _, _, rfl, koi8_r_chkDec, koi8_r_chkInv⟩,
    ⟨_, _, _, rfl, koi8_ru_chkDec, koi8_ru_chkInv⟩,
    ⟨_, _, _, rfl, koi8_t_chkDec, koi8_t_chkInv⟩,
    ⟨_, _, _, rfl, koi8_u_chkDec, koi8_u_chkInv⟩,
    ⟨_, _, _, rfl, mac_arabic_chkDec, mac_arabic_chkInv⟩,
    ⟨_, _, _, rfl, mac_centraleurope_chkDec, mac_centraleurope_chkInv⟩,
    ⟨_, _, _, rfl, mac_croatian_chkDec, mac_croatian_chkInv⟩,
    ⟨_, _, _, rfl, mac_cyrillic_chkDec, mac_cyrillic_chkInv⟩,
    ⟨_, _, _, rfl, mac_greek_chkDec, mac_greek_chkInv⟩,
    ⟨_, _, _, rfl, mac_hebrew_chkDec, mac_hebrew_chkInv⟩,
    ⟨_, _, _, rfl, mac_iceland_chkDec, mac_iceland_chkInv⟩,
    ⟨_, _, _, rfl, mac_roman_chkDec, mac_roman_chkInv⟩,
    ⟨_, _, _, rfl, mac_romania_chkDec, mac_romania_chkInv⟩,
    ⟨_, _, _, rfl, mac_thai_chkDec, mac_thai_chkInv⟩,
    ⟨_, _, _, rfl, mac_turkish_chkDec, mac_turkish_chkInv⟩,
    ⟨_, _, _, rfl, mac_ukraine_chkDec, mac_ukraine_chkInv⟩,
    ⟨_, _, _, rfl, mulelao_chkDec, mulelao_chkInv⟩,
    ⟨_, _, _, rfl, nextstep_chkDec, nextstep_chkInv⟩,
    ⟨_, _, _, rfl, pt154_chkDec, pt154_chkInv⟩,
    ⟨_, _, _, rfl, riscos1_chkDec, riscos1_chkInv⟩,
    ⟨_, _, _, rfl, rk1048_chkDec, rk1048_chkInv⟩,
    ⟨_, _, _, rfl, tds565_chkDec, tds565_chkInv⟩,
    ⟨_, _, _, rfl, tis620_chkDec, tis620_chkInv⟩,
    ⟨_, _, _, rfl, viscii_chkDec, viscii_chkInv⟩,
    ⟨_, _, _, rfl, ebcdic037_chkDec, ebcdic037_chkInv⟩,
    ⟨_, _, _, rfl, ebcdic1025_chkDec, ebcdic1025_chkInv⟩,
    ⟨_, _, _, rfl, ebcdic1026_chkDec, ebcdic1026_chkInv⟩,
    ⟨_, _, _, rfl, ebcdic1047_chkDec, ebcdic1047_chkInv⟩,
    ⟨_, _, _, rfl, ebcdic1097_chkDec, ebcdic1097_chkInv⟩,
    ⟨_, _, _, rfl, ebcdic1112_chkDec, ebcdic1112_chkInv⟩,
    ⟨_, _, _, rfl, ebcdic1122_chkDec, ebcdic1122_chkInv⟩,
    ⟨_, _, _, rfl, ebcdic1123_chkDec, ebcdic1123_chkInv⟩,
    ⟨_, _, _, rfl, ebcdic1130_chkDec, ebcdic1130_chkInv⟩,
    ⟨_, _, _, rfl, ebcdic1132_chkDec, ebcdic1132_chkInv⟩,
    ⟨_, _, _, rfl, ebcdic1137_chkDec, ebcdic1137_chkInv⟩,
    ⟨_, _, _, rfl, ebcdic1140_chkDec, ebcdic1140_chkInv⟩,
    ⟨_, _, _, rfl, ebcdic1141_chkDec, ebcdic1141_chkInv⟩,
    ⟨_, _, _, rfl, ebcdic1142_chkDec, ebcdic1142_chkInv⟩,
    ⟨_, _, _, rfl, ebcdic1143_chkDec, ebcdic1143_chkInv⟩,
    ⟨_, _, _, rfl, ebcdic1144_chkDec, ebcdic1144_chkInv⟩,
    ⟨_, _, _, rfl, ebcdic1145_chkDec, ebcdic1145_chkInv⟩,
    ⟨_, _, _, rfl, ebcdic1146_chkDec, ebcdic1146_chkInv⟩,
    ⟨_, _, _, rfl, ebcdic1147_chkDec, ebcdic1147_chkInv⟩,
    ⟨_, _, _, rfl, ebcdic1148_chkDec, ebcdic1148_chkInv⟩,
    ⟨_, _, _, rfl, ebcdic1149_chkDec, ebcdic1149_chkInv⟩,
    ⟨_, _, _, rfl, ebcdic1153_chkDec, ebcdic1153_chkInv⟩,
    ⟨_, _, _, rfl, ebcdic1154_chkDec, ebcdic1154_chkInv⟩,
    ⟨_, _, _, rfl, ebcdic1155_chkDec, ebcdic1155_chkInv⟩,
    ⟨_, _, _, rfl, ebcdic1156_chkDec, ebcdic1156_chkInv⟩,
    ⟨_, _, _, rfl, ebcdic1157_chkDec, ebcdic1157_chkInv⟩,
    ⟨_, _, _, rfl, ebcdic1158_chkDec, ebcdic1158_chkInv⟩,
    ⟨_, _, _, rfl, ebcdic1160_chkDec, ebcdic1160_chkInv⟩,
    ⟨_, _, _, rfl, ebcdic1164_chkDec, ebcdic1164_chkInv⟩,
    ⟨_, _, _, rfl, ebcdic1165_chkDec, ebcdic1165_chkInv⟩,
    ⟨_, _, _, rfl, ebcdic1166_chkDec, ebcdic1166_chkInv⟩,
    ⟨_, _, _, rfl, ebcdic12712_chkDec, ebcdic12712_chkInv⟩,
    ⟨_, _, _, rfl, ebcdic16804_chkDec, ebcdic16804_chkInv⟩,
    ⟨_, _, _, rfl, ebcdic273_chkDec, ebcdic273_chkInv⟩,
    ⟨_, _, _, rfl, ebcdic277_chkDec, ebcdic277_chkInv⟩,
    ⟨_, _, _, rfl, ebcdic278_chkDec, ebcdic278_chkInv⟩,
    ⟨_, _, _, rfl, ebcdic280_chkDec, ebcdic280_chkInv⟩,
    ⟨_, _, _, rfl, ebcdic282_chkDec, ebcdic282_chkInv⟩,
    ⟨_, _, _, rfl, ebcdic284_chkDec, ebcdic284_chkInv⟩,
    ⟨_, _, _, rfl, ebcdic285_chkDec, ebcdic285_chkInv⟩,
    ⟨_, _, _, rfl, ebcdic297_chkDec, ebcdic297_chkInv⟩,
    ⟨_, _, _, rfl, ebcdic423_chkDec, ebcdic423_chkInv⟩,
    ⟨_, _, _, rfl, ebcdic424_chkDec, ebcdic424_chkInv⟩,
    ⟨_, _, _, rfl, ebcdic425_chkDec, ebcdic425_chkInv⟩,
    ⟨_, _, _, rfl, ebcdic4971_chkDec, ebcdic4971_chkInv⟩,
    ⟨_, _, _, rfl, ebcdic500_chkDec, ebcdic500_chkInv⟩,
    ⟨_, _, _, rfl, ebcdic838_chkDec, ebcdic838_chkInv⟩,
    ⟨_, _, _, rfl, ebcdic870_chkDec, ebcdic870_chkInv⟩,
    ⟨_, _, _, rfl, ebcdic871_chkDec, ebcdic871_chkInv⟩,
    ⟨_, _, _, rfl, ebcdic875_chkDec, ebcdic875_chkInv⟩,
    ⟨_, _, _, rfl, ebcdic880_chkDec, ebcdic880_chkInv⟩,
    ⟨_, _, _, rfl, ebcdic905_chkDec, ebcdic905_chkInv⟩,
    ⟨_, _, _, rfl, ebcdic924_chkDec, ebcdic924_chkInv⟩, by simp⟩

end Reiconv
