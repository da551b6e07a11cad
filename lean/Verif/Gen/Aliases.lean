/-!
# The gperf tables of `lib/generated/aliases.h`

Generated by `tools/genalias.py`.
-/

namespace Reiconv

/-- `asso_values` (`lib/generated/aliases.h:52-68`). -/
def assoValues : List Nat :=
  [
    4068, 4068, 4068, 4068, 4068, 4068, 4068, 4068, 4068, 4068, 4068, 4068, 4068, 4068, 4068, 4068,
    4068, 4068, 4068, 4068, 4068, 4068, 4068, 4068, 4068, 4068, 4068, 4068, 4068, 4068, 4068, 4068,
    4068, 4068, 4068, 4068, 4068, 4068, 4068, 4068, 4068, 4068, 4068, 4068, 4068, 1, 44, 4068, 3, 0,
    34, 260, 15, 6, 98, 544, 64, 341, 644, 844, 849, 805, 4068, 4068, 4068, 530, 441, 0, 748, 328,
    469, 5, 177, 0, 589, 510, 3, 1, 11, 386, 25, 112, 151, 0, 424, 2, 182, 536, 220, 14, 2, 8, 0, 0,
    4068, 4068, 4068, 4068, 4068, 4068, 4068, 4068, 4068, 4068, 4068, 4068, 4068, 4068, 4068, 4068,
    4068, 4068, 4068, 4068, 4068, 4068, 4068, 4068, 4068, 4068, 4068, 4068, 4068, 4068, 4068, 4068,
    4068, 4068, 4068, 4068, 4068, 4068]

/-- Part of `aliases` and `stringpool` (`lib/generated/aliases.h:107-4208`). -/
def aliasRows0 : List (Nat × String × Nat) :=
  [
    (4, "MAC", 80), (6, "US", 0), (7, "SJIS", 22), (22, "1201", 3), (25, "1251", 68),
    (26, "12001", 6), (28, "1200", 4), (31, "1250", 67), (32, "12000", 7), (37, "1255", 72),
    (38, "CN", 110), (45, "425", 149), (48, "10010", 84), (49, "500", 150), (51, "10000", 80),
    (54, "L2", 50), (55, "1254", 71), (57, "10005", 89), (63, "424", 148), (75, "10004", 90),
    (76, "10021", 91), (77, "5601", 43), (79, "U32", 11), (84, "1025", 158), (89, "CSUCS4", 5),
    (93, "1252", 69), (106, "10081", 88), (108, "1361", 45), (113, "50221", 27), (118, "L4", 52),
    (125, "50225", 46), (131, "861", 132), (137, "860", 131), (143, "865", 135), (153, "1258", 75),
    (155, "CPIS", 132), (161, "864", 134), (166, "16804", 190), (167, "L6", 58),
    (171, "CP500", 150), (172, "CP1051", 92), (174, "10082", 83), (176, "CP10010", 84),
    (178, "CP1141", 169), (181, "HZ", 35), (185, "CP10000", 80), (190, "CP1140", 168),
    (191, "CP10005", 89), (192, "CP154", 98), (195, "CYRILLIC", 53), (197, "CSVISCII", 104),
    (199, "862", 77), (200, "CP1201", 3), (201, "838", 151), (202, "MSCYRL", 68),
    (203, "CP1251", 68), (209, "CP10004", 90), (210, "CP12001", 6), (212, "CP1200", 4),
    (214, "MACCYRILLIC", 85), (215, "CP1250", 67), (216, "CP12000", 7), (217, "CP425", 149),
    (221, "1256", 73), (225, "CP01141", 169), (231, "CP01140", 168), (232, "CP850", 76),
    (235, "CP424", 148), (237, "CP01145", 173), (238, "CP855", 128), (241, "10006", 87),
    (242, "CP1154", 179), (248, "PT154", 98), (249, "1046", 117), (251, "CP1144", 172),
    (255, "CP01144", 172), (260, "CP280", 142), (261, "CP1161", 120), (262, "CP10021", 91),
    (265, "L1", 49), (266, "CP285", 145), (268, "1026", 159), (270, "CP1124", 118), (271, "L3", 51),
    (272, "L10", 63), (273, "CP1160", 184), (276, "CP1254", 71), (279, "1141", 169),
    (280, "CP65001", 1), (282, "1155", 180), (284, "CP284", 144), (285, "1140", 168),
    (286, "CP65000", 14), (289, "CP1112", 162), (290, "CP880", 155), (291, "1145", 173),
    (293, "CP01142", 170), (294, "CP852", 126), (296, "X0201", 107), (299, "CP50221", 27),
    (300, "1154", 179), (304, "CP1142", 170), (309, "1144", 172), (310, "1125", 137),
    (311, "CP50225", 46), (318, "CP861", 132), (322, "CP282", 143), (323, "CP1122", 163),
    (324, "CP860", 131), (327, "866", 78), (328, "1124", 118), (329, "CP1252", 69),
    (330, "CP865", 135), (332, "1112", 162), (334, "CP1164", 185), (347, "1142", 170),
    (348, "CP864", 134), (353, "CP01148", 176), (354, "CP858", 130), (361, "X0212", 109)]

/-- Part of `aliases` and `stringpool` (`lib/generated/aliases.h:107-4208`). -/
def aliasRows1 : List (Nat × String × Nat) :=
  [
    (362, "1161", 120), (364, "UCS4", 5), (365, "CP16804", 190), (366, "1122", 163),
    (368, "1160", 184), (374, "1165", 186), (375, "CP10006", 87), (386, "CP862", 77),
    (387, "CP1162", 121), (389, "924", 157), (392, "1164", 185), (395, "646", 0),
    (398, "1158", 183), (402, "UCS2", 2), (407, "1148", 176), (408, "871", 153), (414, "870", 152),
    (418, "932", 23), (420, "875", 154), (421, "CP01146", 174), (422, "CP856", 114),
    (423, "CP1131", 79), (424, "X0208", 108), (427, "922", 115), (430, "1162", 121),
    (431, "20866", 64), (433, "CP866U", 137), (435, "CP1130", 165), (438, "874", 103),
    (450, "LATIN1", 49), (457, "LATIN10", 63), (461, "U16", 8), (462, "CPGR", 136),
    (463, "CSPC850MULTILINGUAL", 76), (464, "CP-GR", 136), (466, "1156", 181), (475, "1146", 174),
    (484, "CSIBM01141", 169), (490, "CSIBM01140", 168), (496, "CSIBM01145", 173),
    (502, "HP15CN", 28), (505, "CSIBM1125", 137), (506, "278", 141), (509, "CP950", 38),
    (510, "CP1155", 180), (514, "CP866", 78), (519, "CP1145", 173), (521, "CP1361", 45),
    (523, "LATIN4", 52), (524, "1131", 79), (530, "1130", 165), (537, "ASCII", 0),
    (538, "CP1125", 137), (540, "CSASCII", 0), (541, "CP1025", 158), (542, "USASCII", 0),
    (544, "CP1255", 72), (545, "1253", 70), (546, "936", 30), (549, "CP1132", 166),
    (551, "MSANSI", 69), (552, "CSIBM01142", 170), (553, "423", 147), (555, "L5", 57),
    (556, "ISOIR101", 50), (557, "CSIBM1161", 120), (558, "1166", 187), (559, "ISOIR110", 52),
    (561, "CP924", 157), (562, "ISOIR100", 49), (576, "LATIN2", 50), (577, "154", 98),
    (579, "CSISO2022CN", 33), (580, "CSIBM424", 148), (582, "ISOIR14", 106), (588, "ISO2022CN", 33),
    (592, "1132", 166), (594, "UHC", 44), (598, "ISOIR144", 53), (599, "CP922", 115),
    (602, "CP1165", 186), (608, "CP838", 151), (610, "PTCP154", 98), (612, "CSIBM01148", 176),
    (617, "850", 76), (620, "CSIBM280", 142), (623, "855", 128), (624, "51950", 36),
    (625, "CSIBM1162", 121), (626, "CSIBM285", 145), (632, "12712", 189), (633, "CP00924", 157),
    (638, "KSC5601", 113), (644, "CSIBM284", 144), (646, "MS874", 103), (651, "863", 133),
    (653, "65001", 1), (657, "21866", 66), (659, "65000", 14), (663, "ISOIR165", 112),
    (667, "ANSI1251", 68), (679, "852", 126), (680, "CSKZ1048", 99), (682, "UCS4LE", 7),
    (687, "280", 142), (692, "CSIBM1026", 159), (693, "285", 145), (694, "RUSCII", 137),
    (695, "KOI8U", 65), (696, "ISOIR148", 57), (697, "CP00858", 130), (699, "VISCII", 104),
    (701, "UCS2LE", 4), (706, "U32LE", 13), (711, "284", 144), (712, "U8", 1), (713, "L8", 61),
    (717, "880", 155), (725, "CP423", 147), (739, "858", 130)]

/-- Part of `aliases` and `stringpool` (`lib/generated/aliases.h:107-4208`). -/
def aliasRows2 : List (Nat × String × Nat) :=
  [
    (741, "CYRILLICASIAN", 98), (742, "CYRIILLICASIAN", 98), (745, "CP01143", 171),
    (746, "CP853", 127), (747, "VISCII1.11", 104), (749, "282", 143), (758, "10029", 81),
    (764, "CP871", 153), (767, "JP", 106), (770, "CP870", 152), (776, "CP875", 154),
    (781, "IBM01141", 169), (782, "IBM500", 150), (783, "ISOIR126", 55), (785, "UTF8", 1),
    (787, "IBM01140", 168), (790, "1153", 178), (791, "LATIN5", 57), (793, "IBM01145", 173),
    (794, "CP874", 103), (796, "28605", 62), (799, "1143", 171), (801, "CSBIG5", 37),
    (802, "CSIBM500", 150), (805, "MS936", 30), (807, "856", 114), (810, "CP12712", 189),
    (811, "IBM01144", 172), (813, "869", 136), (818, "1123", 164), (820, "IBM1141", 169),
    (823, "52936", 35), (824, "CNBIG5", 37), (825, "CP932", 23), (826, "IBM1140", 168),
    (830, "IBM1112", 162), (832, "IBM1145", 173), (838, "CP863", 133), (843, "IBM850", 76),
    (847, "ISOIR166", 102), (849, "IBM01142", 170), (850, "IBM1144", 172), (852, "CP51950", 36),
    (854, "UTF16", 8), (859, "KOI8RU", 66), (861, "R8", 92), (862, "CP278", 141),
    (866, "IBM1125", 137), (869, "IBM1025", 158), (871, "IBM280", 142), (875, "ISOIR226", 63),
    (877, "CSIBM00924", 157), (882, "1163", 122), (883, "IBM424", 148), (884, "IBM1124", 118),
    (888, "IBM1142", 170), (889, "U7", 14), (890, "L7", 60), (891, "EUCCN", 28), (894, "950", 38),
    (898, "273", 139), (900, "775", 125), (901, "IBM880", 155), (902, "CP819", 49),
    (905, "CP1156", 181), (906, "54936", 32), (907, "CP01149", 177), (909, "IBM01148", 176),
    (911, "ISOIR230", 195), (914, "CP1146", 174), (916, "CNGB", 28), (917, "CP1046", 117),
    (920, "CSPTCP154", 98), (922, "IBM1122", 163), (923, "IBM861", 132), (927, "UNICODE11", 3),
    (928, "SYSTEM1125", 137), (932, "IBM284", 144), (935, "IBM860", 131), (936, "CP1026", 159),
    (937, "MACTHAI", 91), (939, "CP1256", 73), (940, "51932", 21), (941, "ISOIR138", 56),
    (944, "CP10029", 81), (948, "IBM1148", 176), (953, "CP936", 30), (957, "IBM852", 126),
    (960, "TCVN", 105), (961, "1149", 177), (962, "943", 116), (967, "CP1153", 178),
    (972, "BIG5", 37), (976, "CP1143", 171), (977, "IBM01146", 174), (980, "1129", 119),
    (981, "MACINTOSH", 80), (983, "CSPCP852", 126), (985, "IBM282", 143), (986, "UTF32", 11),
    (991, "MSEE", 67), (993, "KOI8R", 64), (995, "CP1123", 164), (996, "IBM864", 134),
    (997, "CP1166", 187), (1000, "CP869", 136), (1001, "CP1253", 70), (1004, "CSIBM01143", 171),
    (1009, "819", 49), (1013, "CP10081", 88), (1015, "ISOIR58", 111), (1016, "IBM1146", 174),
    (1019, "IBM1046", 117), (1020, "STRK10482002", 99), (1024, "U16LE", 10), (1027, "CSEUCKR", 43),
    (1030, "28591", 49), (1032, "CP943", 116), (1035, "CSHPROMAN8", 92), (1042, "28595", 53)]

/-- Part of `aliases` and `stringpool` (`lib/generated/aliases.h:107-4208`). -/
def aliasRows3 : List (Nat × String × Nat) :=
  [
    (1044, "1133", 101), (1049, "IBM862", 77), (1053, "IBM1026", 159), (1059, "CP1163", 122),
    (1060, "28594", 52), (1063, "CP4971", 188), (1067, "CP28591", 49), (1070, "CSIBM423", 147),
    (1072, "MSKANJI", 22), (1076, "CP1158", 183), (1077, "CSIBM1163", 122), (1079, "CP28595", 53),
    (1081, "CP10082", 83), (1085, "CP1148", 176), (1089, "RK1048", 99), (1090, "TIS620", 102),
    (1092, "ARMSCII8", 94), (1094, "TIS6200", 102), (1096, "CP21866", 66), (1097, "CP28594", 52),
    (1098, "28592", 50), (1099, "CP20866", 64), (1102, "CSGB2312", 28), (1109, "IBM1155", 180),
    (1110, "CP1258", 75), (1112, "437", 123), (1113, "1257", 74), (1114, "IBMEUCCN", 28),
    (1116, "CCSID01141", 169), (1117, "CP51932", 21), (1120, "UCS4BE", 6),
    (1122, "CCSID01140", 168), (1124, "949", 44), (1127, "IBM1154", 179), (1128, "CCSID01145", 173),
    (1129, "GEORGIANPS", 96), (1130, "10017", 86), (1131, "853", 127), (1133, "10007", 85),
    (1135, "CP28592", 50), (1137, "IBM1250", 67), (1139, "UCS2BE", 3), (1141, "1047", 160),
    (1143, "IBM1255", 72), (1144, "U32BE", 12), (1146, "CCSID01144", 172), (1151, "IBM425", 149),
    (1155, "ISO646US", 0), (1158, "28598", 56), (1160, "DOS862", 77), (1161, "IBM1254", 71),
    (1166, "CSIBM01149", 177), (1168, "ISOIR203", 62), (1172, "IBM855", 128),
    (1174, "ISOCELTIC", 61), (1175, "ISO646CN", 110), (1177, "ISO10646UCS4", 5),
    (1181, "ISO2022JP1", 25), (1182, "CSISO2022JP", 24), (1183, "ISO2022JPMS", 27),
    (1184, "CCSID01142", 170), (1185, "GB2312", 28), (1186, "LATIN6", 58), (1190, "L9", 62),
    (1192, "CSISO2022JP2", 26), (1194, "CP949", 44), (1195, "CP28598", 56),
    (1196, "ISO10646UCS2", 2), (1199, "IBM1252", 69), (1200, "IBM285", 145),
    (1205, "ISO2022JP", 24), (1206, "ISO88591", 49), (1207, "ISO885911", 59), (1209, "IBM924", 157),
    (1210, "MACROMAN", 80), (1211, "TIS620.25291", 102), (1212, "CNS11643", 36),
    (1213, "ISO885910", 58), (1218, "ISO88595", 53), (1219, "ISO885915", 62), (1221, "CP1133", 101),
    (1222, "CSIBM278", 141), (1223, "GB231280", 111), (1225, "IBM1158", 183), (1226, "28596", 54),
    (1229, "CSISO2022KR", 46), (1230, "ECMA114", 54), (1233, "ISO2022JP2004", 193),
    (1236, "ISO88594", 52), (1237, "ISO885914", 61), (1238, "ISOIR109", 51),
    (1241, "ISOIR159", 109), (1244, "CCSID01148", 176), (1248, "LATIN3", 51),
    (1249, "ISO2022JP2", 26), (1250, "ISOIR149", 113), (1251, "CP51949", 43), (1254, "CP273", 139),
    (1256, "CP775", 125), (1258, "CP10017", 86), (1259, "IBM1258", 75), (1260, "CP54936", 32),
    (1262, "IBM922", 115), (1263, "CP28596", 54), (1264, "IBM865", 135), (1266, "NEXTSTEP", 93),
    (1267, "CP10007", 85), (1268, "10079", 82), (1272, "CSIBM905", 156), (1274, "ISO88592", 50),
    (1277, "HZGB2312", 35), (1279, "CP52936", 35), (1286, "JIS0208", 108), (1287, "ISOIR6", 0),
    (1288, "MSHEBR", 72), (1291, "CSISO58GB231280", 111), (1293, "IBM1156", 181),
    (1300, "IBM1131", 79), (1301, "IBM01143", 171), (1302, "CCSID00858", 130)]

/-- Part of `aliases` and `stringpool` (`lib/generated/aliases.h:107-4208`). -/
def aliasRows4 : List (Nat × String × Nat) :=
  [
    (1304, "28603", 60), (1305, "XMACCYRILLIC", 85), (1306, "IBM1130", 165), (1309, "51949", 43),
    (1312, "CCSID01146", 174), (1313, "CP01147", 175), (1314, "CP857", 129), (1318, "CP1149", 177),
    (1319, "CSIBM855", 128), (1327, "IBM1256", 73), (1328, "ECMA118", 55),
    (1332, "ISO2022CNEXT", 34), (1334, "ISO88598", 56), (1337, "CP1129", 119),
    (1340, "IBM1143", 171), (1341, "HPROMAN8", 92), (1350, "TDS565", 195),
    (1353, "CSISO159JISX02121990", 109), (1357, "LATIN8", 61), (1358, "1157", 182),
    (1367, "1147", 175), (1368, "IBM1132", 166), (1369, "IBM871", 153), (1371, "CSIBM880", 155),
    (1374, "IBM1123", 164), (1376, "PCK", 22), (1377, "GB18030", 32), (1378, "ISO2022KR", 46),
    (1379, "UNICODEBIG", 3), (1380, "CSIBMTHAI", 151), (1381, "IBM870", 152), (1384, "38598", 56),
    (1388, "KSC56011989", 113), (1389, "CSISOLATIN1", 49), (1390, "TACTIS", 102),
    (1393, "CSISOLATIN10", 63), (1394, "CSISOLATINARABIC", 54), (1395, "CSISOLATIN5", 57),
    (1396, "CSISOLATINCYRILLIC", 53), (1398, "ATARI", 196), (1399, "CSIBM861", 132),
    (1400, "IBM1161", 120), (1401, "CSISO14JISC6220RO", 106), (1402, "ISO88596", 54),
    (1403, "ISO885916", 63), (1404, "CSISOLATIN4", 52), (1405, "CSIBM860", 131),
    (1406, "IBM1160", 184), (1407, "4971", 188), (1411, "CSIBM865", 135), (1412, "IBM1165", 186),
    (1415, "367", 0), (1421, "CP38598", 56), (1423, "CSISOLATIN2", 50), (1425, "UCS4INTERNAL", 17),
    (1429, "CSIBM864", 134), (1430, "IBM1164", 185), (1431, "JISX0201", 107),
    (1435, "CSIBM858", 130), (1437, "TIS620.25331", 102), (1439, "UTF16LE", 10),
    (1440, "TIS620.25330", 102), (1444, "UCS2INTERNAL", 15), (1446, "IBM905", 156),
    (1447, "KZ1048", 99), (1460, "MACARABIC", 90), (1462, "U16BE", 9), (1463, "IBM01149", 177),
    (1466, "277", 140), (1468, "IBM1162", 121), (1470, "XMACCE", 81), (1477, "UNICODE11UTF7", 14),
    (1482, "MSTURK", 71), (1483, "MACTURKISH", 88), (1487, "CSISOLATIN6", 58), (1488, "IBM932", 23),
    (1493, "CSUNICODE11", 3), (1496, "JISX0212", 109), (1501, "SHIFTJIS", 22),
    (1502, "IBM1149", 177), (1507, "CP037", 138), (1508, "EUCJP", 21), (1509, "CCSID00924", 157),
    (1511, "CSKSC56011987", 113), (1513, "MACGREEK", 87), (1514, "MSGREEK", 70),
    (1515, "JISX0212.19900", 109), (1519, "CP437", 123), (1526, "IBM921CP28603", 60),
    (1528, "IBM1168", 66), (1529, "C99", 19), (1534, "BIG5HKSCS", 42), (1536, "IBM1129", 119),
    (1537, "ISO646.IRV:1991", 0), (1539, "KOI8T", 97), (1542, "BIG52003", 194),
    (1543, "CSMACINTOSH", 80), (1550, "28593", 51), (1551, "CP1157", 182),
    (1557, "SHIFTJIS2004", 192), (1559, "JISX0208", 108), (1560, "CP1147", 175),
    (1562, "CNGBISOIR165", 112), (1563, "CP1047", 160), (1565, "CSIBM1047", 160),
    (1567, "IBM856", 114), (1569, "IBMCP1133", 101), (1572, "CSIBM01147", 175),
    (1575, "CSGB18030", 32), (1576, "ISOIR199", 61), (1585, "CP1257", 74), (1587, "CP28593", 51),
    (1590, "LATIN9", 62), (1591, "KSC56011987", 113), (1593, "MULELAO1", 100),
    (1595, "CSIBM866", 78), (1596, "IBM1166", 187), (1602, "CP367", 0), (1608, "IBM423", 147),
    (1612, "1137", 167)]

/-- Part of `aliases` and `stringpool` (`lib/generated/aliases.h:107-4208`). -/
def aliasRows5 : List (Nat × String × Nat) :=
  [
    (1613, "ASMO708", 54), (1614, "CSIBM273", 139), (1615, "CSPC8CODEPAGE1144", 172),
    (1617, "IBM1153", 178), (1619, "CP297", 146), (1621, "DECHANZI", 28), (1629, "IBM853", 127),
    (1631, "CSEUCTW", 36), (1632, "IBM00924", 157), (1635, "UTF32LE", 13),
    (1636, "CCSID01143", 171), (1637, "DECHANYU", 48), (1641, "737", 124), (1647, "ISOIR157", 58),
    (1649, "CSISOLATIN3", 51), (1652, "HEBREW", 56), (1653, "GEORGIANACADEMY", 95),
    (1658, "MACCROATIAN", 83), (1659, "IBM866", 78), (1661, "CSWINDOWS1251", 68),
    (1664, "CSWINDOWS1250", 67), (1667, "CSWINDOWS1255", 72), (1672, "CSISO885915CP28605", 62),
    (1675, "ISOIR127", 54), (1676, "CSWINDOWS1254", 71), (1681, "EUCKR", 43),
    (1685, "IBMTHAI", 151), (1686, "UNICODELITTLE", 4), (1690, "CP10079", 82),
    (1695, "CSWINDOWS1252", 69), (1696, "TIS620.2533", 102), (1698, "CSPC8CODEPAGE1146", 174),
    (1699, "857", 129), (1701, "ISO2022JP3", 193), (1703, "IBM12712", 189), (1710, "IBM875", 154),
    (1712, "28599", 57), (1721, "IBM863", 133), (1723, "ELOT928", 55), (1724, "ROMAN8", 92),
    (1725, "CSWINDOWS1258", 75), (1726, "ISO88593", 51), (1727, "ISO885913", 60),
    (1731, "IBMEUCJP", 21), (1737, "IBM16804", 190), (1738, "IBM858", 130),
    (1739, "CSWINDOWS874", 103), (1745, "UTF7", 14), (1746, "IBM00858", 130), (1749, "CP28599", 57),
    (1758, "CSKOI8U", 65), (1759, "CSWINDOWS1256", 73), (1776, "GBK", 29), (1779, "ISOIR179", 60),
    (1791, "CSSHIFTJIS", 22), (1792, "ISO646JP", 106), (1795, "ANSIX3.41968", 0),
    (1796, "CSISO57GB1988", 110), (1798, "CCSID01149", 177), (1799, "KOREAN", 113),
    (1805, "CP1137", 167), (1810, "JISX02121990", 109), (1811, "CP0037", 138),
    (1815, "CSIBM037", 138), (1819, "CSUNICODE", 2), (1822, "CP277", 140), (1827, "CSIBM853", 127),
    (1829, "ANSIX3.41986", 0), (1832, "LATIN7", 60), (1835, "JAVA", 20), (1838, "TCVN57121", 105),
    (1843, "JISX02081990", 108), (1845, "CSIBM871", 153), (1851, "CSIBM870", 152),
    (1852, "XMACROMANIAN", 84), (1864, "EBCDICCPIS", 153), (1866, "EBCDICCPUS", 138),
    (1869, "IBM01147", 175), (1871, "TCVN5712", 105), (1874, "JISX02011976", 107),
    (1881, "EBCDICCPNL", 138), (1882, "EBCDICCPYU", 152), (1883, "UTF16BE", 9),
    (1888, "ISO88599", 57), (1889, "CP1097", 161), (1893, "ISO885910:1992", 58),
    (1902, "MACUKRAINE", 86), (1903, "CSISOLATINGREEK", 55), (1904, "IBMEUCKR", 43),
    (1908, "IBM1147", 175), (1910, "CSKOI8RU", 66), (1911, "IBM1047", 160), (1915, "IBM943", 116),
    (1919, "CSIBM863", 133), (1920, "IBM1163", 122), (1921, "CSWINDOWS1253", 70),
    (1925, "ISO88595:1988", 53), (1926, "ISO885915:1998", 62), (1930, "CSISOLATINHEBREW", 56),
    (1932, "MACCENTRALEUROPE", 81), (1934, "ISO88594:1988", 52), (1935, "ISO885914:1998", 61),
    (1936, "ARABIC", 54), (1954, "ISO885916:2001", 63), (1956, "IBM4971", 188),
    (1965, "IBM819", 49), (1969, "297", 146), (1975, "ISOIR57", 110), (1979, "CSIBM297", 146),
    (1983, "ISO88598:1988", 56), (1989, "SHIFTJISX0213", 192), (1992, "IBM838", 151),
    (2008, "EBCDICCYRILLIC", 155), (2020, "UCS4SWAPPED", 18), (2026, "XMACICELANDIC", 82),
    (2039, "UCS2SWAPPED", 16), (2040, "JISC62261983", 108), (2041, "CSUNICODE11UTF7", 14),
    (2048, "CP737", 124), (2051, "MACICELAND", 82)]

/-- Part of `aliases` and `stringpool` (`lib/generated/aliases.h:107-4208`). -/
def aliasRows6 : List (Nat × String × Nat) :=
  [
    (2056, "CSKOI8R", 64), (2063, "IBM869", 136), (2066, "GB18030:2005", 31),
    (2069, "EUCJIS2004", 191), (2073, "JISC62201969RO", 106), (2079, "UTF32BE", 12),
    (2081, "CSIBM869", 136), (2082, "IBM1169", 98), (2085, "GB198880", 110), (2090, "BIGFIVE", 37),
    (2094, "GB18030:2022", 32), (2100, "JISX02081983", 108), (2101, "XMACTHAI", 91),
    (2110, "GREEK", 55), (2118, "28597", 55), (2127, "CHINESE", 28), (2130, "MSARAB", 73),
    (2137, "IBM273", 139), (2143, "CSPC8CODEPAGE437", 123), (2155, "CP28597", 55),
    (2171, "EBCDICCPGR", 147), (2179, "ISO88593:1988", 51), (2182, "CSIBM277", 140),
    (2183, "BIG5HKSCS:2001", 40), (2185, "IBM1157", 182), (2190, "IBM775", 125),
    (2192, "EBCDICCPES", 144), (2198, "BIG5HKSCS:2004", 41), (2204, "CCSID01147", 175),
    (2205, "CSWINDOWS1257", 74), (2213, "IBM857", 129), (2218, "EBCDICCPCH", 150),
    (2219, "IBM1257", 74), (2240, "XMACUKRAINIAN", 86), (2244, "SDECKANJI", 21),
    (2246, "IBM278", 141), (2247, "BIG5HKSCS:2008", 42), (2250, "WINDOWS1251", 68),
    (2253, "WINDOWS1250", 67), (2256, "WINDOWS1255", 72), (2261, "MACROMANIA", 84),
    (2265, "WINDOWS1254", 71), (2280, "CSPC862LATINHEBREW", 77), (2284, "WINDOWS1252", 69),
    (2294, "ISO88597", 55), (2295, "JOHAB", 45), (2314, "WINDOWS1258", 75),
    (2333, "EBCDICCPFI", 141), (2348, "WINDOWS1256", 73), (2365, "EUCTW", 36),
    (2388, "IBM1137", 167), (2395, "CSIBM857", 129), (2399, "ISO88591:1987", 49),
    (2406, "IBM037", 138), (2408, "CSPC775BALTIC", 125), (2418, "IBM437", 123),
    (2423, "XMACTURKISH", 88), (2433, "ISO88592:1987", 50), (2449, "CSISO87JISX0208", 108),
    (2459, "CCSID853", 127), (2483, "ISOIR87", 108), (2497, "ISO88596:1987", 54),
    (2501, "IBM367", 0), (2502, "KOKR.JOHAP92", 45), (2510, "WINDOWS1253", 70),
    (2514, "GREEK8", 55), (2517, "EUCJISX0213", 191), (2518, "IBM297", 146),
    (2520, "EBCDICCPSE", 141), (2524, "BIG5HKSCS:1999", 39), (2535, "MACHEBREW", 89),
    (2537, "ISO88599:1989", 57), (2541, "DECKANJI", 47), (2552, "RISCOSLATIN1", 197),
    (2562, "WINDOWS950", 38), (2588, "IBMEUCTW", 36), (2590, "EBCDICCPTR", 156),
    (2635, "EBCDICCPFR", 146), (2640, "WINBALTRIM", 74), (2647, "EBCDICCPNO", 140),
    (2652, "IBM1097", 161), (2657, "EBCDICES284+EURO", 173), (2681, "XMACCROATIAN", 83),
    (2693, "ISO88597:2003", 55), (2697, "EBCDICCPHE", 148), (2712, "EBCDICCPIT", 142),
    (2720, "DECKOREAN", 43), (2721, "IBM277", 140),
    (2726, "EXTENDEDUNIXCODEPACKEDFORMATFORJAPANESE", 21), (2732, "EBCDICCPROECE", 152),
    (2747, "TCVN57121:1993", 105), (2751, "EBCDICCPGB", 145), (2753, "EBCDICIT280+EURO", 172),
    (2775, "EBCDICGB285+EURO", 174), (2784, "ATARIST", 196), (2794, "WINDOWS1257", 74),
    (2829, "XMACARABIC", 90), (2831, "CSEUCPKDFMTJAPANESE", 21), (2839, "EBCDICIS871+EURO", 177),
    (2847, "WINDOWS874", 103), (2924, "EBCDICCPCA", 138), (2943, "ISO88597:1987", 55),
    (2947, "IBM737", 124), (2961, "EBCDICCPBE", 150), (3005, "EBCDICINTERNATIONAL500+EURO", 176),
    (3006, "WINDOWS936", 30), (3008, "XMACGREEK", 87), (3036, "EBCDICUS37+EURO", 168),
    (3137, "EBCDICSE278+EURO", 171), (3162, "EBCDICGREEK", 154), (3188, "EBCDICLATIN9EURO", 157),
    (3206, "EBCDICNO277+EURO", 170), (3226, "EBCDICFR297+EURO", 175), (3248, "EBCDICCPWT", 138),
    (3278, "EBCDICFI278+EURO", 171), (3315, "XMACHEBREW", 89), (3558, "CSHALFWIDTHKATAKANA", 107),
    (3632, "EBCDICCPDK", 140), (3885, "EBCDICDE273+EURO", 169), (4067, "EBCDICDK277+EURO", 170)]

/-- The array `aliases` (`lib/generated/aliases.h`): the elements other than `{-1}`, with their position,
their name in `stringpool` and their `encoding_index`. Simplification: the array has 4068 elements, those
not listed are `{-1}`. -/
def aliasRows : List (Nat × String × Nat) :=
  aliasRows0 ++ aliasRows1 ++ aliasRows2 ++ aliasRows3 ++ aliasRows4 ++ aliasRows5 ++ aliasRows6

end Reiconv
