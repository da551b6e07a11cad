import Verif.Lookup

/-!
# Where the declared names are in the hash table

Generated by `tools/genalias.py`.
-/

namespace Reiconv

/-- For every declared name its position in `aliases`, 0 if it is not there. -/
def declaredPos : List (List Nat) :=
  [
    [542, 537, 1155, 1537, 1287, 1795, 1829, 2501, 6, 540, 1415, 1602, 395],
    [785, 712, 280, 653],
    [402, 1196, 1819],
    [1139, 1379, 927, 1493, 0, 200, 22],
    [701, 1686, 212, 28],
    [364, 1177, 89],
    [1120, 26, 210],
    [682, 216, 32],
    [854, 461],
    [1883, 1462],
    [1439, 1024],
    [986, 79],
    [2079, 1144],
    [1635, 706],
    [1745, 1477, 2041, 889, 286, 659],
    [1444],
    [2039],
    [1425],
    [2020],
    [1529],
    [1835],
    [1508, 2726, 2831, 1731, 2244, 1117, 940],
    [1501, 7, 1072, 1791, 1376],
    [1488, 825, 418],
    [1205, 1182, 0, 0, 0, 0],
    [1181],
    [1249, 1192],
    [1183, 299, 113],
    [891, 1185, 916, 1102, 2127, 1114, 502, 1621],
    [1776],
    [805, 3006, 953, 546],
    [2066],
    [1377, 1575, 2094, 1260, 906],
    [588, 579, 0, 0, 0],
    [1332],
    [181, 1277, 1279, 823],
    [2365, 1631, 2588, 1212, 852, 624],
    [972, 2090, 824, 801],
    [2562, 509, 894],
    [2524],
    [2183],
    [2198],
    [1534, 2247],
    [1681, 1027, 1904, 2720, 77, 1251, 1309],
    [594, 1194, 1124, 0],
    [2295, 2502, 521, 108],
    [1378, 1229, 311, 125],
    [2541],
    [1637],
    [1206, 2399, 562, 1965, 450, 265, 1389, 902, 1009, 1067, 1030],
    [1274, 2433, 556, 576, 54, 1423, 1135, 1098],
    [1726, 2179, 1238, 1248, 271, 1649, 1587, 1550],
    [1236, 1934, 559, 523, 118, 1404, 1097, 1060],
    [1218, 1925, 598, 195, 1396, 1079, 1042],
    [1402, 2497, 1675, 1230, 1613, 1936, 1394, 1263, 1226],
    [2294, 2943, 2693, 783, 1328, 1723, 2514, 2110, 1903, 2155, 2118],
    [1334, 1983, 941, 1652, 1930, 0, 1195, 1158, 1421, 1384],
    [1888, 2537, 696, 791, 555, 1395, 1749, 1712],
    [1213, 1893, 1647, 1186, 167, 1487],
    [1207],
    [1727, 1779, 1832, 890, 0, 0, 1304],
    [1237, 1935, 1576, 1357, 713, 1174],
    [1219, 1926, 1168, 1590, 1190, 0, 0, 796],
    [1403, 1954, 875, 457, 272, 1393],
    [993, 2056, 1099, 431],
    [695, 1758],
    [859, 1910, 1528, 1096, 657],
    [215, 1664, 2253, 1137, 991, 31],
    [2250, 1661, 202, 667, 203, 25],
    [2284, 1695, 1199, 551, 329, 93],
    [2510, 1921, 1514, 1001, 545],
    [2265, 1676, 1161, 1482, 276, 55],
    [2256, 1667, 1288, 1143, 544, 37],
    [2348, 1759, 1327, 2130, 939, 221],
    [2794, 2205, 2640, 2219, 1585, 1113],
    [2314, 1725, 1259, 1110, 153],
    [843, 617, 463, 232],
    [1049, 199, 2280, 1160, 386],
    [1659, 327, 1595, 514],
    [1300, 423, 524],
    [1210, 981, 4, 1543, 185, 51],
    [1932, 1470, 944, 758],
    [2051, 2026, 1690, 1268],
    [1658, 2681, 1081, 174],
    [2261, 1852, 176, 48],
    [214, 1305, 1267, 1133],
    [1902, 2240, 1258, 1130],
    [1513, 3008, 375, 241],
    [1483, 2423, 1013, 106],
    [2535, 3315, 191, 57],
    [1460, 2829, 209, 75],
    [937, 2101, 262, 76],
    [1341, 1724, 861, 1035, 172],
    [1266],
    [1092],
    [1653],
    [1129],
    [1539],
    [248, 610, 741, 920, 2082, 742, 192, 577],
    [1089, 1020, 1447, 680],
    [1593],
    [1569, 1221, 1044],
    [1090, 1094, 1211, 1440, 1437, 847, 1390, 1696],
    [2847, 1739, 646, 794, 438],
    [699, 747, 197],
    [960, 1871, 1838, 2747],
    [2073, 1792, 582, 767, 1401],
    [1431, 1874, 296, 3558],
    [1559, 2100, 1843, 1286, 424, 2483, 2040, 2449],
    [1496, 1515, 1810, 361, 1241, 1353],
    [2085, 1175, 1975, 38, 1796],
    [1223, 1015, 1291],
    [663, 1562],
    [638, 1591, 1388, 1250, 1511, 1799],
    [1567, 422, 807],
    [1262, 599, 427],
    [1915, 1032, 962],
    [1019, 917, 249],
    [884, 270, 328],
    [1536, 1337, 980],
    [1400, 557, 261, 362],
    [1468, 625, 387, 430],
    [1920, 1077, 1059, 882],
    [2418, 1112, 2143, 1519],
    [2947, 2048, 1641],
    [2190, 2408, 1256, 900],
    [957, 679, 983, 294],
    [1629, 1131, 2459, 1827, 746],
    [1172, 623, 1319, 238],
    [2213, 1699, 2395, 1314],
    [1738, 739, 1746, 354, 1302, 697, 1435],
    [935, 137, 1405, 324],
    [923, 131, 318, 155, 1399],
    [1721, 651, 1919, 838],
    [996, 1429, 348, 161],
    [1264, 143, 1411, 330],
    [2063, 813, 462, 2081, 1000, 464],
    [866, 310, 928, 505, 694, 433, 538],
    [2406, 1866, 2924, 3248, 1881, 1815, 1507, 1811],
    [2137, 1614, 1254, 898],
    [2721, 3632, 2647, 2182, 1822, 1466],
    [2246, 2333, 2520, 1222, 862, 506],
    [871, 2712, 620, 260, 687],
    [985, 749, 322],
    [932, 2192, 644, 284, 711],
    [1200, 266, 2751, 626, 693],
    [2518, 2635, 1979, 1619, 1969],
    [1608, 2171, 1070, 725, 553],
    [883, 2697, 580, 235, 63],
    [1151, 217, 45],
    [782, 2961, 2218, 802, 171, 49],
    [1992, 1685, 1380, 608, 201],
    [1381, 770, 2732, 1882, 1851, 414],
    [1369, 1864, 1845, 764, 408],
    [1710, 3162, 776, 420],
    [901, 2008, 1371, 290, 717],
    [1446, 2590, 1272],
    [1209, 1632, 1509, 633, 3188, 877, 561, 389],
    [869, 541, 84],
    [1053, 692, 936, 268],
    [1911, 1565, 1563, 1141],
    [2652, 1889],
    [830, 289, 332],
    [922, 323, 366],
    [1374, 995, 818],
    [1306, 435, 530],
    [1368, 549, 592],
    [2388, 1805, 1612],
    [826, 787, 1122, 231, 3036, 490, 190, 285],
    [820, 781, 1116, 225, 3885, 484, 178, 279],
    [888, 849, 1184, 293, 4067, 3206, 552, 304, 347],
    [1340, 1301, 1636, 745, 3278, 3137, 1004, 976, 799],
    [850, 811, 1146, 255, 2753, 1615, 251, 309],
    [832, 793, 1128, 237, 2657, 496, 519, 291],
    [1016, 977, 1312, 421, 2775, 1698, 914, 475],
    [1908, 1869, 2204, 1313, 3226, 1572, 1560, 1367],
    [948, 909, 1244, 353, 3005, 612, 1085, 407],
    [1502, 1463, 1798, 907, 2839, 1166, 1318, 961],
    [1617, 967, 790],
    [1127, 242, 300],
    [1109, 510, 282],
    [1293, 905, 466],
    [2185, 1551, 1358],
    [1225, 1076, 398],
    [1406, 273, 368],
    [1430, 334, 392],
    [1412, 602, 374],
    [1596, 997, 558],
    [1956, 1063, 1407],
    [1703, 810, 632],
    [1737, 365, 166],
    [2517, 2069],
    [1989, 1557],
    [1701, 1233],
    [1542],
    [1350, 911],
    [2784, 1398],
    [2552]]

end Reiconv
