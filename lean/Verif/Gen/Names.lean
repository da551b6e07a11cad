/-!
# Names, code pages and public constants

`lib/encodings.h.snippet`, `lib/generated/indexes.h.shippet`, `lib/generated/indexes.hpp.shippet`,
`lib/localecharset/windows_getcp.h`, `lib/localecharset/locale_table.h`. Generated by
`tools/genalias.py`.
-/

namespace Reiconv

/-- The names declared for each encoding, in the order of the encoding numbers
(`lib/encodings.h.snippet`, first argument of `DEFENCODING`): every string literal is one name. -/
def declaredNames : List (List String) :=
  [
    ["USASCII", "ASCII", "ISO646US", "ISO646.IRV:1991", "ISOIR6", "ANSIX3.41968", "ANSIX3.41986",
     "IBM367", "US", "CSASCII", "367", "CP367", "646"],
    ["UTF8", "U8", "CP65001", "65001"],
    ["UCS2", "ISO10646UCS2", "CSUNICODE"],
    ["UCS2BE", "UNICODEBIG", "UNICODE11", "CSUNICODE11", "UNICODEFFFE", "CP1201", "1201"],
    ["UCS2LE", "UNICODELITTLE", "CP1200", "1200"],
    ["UCS4", "ISO10646UCS4", "CSUCS4"],
    ["UCS4BE", "12001", "CP12001"],
    ["UCS4LE", "CP12000", "12000"],
    ["UTF16", "U16"],
    ["UTF16BE", "U16BE"],
    ["UTF16LE", "U16LE"],
    ["UTF32", "U32"],
    ["UTF32BE", "U32BE"],
    ["UTF32LE", "U32LE"],
    ["UTF7", "UNICODE11UTF7", "CSUNICODE11UTF7", "U7", "CP65000", "65000"],
    ["UCS2INTERNAL"],
    ["UCS2SWAPPED"],
    ["UCS4INTERNAL"],
    ["UCS4SWAPPED"],
    ["C99"],
    ["JAVA"],
    ["EUCJP", "EXTENDEDUNIXCODEPACKEDFORMATFORJAPANESE", "CSEUCPKDFMTJAPANESE", "IBMEUCJP",
     "SDECKANJI", "CP51932", "51932"],
    ["SHIFTJIS", "SJIS", "MSKANJI", "CSSHIFTJIS", "PCK"],
    ["IBM932", "CP932", "932"],
    ["ISO2022JP", "CSISO2022JP", "CP50220", "50220", "CP50222", "50222"],
    ["ISO2022JP1"],
    ["ISO2022JP2", "CSISO2022JP2"],
    ["ISO2022JPMS", "CP50221", "50221"],
    ["EUCCN", "GB2312", "CNGB", "CSGB2312", "CHINESE", "IBMEUCCN", "HP15CN", "DECHANZI"],
    ["GBK"],
    ["MS936", "WINDOWS936", "CP936", "936"],
    ["GB18030:2005"],
    ["GB18030", "CSGB18030", "GB18030:2022", "CP54936", "54936"],
    ["ISO2022CN", "CSISO2022CN", "CP50227", "50227", "XCP50227"],
    ["ISO2022CNEXT"],
    ["HZ", "HZGB2312", "CP52936", "52936"],
    ["EUCTW", "CSEUCTW", "IBMEUCTW", "CNS11643", "CP51950", "51950"],
    ["BIG5", "BIGFIVE", "CNBIG5", "CSBIG5"],
    ["WINDOWS950", "CP950", "950"],
    ["BIG5HKSCS:1999"],
    ["BIG5HKSCS:2001"],
    ["BIG5HKSCS:2004"],
    ["BIG5HKSCS", "BIG5HKSCS:2008"],
    ["EUCKR", "CSEUCKR", "IBMEUCKR", "DECKOREAN", "5601", "CP51949", "51949"],
    ["UHC", "CP949", "949", "KSC56011987"],
    ["JOHAB", "KOKR.JOHAP92", "CP1361", "1361"],
    ["ISO2022KR", "CSISO2022KR", "CP50225", "50225"],
    ["DECKANJI"],
    ["DECHANYU"],
    ["ISO88591", "ISO88591:1987", "ISOIR100", "IBM819", "LATIN1", "L1", "CSISOLATIN1", "CP819",
     "819", "CP28591", "28591"],
    ["ISO88592", "ISO88592:1987", "ISOIR101", "LATIN2", "L2", "CSISOLATIN2", "CP28592", "28592"],
    ["ISO88593", "ISO88593:1988", "ISOIR109", "LATIN3", "L3", "CSISOLATIN3", "CP28593", "28593"],
    ["ISO88594", "ISO88594:1988", "ISOIR110", "LATIN4", "L4", "CSISOLATIN4", "CP28594", "28594"],
    ["ISO88595", "ISO88595:1988", "ISOIR144", "CYRILLIC", "CSISOLATINCYRILLIC", "CP28595", "28595"],
    ["ISO88596", "ISO88596:1987", "ISOIR127", "ECMA114", "ASMO708", "ARABIC", "CSISOLATINARABIC",
     "CP28596", "28596"],
    ["ISO88597", "ISO88597:1987", "ISO88597:2003", "ISOIR126", "ECMA118", "ELOT928", "GREEK8",
     "GREEK", "CSISOLATINGREEK", "CP28597", "28597"],
    ["ISO88598", "ISO88598:1988", "ISOIR138", "HEBREW", "CSISOLATINHEBREW", "ISO88598I", "CP28598",
     "28598", "CP38598", "38598"],
    ["ISO88599", "ISO88599:1989", "ISOIR148", "LATIN5", "L5", "CSISOLATIN5", "CP28599", "28599"],
    ["ISO885910", "ISO885910:1992", "ISOIR157", "LATIN6", "L6", "CSISOLATIN6"],
    ["ISO885911"],
    ["ISO885913", "ISOIR179", "LATIN7", "L7", "IBM921", "CP28603", "28603"],
    ["ISO885914", "ISO885914:1998", "ISOIR199", "LATIN8", "L8", "ISOCELTIC"],
    ["ISO885915", "ISO885915:1998", "ISOIR203", "LATIN9", "L9", "CSISO885915", "CP28605", "28605"],
    ["ISO885916", "ISO885916:2001", "ISOIR226", "LATIN10", "L10", "CSISOLATIN10"],
    ["KOI8R", "CSKOI8R", "CP20866", "20866"],
    ["KOI8U", "CSKOI8U"],
    ["KOI8RU", "CSKOI8RU", "IBM1168", "CP21866", "21866"],
    ["CP1250", "CSWINDOWS1250", "WINDOWS1250", "IBM1250", "MSEE", "1250"],
    ["WINDOWS1251", "CSWINDOWS1251", "MSCYRL", "ANSI1251", "CP1251", "1251"],
    ["WINDOWS1252", "CSWINDOWS1252", "IBM1252", "MSANSI", "CP1252", "1252"],
    ["WINDOWS1253", "CSWINDOWS1253", "MSGREEK", "CP1253", "1253"],
    ["WINDOWS1254", "CSWINDOWS1254", "IBM1254", "MSTURK", "CP1254", "1254"],
    ["WINDOWS1255", "CSWINDOWS1255", "MSHEBR", "IBM1255", "CP1255", "1255"],
    ["WINDOWS1256", "CSWINDOWS1256", "IBM1256", "MSARAB", "CP1256", "1256"],
    ["WINDOWS1257", "CSWINDOWS1257", "WINBALTRIM", "IBM1257", "CP1257", "1257"],
    ["WINDOWS1258", "CSWINDOWS1258", "IBM1258", "CP1258", "1258"],
    ["IBM850", "850", "CSPC850MULTILINGUAL", "CP850"],
    ["IBM862", "862", "CSPC862LATINHEBREW", "DOS862", "CP862"],
    ["IBM866", "866", "CSIBM866", "CP866"],
    ["IBM1131", "CP1131", "1131"],
    ["MACROMAN", "MACINTOSH", "MAC", "CSMACINTOSH", "CP10000", "10000"],
    ["MACCENTRALEUROPE", "XMACCE", "CP10029", "10029"],
    ["MACICELAND", "XMACICELANDIC", "CP10079", "10079"],
    ["MACCROATIAN", "XMACCROATIAN", "CP10082", "10082"],
    ["MACROMANIA", "XMACROMANIAN", "CP10010", "10010"],
    ["MACCYRILLIC", "XMACCYRILLIC", "CP10007", "10007"],
    ["MACUKRAINE", "XMACUKRAINIAN", "CP10017", "10017"],
    ["MACGREEK", "XMACGREEK", "CP10006", "10006"],
    ["MACTURKISH", "XMACTURKISH", "CP10081", "10081"],
    ["MACHEBREW", "XMACHEBREW", "CP10005", "10005"],
    ["MACARABIC", "XMACARABIC", "CP10004", "10004"],
    ["MACTHAI", "XMACTHAI", "CP10021", "10021"],
    ["HPROMAN8", "ROMAN8", "R8", "CSHPROMAN8", "CP1051"],
    ["NEXTSTEP"],
    ["ARMSCII8"],
    ["GEORGIANACADEMY"],
    ["GEORGIANPS"],
    ["KOI8T"],
    ["PT154", "PTCP154", "CYRILLICASIAN", "CSPTCP154", "IBM1169", "CYRIILLICASIAN", "CP154", "154"],
    ["RK1048", "STRK10482002", "KZ1048", "CSKZ1048"],
    ["MULELAO1"],
    ["IBMCP1133", "CP1133", "1133"],
    ["TIS620", "TIS6200", "TIS620.25291", "TIS620.25330", "TIS620.25331", "ISOIR166", "TACTIS",
     "TIS620.2533"],
    ["WINDOWS874", "CSWINDOWS874", "MS874", "CP874", "874"],
    ["VISCII", "VISCII1.11", "CSVISCII"],
    ["TCVN", "TCVN5712", "TCVN57121", "TCVN57121:1993"],
    ["JISC62201969RO", "ISO646JP", "ISOIR14", "JP", "CSISO14JISC6220RO"],
    ["JISX0201", "JISX02011976", "X0201", "CSHALFWIDTHKATAKANA"],
    ["JISX0208", "JISX02081983", "JISX02081990", "JIS0208", "X0208", "ISOIR87", "JISC62261983",
     "CSISO87JISX0208"],
    ["JISX0212", "JISX0212.19900", "JISX02121990", "X0212", "ISOIR159", "CSISO159JISX02121990"],
    ["GB198880", "ISO646CN", "ISOIR57", "CN", "CSISO57GB1988"],
    ["GB231280", "ISOIR58", "CSISO58GB231280"],
    ["ISOIR165", "CNGBISOIR165"],
    ["KSC5601", "KSC56011987", "KSC56011989", "ISOIR149", "CSKSC56011987", "KOREAN"],
    ["IBM856", "CP856", "856"],
    ["IBM922", "CP922", "922"],
    ["IBM943", "CP943", "943"],
    ["IBM1046", "CP1046", "1046"],
    ["IBM1124", "CP1124", "1124"],
    ["IBM1129", "CP1129", "1129"],
    ["IBM1161", "CSIBM1161", "CP1161", "1161"],
    ["IBM1162", "CSIBM1162", "CP1162", "1162"],
    ["IBM1163", "CSIBM1163", "CP1163", "1163"],
    ["IBM437", "437", "CSPC8CODEPAGE437", "CP437"],
    ["IBM737", "CP737", "737"],
    ["IBM775", "CSPC775BALTIC", "CP775", "775"],
    ["IBM852", "852", "CSPCP852", "CP852"],
    ["IBM853", "853", "CCSID853", "CSIBM853", "CP853"],
    ["IBM855", "855", "CSIBM855", "CP855"],
    ["IBM857", "857", "CSIBM857", "CP857"],
    ["IBM858", "858", "IBM00858", "CP858", "CCSID00858", "CP00858", "CSIBM858"],
    ["IBM860", "860", "CSIBM860", "CP860"],
    ["IBM861", "861", "CP861", "CPIS", "CSIBM861"],
    ["IBM863", "863", "CSIBM863", "CP863"],
    ["IBM864", "CSIBM864", "CP864", "864"],
    ["IBM865", "865", "CSIBM865", "CP865"],
    ["IBM869", "869", "CPGR", "CSIBM869", "CP869", "CP-GR"],
    ["IBM1125", "1125", "SYSTEM1125", "CSIBM1125", "RUSCII", "CP866U", "CP1125"],
    ["IBM037", "EBCDICCPUS", "EBCDICCPCA", "EBCDICCPWT", "EBCDICCPNL", "CSIBM037", "CP037", "CP0037"],
    ["IBM273", "CSIBM273", "CP273", "273"],
    ["IBM277", "EBCDICCPDK", "EBCDICCPNO", "CSIBM277", "CP277", "277"],
    ["IBM278", "EBCDICCPFI", "EBCDICCPSE", "CSIBM278", "CP278", "278"],
    ["IBM280", "EBCDICCPIT", "CSIBM280", "CP280", "280"],
    ["IBM282", "282", "CP282"],
    ["IBM284", "EBCDICCPES", "CSIBM284", "CP284", "284"],
    ["IBM285", "CP285", "EBCDICCPGB", "CSIBM285", "285"],
    ["IBM297", "EBCDICCPFR", "CSIBM297", "CP297", "297"],
    ["IBM423", "EBCDICCPGR", "CSIBM423", "CP423", "423"],
    ["IBM424", "EBCDICCPHE", "CSIBM424", "CP424", "424"],
    ["IBM425", "CP425", "425"],
    ["IBM500", "EBCDICCPBE", "EBCDICCPCH", "CSIBM500", "CP500", "500"],
    ["IBM838", "IBMTHAI", "CSIBMTHAI", "CP838", "838"],
    ["IBM870", "CP870", "EBCDICCPROECE", "EBCDICCPYU", "CSIBM870", "870"],
    ["IBM871", "EBCDICCPIS", "CSIBM871", "CP871", "871"],
    ["IBM875", "EBCDICGREEK", "CP875", "875"],
    ["IBM880", "EBCDICCYRILLIC", "CSIBM880", "CP880", "880"],
    ["IBM905", "EBCDICCPTR", "CSIBM905"],
    ["IBM924", "IBM00924", "CCSID00924", "CP00924", "EBCDICLATIN9EURO", "CSIBM00924", "CP924", "924"],
    ["IBM1025", "CP1025", "1025"],
    ["IBM1026", "CSIBM1026", "CP1026", "1026"],
    ["IBM1047", "CSIBM1047", "CP1047", "1047"],
    ["IBM1097", "CP1097"],
    ["IBM1112", "CP1112", "1112"],
    ["IBM1122", "CP1122", "1122"],
    ["IBM1123", "CP1123", "1123"],
    ["IBM1130", "CP1130", "1130"],
    ["IBM1132", "CP1132", "1132"],
    ["IBM1137", "CP1137", "1137"],
    ["IBM1140", "IBM01140", "CCSID01140", "CP01140", "EBCDICUS37+EURO", "CSIBM01140", "CP1140",
     "1140"],
    ["IBM1141", "IBM01141", "CCSID01141", "CP01141", "EBCDICDE273+EURO", "CSIBM01141", "CP1141",
     "1141"],
    ["IBM1142", "IBM01142", "CCSID01142", "CP01142", "EBCDICDK277+EURO", "EBCDICNO277+EURO",
     "CSIBM01142", "CP1142", "1142"],
    ["IBM1143", "IBM01143", "CCSID01143", "CP01143", "EBCDICFI278+EURO", "EBCDICSE278+EURO",
     "CSIBM01143", "CP1143", "1143"],
    ["IBM1144", "IBM01144", "CCSID01144", "CP01144", "EBCDICIT280+EURO", "CSPC8CODEPAGE1144",
     "CP1144", "1144"],
    ["IBM1145", "IBM01145", "CCSID01145", "CP01145", "EBCDICES284+EURO", "CSIBM01145", "CP1145",
     "1145"],
    ["IBM1146", "IBM01146", "CCSID01146", "CP01146", "EBCDICGB285+EURO", "CSPC8CODEPAGE1146",
     "CP1146", "1146"],
    ["IBM1147", "IBM01147", "CCSID01147", "CP01147", "EBCDICFR297+EURO", "CSIBM01147", "CP1147",
     "1147"],
    ["IBM1148", "IBM01148", "CCSID01148", "CP01148", "EBCDICINTERNATIONAL500+EURO", "CSIBM01148",
     "CP1148", "1148"],
    ["IBM1149", "IBM01149", "CCSID01149", "CP01149", "EBCDICIS871+EURO", "CSIBM01149", "CP1149",
     "1149"],
    ["IBM1153", "CP1153", "1153"],
    ["IBM1154", "CP1154", "1154"],
    ["IBM1155", "CP1155", "1155"],
    ["IBM1156", "CP1156", "1156"],
    ["IBM1157", "CP1157", "1157"],
    ["IBM1158", "CP1158", "1158"],
    ["IBM1160", "CP1160", "1160"],
    ["IBM1164", "CP1164", "1164"],
    ["IBM1165", "CP1165", "1165"],
    ["IBM1166", "CP1166", "1166"],
    ["IBM4971", "CP4971", "4971"],
    ["IBM12712", "CP12712", "12712"],
    ["IBM16804", "CP16804", "16804"],
    ["EUCJISX0213", "EUCJIS2004"],
    ["SHIFTJISX0213", "SHIFTJIS2004"],
    ["ISO2022JP3", "ISO2022JP2004"],
    ["BIG52003"],
    ["TDS565", "ISOIR230"],
    ["ATARIST", "ATARI"],
    ["RISCOSLATIN1"]]

/-- The index names of the encodings, in the order of the encoding numbers (`lib/encodings.h.snippet`,
third argument of `DEFENCODING`). -/
def indexNames : List String :=
  [
    "ASCII", "UTF8", "UCS2", "UCS2BE", "UCS2LE", "UCS4", "UCS4BE", "UCS4LE", "UTF16", "UTF16BE",
    "UTF16LE", "UTF32", "UTF32BE", "UTF32LE", "UTF7", "UCS2_INTERNAL", "UCS2_SWAPPED",
    "UCS4_INTERNAL", "UCS4_SWAPPED", "C99", "JAVA", "EUC_JP", "SHIFT_JIS", "IBM932", "ISO2022_JP",
    "ISO2022_JP1", "ISO2022_JP2", "ISO2022_JPMS", "GB2312", "GBK", "CP936", "GB18030_2005",
    "GB18030_2022", "ISO2022_CN", "ISO2022_CN_EXT", "HZ", "EUC_TW", "BIG5", "WINDOWS950",
    "BIG5HKSCS_1999", "BIG5HKSCS_2001", "BIG5HKSCS_2004", "BIG5HKSCS_2008", "EUC_KR", "UHC",
    "JOHAB", "ISO2022_KR", "DEC_KANJI", "DEC_HANYU", "ISO8859_1", "ISO8859_2", "ISO8859_3",
    "ISO8859_4", "ISO8859_5", "ISO8859_6", "ISO8859_7", "ISO8859_8", "ISO8859_9", "ISO8859_10",
    "ISO8859_11", "ISO8859_13", "ISO8859_14", "ISO8859_15", "ISO8859_16", "KOI8_R", "KOI8_U",
    "KOI8_RU", "MSEE", "MSCYRL", "MSANSI", "MSGREEK", "MSTURK", "MSHEBR", "MSARAB", "WINBALTRIM",
    "WINDOWS1258", "IBM850", "IBM862", "IBM866", "IBM1131", "MACINTOSH", "MAC_CENTRALEUROPE",
    "MAC_ICELAND", "MAC_CROATIAN", "MAC_ROMANIA", "MAC_CYRILLIC", "MAC_UKRAINE", "MAC_GREEK",
    "MAC_TURKISH", "MAC_HEBREW", "MAC_ARABIC", "MAC_THAI", "HPROMAN8", "NEXTSTEP", "ARMSCII8",
    "GEORGIANACADEMY", "GEORGIANPS", "KOI8T", "PT154", "RK1048", "MULELAO1", "IBMCP1133", "TIS620",
    "WINDOWS874", "VISCII", "TCVN", "JP", "JISX0201", "JISX0208", "JISX0212", "GB1988_80",
    "GB2312_80", "CNGBISOIR165", "KOREAN", "IBM856", "IBM922", "IBM943", "IBM1046", "IBM1124",
    "IBM1129", "IBM1161", "IBM1162", "IBM1163", "CP437", "CP737", "CP775", "CP852", "CP853",
    "CP855", "CP857", "CP858", "CP860", "CP861", "CP863", "CP864", "CP865", "CP869", "CP1125",
    "EBCDIC_037", "EBCDIC_273", "EBCDIC_277", "EBCDIC_278", "EBCDIC_280", "EBCDIC_282",
    "EBCDIC_284", "EBCDIC_285", "EBCDIC_297", "EBCDIC_423", "EBCDIC_424", "EBCDIC_425",
    "EBCDIC_500", "EBCDIC_838", "EBCDIC_870", "EBCDIC_871", "EBCDIC_875", "EBCDIC_880",
    "EBCDIC_905", "EBCDIC_924", "EBCDIC_1025", "EBCDIC_1026", "EBCDIC_1047", "EBCDIC_1097",
    "EBCDIC_1112", "EBCDIC_1122", "EBCDIC_1123", "EBCDIC_1130", "EBCDIC_1132", "EBCDIC_1137",
    "EBCDIC_1140", "EBCDIC_1141", "EBCDIC_1142", "EBCDIC_1143", "EBCDIC_1144", "EBCDIC_1145",
    "EBCDIC_1146", "EBCDIC_1147", "EBCDIC_1148", "EBCDIC_1149", "EBCDIC_1153", "EBCDIC_1154",
    "EBCDIC_1155", "EBCDIC_1156", "EBCDIC_1157", "EBCDIC_1158", "EBCDIC_1160", "EBCDIC_1164",
    "EBCDIC_1165", "EBCDIC_1166", "EBCDIC_4971", "EBCDIC_12712", "EBCDIC_16804", "EUC_JISX0213",
    "SHIFT_JISX0213", "ISO2022_JP3", "BIG5_2003", "TDS565", "ATARIST", "RISCOS_LATIN1"]

/-- `DEFCODEPAGE(codepage, xxx)` (`lib/encodings.h.snippet`): code page and encoding number. -/
def codepages : List (Nat × Nat) :=
  [
    (367, 0), (65001, 1), (1201, 3), (1200, 4), (12001, 6), (12000, 7), (65000, 14), (51932, 21),
    (932, 23), (50220, 24), (50222, 24), (50221, 27), (51936, 28), (936, 30), (54936, 32),
    (50227, 33), (52936, 35), (51950, 36), (950, 38), (51949, 43), (949, 44), (1361, 45),
    (50225, 46), (819, 49), (28591, 49), (28592, 50), (28593, 51), (28594, 52), (28595, 53),
    (28596, 54), (28597, 55), (28598, 56), (38598, 56), (28599, 57), (28603, 60), (28605, 62),
    (20866, 64), (21866, 66), (1250, 67), (1251, 68), (1252, 69), (1253, 70), (1254, 71),
    (1255, 72), (1256, 73), (1257, 74), (1258, 75), (850, 76), (862, 77), (866, 78), (1131, 79),
    (10000, 80), (10029, 81), (10079, 82), (10082, 83), (10010, 84), (10007, 85), (10017, 86),
    (10006, 87), (10081, 88), (10005, 89), (10004, 90), (10021, 91), (154, 98), (1133, 101),
    (874, 103), (856, 114), (922, 115), (943, 116), (1046, 117), (1124, 118), (1129, 119),
    (1161, 120), (1162, 121), (1163, 122), (437, 123), (737, 124), (775, 125), (852, 126),
    (853, 127), (855, 128), (857, 129), (858, 130), (860, 131), (861, 132), (863, 133), (864, 134),
    (865, 135), (869, 136), (1125, 137), (37, 138), (273, 139), (20273, 139), (277, 140),
    (20277, 140), (278, 141), (20278, 141), (280, 142), (20280, 142), (282, 143), (284, 144),
    (20284, 144), (285, 145), (20285, 145), (297, 146), (20297, 146), (423, 147), (20423, 147),
    (424, 148), (20424, 148), (425, 149), (500, 150), (838, 151), (870, 152), (871, 153),
    (20871, 153), (875, 154), (880, 155), (20880, 155), (905, 156), (20905, 156), (924, 157),
    (20924, 157), (1025, 158), (1026, 159), (1047, 160), (1097, 161), (1112, 162), (1122, 163),
    (1123, 164), (1130, 165), (1132, 166), (1137, 167), (1140, 168), (1141, 169), (1142, 170),
    (1143, 171), (1144, 172), (1145, 173), (1146, 174), (1147, 175), (1148, 176), (1149, 177),
    (1153, 178), (1154, 179), (1155, 180), (1156, 181), (1157, 182), (1158, 183), (1160, 184),
    (1164, 185), (1165, 186), (1166, 187), (4971, 188), (12712, 189), (16804, 190)]

/-- `DEFINDEX(alias, index)` (`lib/encodings.h.snippet`). -/
def indexAliases : List (String × String) :=
  [
    ("GB18030", "GB18030_2022"), ("BIG5HKSCS", "BIG5HKSCS_2008"), ("CP1250", "MSEE"),
    ("CP1251", "MSCYRL"), ("CP1252", "MSANSI"), ("CP1253", "MSGREEK"), ("CP1254", "MSTURK"),
    ("CP1255", "MSHEBR"), ("CP1256", "MSARAB"), ("CP1257", "WINBALTRIM"), ("CP1258", "WINDOWS1258"),
    ("MAC_ROMAN", "MACINTOSH"), ("ATARI", "ATARIST")]

/-- The constants of `lib/generated/indexes.h.shippet` given by a number. -/
def publicC : List (String × Nat) :=
  [
    ("ISO2022_JP3", 193), ("SHIFT_JISX0213", 192), ("EUC_JISX0213", 191), ("EBCDIC_12712", 189),
    ("EBCDIC_4971", 188), ("EBCDIC_1166", 187), ("EBCDIC_1160", 184), ("EBCDIC_1158", 183),
    ("EBCDIC_1155", 180), ("EBCDIC_1153", 178), ("EBCDIC_1147", 175), ("EBCDIC_1145", 173),
    ("EBCDIC_1144", 172), ("EBCDIC_1143", 171), ("EBCDIC_1142", 170), ("EBCDIC_1137", 167),
    ("EBCDIC_1132", 166), ("EBCDIC_1123", 164), ("EBCDIC_1122", 163), ("EBCDIC_1112", 162),
    ("EBCDIC_1097", 161), ("EBCDIC_1025", 158), ("EBCDIC_905", 156), ("EBCDIC_500", 150),
    ("EBCDIC_425", 149), ("EBCDIC_424", 148), ("EBCDIC_285", 145), ("EBCDIC_284", 144),
    ("EBCDIC_282", 143), ("EBCDIC_278", 141), ("EBCDIC_277", 140), ("CP1125", 137), ("CP869", 136),
    ("CP861", 132), ("EBCDIC_1047", 160), ("CP857", 129), ("EBCDIC_423", 147), ("CP853", 127),
    ("ISO8859_8", 56), ("EBCDIC_1154", 179), ("GB1988_80", 110), ("EBCDIC_1140", 168),
    ("ISO8859_6", 54), ("ISO8859_3", 51), ("IBM922", 115), ("ISO8859_1", 49), ("ISO8859_10", 58),
    ("DEC_HANYU", 48), ("DEC_KANJI", 47), ("ISO8859_4", 52), ("SHIFT_JIS", 22), ("IBM1131", 79),
    ("EBCDIC_880", 155), ("BIG5HKSCS_2001", 40), ("MSEE", 67), ("ISO8859_7", 55), ("TDS565", 195),
    ("EBCDIC_1148", 176), ("IBM1161", 120), ("EBCDIC_037", 138), ("CP775", 125),
    ("BIG5HKSCS_1999", 39), ("EUC_TW", 36), ("EBCDIC_297", 146), ("UHC", 44), ("EBCDIC_1156", 181),
    ("GB18030_2022", 32), ("UTF32", 11), ("ATARIST", 196), ("CP864", 134), ("GB2312_80", 111),
    ("UTF16LE", 10), ("EBCDIC_1149", 177), ("UTF16", 8), ("UCS4LE", 7), ("EBCDIC_924", 157),
    ("EUC_KR", 43), ("EBCDIC_1026", 159), ("GB18030_2005", 31), ("UCS4_INTERNAL", 17),
    ("KOI8T", 97), ("EBCDIC_280", 142), ("UCS2LE", 4), ("WINDOWS1258", 75), ("EBCDIC_1157", 182),
    ("UTF8", 1), ("CP865", 135), ("UCS4", 5), ("CP858", 130), ("HZ", 35), ("CP863", 133),
    ("ISO2022_KR", 46), ("C99", 19), ("IBM1163", 122), ("ISO2022_CN", 33), ("UTF32LE", 13),
    ("ASCII", 0), ("IBM862", 77), ("UTF7", 14), ("WINDOWS950", 38), ("UCS2", 2), ("ISO8859_14", 61),
    ("IBM943", 116), ("CP737", 124), ("ISO2022_JP1", 25), ("UCS2_SWAPPED", 16), ("KOI8_R", 64),
    ("UCS4_SWAPPED", 18), ("RISCOS_LATIN1", 197), ("JAVA", 20), ("BIG5", 37), ("UTF16BE", 9),
    ("EBCDIC_871", 153), ("UTF32BE", 12), ("GEORGIANACADEMY", 95), ("IBM932", 23), ("CP860", 131),
    ("MAC_ICELAND", 82), ("ISO2022_JP", 24), ("BIG5HKSCS_2004", 41), ("GB2312", 28), ("GBK", 29),
    ("ISO8859_5", 53), ("BIG5HKSCS_2008", 42), ("CP852", 126), ("UCS4BE", 6), ("IBM866", 78),
    ("EBCDIC_875", 154), ("MAC_CROATIAN", 83), ("MAC_UKRAINE", 86), ("EUC_JP", 21),
    ("ISO2022_JP2", 26), ("ISO8859_11", 59), ("KOI8_U", 65), ("EBCDIC_1141", 169),
    ("EBCDIC_838", 151), ("MSGREEK", 70), ("UCS2BE", 3), ("ISO8859_13", 60), ("BIG5_2003", 194),
    ("JISX0208", 108), ("EBCDIC_1146", 174), ("ISO8859_15", 62), ("ISO8859_16", 63),
    ("IBM1046", 117), ("KOI8_RU", 66), ("CNGBISOIR165", 112), ("MSCYRL", 68), ("MSTURK", 71),
    ("EBCDIC_1165", 186), ("MSHEBR", 72), ("CP855", 128), ("MSARAB", 73), ("VISCII", 104),
    ("WINBALTRIM", 74), ("EBCDIC_273", 139), ("MACINTOSH", 80), ("MAC_CENTRALEUROPE", 81),
    ("MAC_CYRILLIC", 85), ("MAC_GREEK", 87), ("MAC_ARABIC", 90), ("MAC_TURKISH", 88),
    ("EBCDIC_1164", 185), ("MAC_HEBREW", 89), ("EBCDIC_16804", 190), ("MAC_THAI", 91),
    ("HPROMAN8", 92), ("UCS2_INTERNAL", 15), ("NEXTSTEP", 93), ("ARMSCII8", 94), ("ISO8859_2", 50),
    ("GEORGIANPS", 96), ("PT154", 98), ("MAC_ROMANIA", 84), ("IBM850", 76), ("RK1048", 99),
    ("ISO8859_9", 57), ("MULELAO1", 100), ("ISO2022_CN_EXT", 34), ("IBMCP1133", 101),
    ("EBCDIC_1130", 165), ("TIS620", 102), ("MSANSI", 69), ("WINDOWS874", 103), ("EBCDIC_870", 152),
    ("JISX0201", 107), ("TCVN", 105), ("JP", 106), ("JOHAB", 45), ("ISO2022_JPMS", 27),
    ("JISX0212", 109), ("KOREAN", 113), ("IBM856", 114), ("IBM1124", 118), ("CP936", 30),
    ("IBM1129", 119), ("IBM1162", 121), ("CP437", 123)]

/-- The constants of `lib/generated/indexes.h.shippet` given by another constant. -/
def publicCAliases : List (String × String) :=
  [
    ("CP1256", "MSARAB"), ("MAC_ROMAN", "MACINTOSH"), ("CP1258", "WINDOWS1258"),
    ("CP1255", "MSHEBR"), ("CP1254", "MSTURK"), ("ATARI", "ATARIST"), ("CP1253", "MSGREEK"),
    ("CP1252", "MSANSI"), ("CP1257", "WINBALTRIM"), ("CP1251", "MSCYRL"), ("CP1250", "MSEE"),
    ("BIG5HKSCS", "BIG5HKSCS_2008"), ("GB18030", "GB18030_2022")]

/-- The constants of `lib/generated/indexes.hpp.shippet` given by a number. -/
def publicCpp : List (String × Nat) :=
  [
    ("ISO2022_JP3", 193), ("SHIFT_JISX0213", 192), ("EUC_JISX0213", 191), ("EBCDIC_12712", 189),
    ("EBCDIC_4971", 188), ("EBCDIC_1166", 187), ("EBCDIC_1160", 184), ("EBCDIC_1158", 183),
    ("EBCDIC_1155", 180), ("EBCDIC_1153", 178), ("EBCDIC_1147", 175), ("EBCDIC_1145", 173),
    ("EBCDIC_1144", 172), ("EBCDIC_1143", 171), ("EBCDIC_1142", 170), ("EBCDIC_1137", 167),
    ("EBCDIC_1132", 166), ("EBCDIC_1123", 164), ("EBCDIC_1122", 163), ("EBCDIC_1112", 162),
    ("EBCDIC_1097", 161), ("EBCDIC_1025", 158), ("EBCDIC_905", 156), ("EBCDIC_500", 150),
    ("EBCDIC_425", 149), ("EBCDIC_424", 148), ("EBCDIC_285", 145), ("EBCDIC_284", 144),
    ("EBCDIC_282", 143), ("EBCDIC_278", 141), ("EBCDIC_277", 140), ("CP1125", 137), ("CP869", 136),
    ("CP861", 132), ("EBCDIC_1047", 160), ("CP857", 129), ("EBCDIC_423", 147), ("CP853", 127),
    ("ISO8859_8", 56), ("EBCDIC_1154", 179), ("GB1988_80", 110), ("EBCDIC_1140", 168),
    ("ISO8859_6", 54), ("ISO8859_3", 51), ("IBM922", 115), ("ISO8859_1", 49), ("ISO8859_10", 58),
    ("DEC_HANYU", 48), ("DEC_KANJI", 47), ("ISO8859_4", 52), ("SHIFT_JIS", 22), ("IBM1131", 79),
    ("EBCDIC_880", 155), ("BIG5HKSCS_2001", 40), ("MSEE", 67), ("ISO8859_7", 55), ("TDS565", 195),
    ("EBCDIC_1148", 176), ("IBM1161", 120), ("EBCDIC_037", 138), ("CP775", 125),
    ("BIG5HKSCS_1999", 39), ("EUC_TW", 36), ("EBCDIC_297", 146), ("UHC", 44), ("EBCDIC_1156", 181),
    ("GB18030_2022", 32), ("UTF32", 11), ("ATARIST", 196), ("CP864", 134), ("GB2312_80", 111),
    ("UTF16LE", 10), ("EBCDIC_1149", 177), ("UTF16", 8), ("UCS4LE", 7), ("EBCDIC_924", 157),
    ("EUC_KR", 43), ("EBCDIC_1026", 159), ("GB18030_2005", 31), ("UCS4_INTERNAL", 17),
    ("KOI8T", 97), ("EBCDIC_280", 142), ("UCS2LE", 4), ("WINDOWS1258", 75), ("EBCDIC_1157", 182),
    ("UTF8", 1), ("CP865", 135), ("UCS4", 5), ("CP858", 130), ("HZ", 35), ("CP863", 133),
    ("ISO2022_KR", 46), ("C99", 19), ("IBM1163", 122), ("ISO2022_CN", 33), ("UTF32LE", 13),
    ("ASCII", 0), ("IBM862", 77), ("UTF7", 14), ("WINDOWS950", 38), ("UCS2", 2), ("ISO8859_14", 61),
    ("IBM943", 116), ("CP737", 124), ("ISO2022_JP1", 25), ("UCS2_SWAPPED", 16), ("KOI8_R", 64),
    ("UCS4_SWAPPED", 18), ("RISCOS_LATIN1", 197), ("JAVA", 20), ("BIG5", 37), ("UTF16BE", 9),
    ("EBCDIC_871", 153), ("UTF32BE", 12), ("GEORGIANACADEMY", 95), ("IBM932", 23), ("CP860", 131),
    ("MAC_ICELAND", 82), ("ISO2022_JP", 24), ("BIG5HKSCS_2004", 41), ("GB2312", 28), ("GBK", 29),
    ("ISO8859_5", 53), ("BIG5HKSCS_2008", 42), ("CP852", 126), ("UCS4BE", 6), ("IBM866", 78),
    ("EBCDIC_875", 154), ("MAC_CROATIAN", 83), ("MAC_UKRAINE", 86), ("EUC_JP", 21),
    ("ISO2022_JP2", 26), ("ISO8859_11", 59), ("KOI8_U", 65), ("EBCDIC_1141", 169),
    ("EBCDIC_838", 151), ("MSGREEK", 70), ("UCS2BE", 3), ("ISO8859_13", 60), ("BIG5_2003", 194),
    ("JISX0208", 108), ("EBCDIC_1146", 174), ("ISO8859_15", 62), ("ISO8859_16", 63),
    ("IBM1046", 117), ("KOI8_RU", 66), ("CNGBISOIR165", 112), ("MSCYRL", 68), ("MSTURK", 71),
    ("EBCDIC_1165", 186), ("MSHEBR", 72), ("CP855", 128), ("MSARAB", 73), ("VISCII", 104),
    ("WINBALTRIM", 74), ("EBCDIC_273", 139), ("MACINTOSH", 80), ("MAC_CENTRALEUROPE", 81),
    ("MAC_CYRILLIC", 85), ("MAC_GREEK", 87), ("MAC_ARABIC", 90), ("MAC_TURKISH", 88),
    ("EBCDIC_1164", 185), ("MAC_HEBREW", 89), ("EBCDIC_16804", 190), ("MAC_THAI", 91),
    ("HPROMAN8", 92), ("UCS2_INTERNAL", 15), ("NEXTSTEP", 93), ("ARMSCII8", 94), ("ISO8859_2", 50),
    ("GEORGIANPS", 96), ("PT154", 98), ("MAC_ROMANIA", 84), ("IBM850", 76), ("RK1048", 99),
    ("ISO8859_9", 57), ("MULELAO1", 100), ("ISO2022_CN_EXT", 34), ("IBMCP1133", 101),
    ("EBCDIC_1130", 165), ("TIS620", 102), ("MSANSI", 69), ("WINDOWS874", 103), ("EBCDIC_870", 152),
    ("JISX0201", 107), ("TCVN", 105), ("JP", 106), ("JOHAB", 45), ("ISO2022_JPMS", 27),
    ("JISX0212", 109), ("KOREAN", 113), ("IBM856", 114), ("IBM1124", 118), ("CP936", 30),
    ("IBM1129", 119), ("IBM1162", 121), ("CP437", 123)]

/-- The constants of `lib/generated/indexes.hpp.shippet` given by another constant. -/
def publicCppAliases : List (String × String) :=
  [
    ("CP1256", "MSARAB"), ("MAC_ROMAN", "MACINTOSH"), ("CP1258", "WINDOWS1258"),
    ("CP1255", "MSHEBR"), ("CP1254", "MSTURK"), ("ATARI", "ATARIST"), ("CP1253", "MSGREEK"),
    ("CP1252", "MSANSI"), ("CP1257", "WINBALTRIM"), ("CP1251", "MSCYRL"), ("CP1250", "MSEE"),
    ("BIG5HKSCS", "BIG5HKSCS_2008"), ("GB18030", "GB18030_2022")]

/-- The `switch` of `windows_getcp` (`lib/localecharset/windows_getcp.h:44-343`). -/
def winNames : List (Nat × String) :=
  [
    (65001, "UTF-8"), (1200, "UCS2-LE"), (1201, "UNICODE11"), (12000, "UCS4-LE"),
    (12001, "UCS4-BE"), (65000, "UTF-7"), (936, "CP936"), (950, "BIG5"),
    (10002, "X-MAC-CHINESETRAD"), (10008, "X-MAC-CHINESESIMP"), (20000, "X-CHINESE_CNS"),
    (20002, "X_CHINESE-ETEN"), (20936, "X-CP20936"), (50227, "ISO-2022-CN"), (51936, "EUC-CN"),
    (52936, "HZ-GB-2312"), (54936, "GB18030"), (932, "SHIFT_JIS"), (10001, "X-MAC-JAPANESE"),
    (20290, "IBM290"), (20932, "EUC-JP"), (50220, "ISO-2022-JP"), (50221, "ISO-2022-JP-MS"),
    (50222, "ISO-2022-JP"), (51932, "EUC-JP"), (949, "KS_C_5601-1987"), (1361, "JOHAB"),
    (10003, "X-MAC-KOREAN"), (20833, "X-EBCDIC-KOREANEXTENDED"), (20949, "X-CP20949"),
    (50225, "ISO-2022-KR"), (51949, "EUC-KR"), (37, "IBM037"), (437, "IBM437"), (500, "IBM500"),
    (708, "ASMO-708"), (720, "DOS-720"), (737, "IBM737"), (775, "IBM775"), (850, "IBM850"),
    (852, "IBM852"), (855, "IBM855"), (857, "IBM857"), (858, "IBM00858"), (860, "IBM860"),
    (861, "IBM861"), (862, "DOS-862"), (863, "IBM863"), (864, "IBM864"), (865, "IBM865"),
    (866, "CP866"), (869, "IBM869"), (870, "IBM870"), (874, "WINDOWS-874"), (875, "CP875"),
    (1026, "IBM1026"), (1140, "IBM1140"), (1141, "IBM01141"), (1142, "IBM01142"),
    (1143, "IBM01143"), (1144, "IBM01144"), (1145, "IBM01145"), (1146, "IBM01146"),
    (1147, "IBM01147"), (1148, "IBM01148"), (1149, "IBM01149"), (1250, "WINDOWS-1250"),
    (1251, "WINDOWS-1251"), (1252, "WINDOWS-1252"), (1253, "WINDOWS-1253"), (1254, "WINDOWS-1254"),
    (1255, "WINDOWS-1255"), (1256, "WINDOWS-1256"), (1257, "WINDOWS-1257"), (1258, "VISCII"),
    (10000, "MACINTOSH"), (10004, "X-MAC-ARABIC"), (10005, "X-MAC-HEBREW"), (10006, "X-MAC-GREEK"),
    (10007, "X-MAC-CYRILLIC"), (10010, "X-MAC-ROMANIAN"), (10017, "X-MAC-UKRAINIAN"),
    (10021, "X-MAC-THAI"), (10029, "X-MAC-CE"), (10079, "X-MAC-ICELANDIC"),
    (10081, "X-MAC-TURKISH"), (10082, "X-MAC-CROATIAN"), (20001, "X-CP20001"), (20003, "X-CP20003"),
    (20004, "X-CP20004"), (20005, "X-CP20005"), (20105, "X-IA5"), (20106, "X-IA5-GERMAN"),
    (20107, "X-IA5-SWEDISH"), (20108, "X-IA5-NORWEGIAN"), (20127, "CP20127"), (20261, "X-CP20261"),
    (20269, "X-CP20269"), (20273, "IBM273"), (20277, "IBM277"), (20278, "IBM278"),
    (20280, "IBM280"), (20284, "IBM284"), (20285, "IBM285"), (20297, "IBM297"), (20420, "IBM420"),
    (20423, "IBM423"), (20424, "IBM424"), (20866, "KOI8-R"), (20871, "IBM871"), (20880, "IBM880"),
    (20905, "IBM905"), (20924, "IBM00924"), (21025, "CP1025"), (21866, "KOI8-RU"),
    (28591, "ISO-8859-1"), (28592, "ISO-8859-2"), (28593, "ISO-8859-3"), (28594, "ISO-8859-4"),
    (28595, "ISO-8859-5"), (28596, "ISO-8859-6"), (28597, "ISO-8859-7"), (28598, "ISO-8859-8"),
    (28599, "ISO-8859-9"), (28603, "ISO-8859-13"), (28605, "ISO-8859-15"), (29001, "X-EUROPA"),
    (38598, "ISO-8859-8-I"), (57002, "X-ISCII-DE"), (57003, "X-ISCII-BE"), (57004, "X-ISCII-TA"),
    (57005, "X-ISCII-TE"), (57006, "X-ISCII-AS"), (57007, "X-ISCII-OR"), (57008, "X-ISCII-KA"),
    (57009, "X-ISCII-MA"), (57010, "X-ISCII-GU"), (57011, "X-ISCII-PA")]

/-- `locale_table` on FreeBSD (`lib/localecharset/locale_table.h:34-108`). -/
def localeTable : List (String × String) :=
  [
    ("cs_CZ.ISO_8859-2", "ISO-8859-2"), ("da_DK.DIS_8859-15", "ISO-8859-15"),
    ("da_DK.ISO_8859-1", "ISO-8859-1"), ("de_AT.DIS_8859-15", "ISO-8859-15"),
    ("de_AT.ISO_8859-1", "ISO-8859-1"), ("de_CH.DIS_8859-15", "ISO-8859-15"),
    ("de_CH.ISO_8859-1", "ISO-8859-1"), ("de_DE.DIS_8859-15", "ISO-8859-15"),
    ("de_DE.ISO_8859-1", "ISO-8859-1"), ("en_AU.DIS_8859-15", "ISO-8859-15"),
    ("en_AU.ISO_8859-1", "ISO-8859-1"), ("en_CA.DIS_8859-15", "ISO-8859-15"),
    ("en_CA.ISO_8859-1", "ISO-8859-1"), ("en_GB.DIS_8859-15", "ISO-8859-15"),
    ("en_GB.ISO_8859-1", "ISO-8859-1"), ("en_US.DIS_8859-15", "ISO-8859-15"),
    ("en_US.ISO_8859-1", "ISO-8859-1"), ("es_ES.DIS_8859-15", "ISO-8859-15"),
    ("es_ES.ISO_8859-1", "ISO-8859-1"), ("fi_FI.DIS_8859-15", "ISO-8859-15"),
    ("fi_FI.ISO_8859-1", "ISO-8859-1"), ("fr_BE.DIS_8859-15", "ISO-8859-15"),
    ("fr_BE.ISO_8859-1", "ISO-8859-1"), ("fr_CA.DIS_8859-15", "ISO-8859-15"),
    ("fr_CA.ISO_8859-1", "ISO-8859-1"), ("fr_CH.DIS_8859-15", "ISO-8859-15"),
    ("fr_CH.ISO_8859-1", "ISO-8859-1"), ("fr_FR.DIS_8859-15", "ISO-8859-15"),
    ("fr_FR.ISO_8859-1", "ISO-8859-1"), ("hr_HR.ISO_8859-2", "ISO-8859-2"),
    ("hu_HU.ISO_8859-2", "ISO-8859-2"), ("is_IS.DIS_8859-15", "ISO-8859-15"),
    ("is_IS.ISO_8859-1", "ISO-8859-1"), ("it_CH.DIS_8859-15", "ISO-8859-15"),
    ("it_CH.ISO_8859-1", "ISO-8859-1"), ("it_IT.DIS_8859-15", "ISO-8859-15"),
    ("it_IT.ISO_8859-1", "ISO-8859-1"), ("ja_JP.EUC", "EUC-JP"), ("ja_JP.SJIS", "SHIFT_JIS"),
    ("ja_JP.Shift_JIS", "SHIFT_JIS"), ("ko_KR.EUC", "EUC-KR"), ("la_LN.ASCII", "ASCII"),
    ("la_LN.DIS_8859-15", "ISO-8859-15"), ("la_LN.ISO_8859-1", "ISO-8859-1"),
    ("la_LN.ISO_8859-2", "ISO-8859-2"), ("la_LN.ISO_8859-4", "ISO-8859-4"),
    ("lt_LN.ASCII", "ASCII"), ("lt_LN.DIS_8859-15", "ISO-8859-15"),
    ("lt_LN.ISO_8859-1", "ISO-8859-1"), ("lt_LN.ISO_8859-2", "ISO-8859-2"),
    ("lt_LT.ISO_8859-4", "ISO-8859-4"), ("nl_BE.DIS_8859-15", "ISO-8859-15"),
    ("nl_BE.ISO_8859-1", "ISO-8859-1"), ("nl_NL.DIS_8859-15", "ISO-8859-15"),
    ("nl_NL.ISO_8859-1", "ISO-8859-1"), ("no_NO.DIS_8859-15", "ISO-8859-15"),
    ("no_NO.ISO_8859-1", "ISO-8859-1"), ("pl_PL.ISO_8859-2", "ISO-8859-2"),
    ("pt_PT.DIS_8859-15", "ISO-8859-15"), ("pt_PT.ISO_8859-1", "ISO-8859-1"),
    ("ru_RU.CP866", "CP866"), ("ru_RU.ISO_8859-5", "ISO-8859-5"), ("ru_RU.KOI8-R", "KOI8-R"),
    ("ru_SU.CP866", "CP866"), ("ru_SU.ISO_8859-5", "ISO-8859-5"), ("ru_SU.KOI8-R", "KOI8-R"),
    ("sl_SI.ISO_8859-2", "ISO-8859-2"), ("sv_SE.DIS_8859-15", "ISO-8859-15"),
    ("sv_SE.ISO_8859-1", "ISO-8859-1"), ("uk_UA.KOI8-U", "KOI8-U"), ("zh_CN.EUC", "GB2312"),
    ("zh_TW.BIG5", "BIG5"), ("zh_TW.Big5", "BIG5")]

end Reiconv
