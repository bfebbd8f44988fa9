import Verif.Model.Mitre
/- The names of the variants of the enums of /repo/src/components/mitre.rs, as the derived serde code writes them. Written by
tools/gen_wire.py. -/
namespace USiem

/-- The name of the variant, src/components/mitre.rs lines 33-118. -/
def MitreTactics.variantName : MitreTactics → Str
  | .TA0043 => chars% "TA0043"
  | .TA0042 => chars% "TA0042"
  | .TA0001 => chars% "TA0001"
  | .TA0002 => chars% "TA0002"
  | .TA0003 => chars% "TA0003"
  | .TA0004 => chars% "TA0004"
  | .TA0005 => chars% "TA0005"
  | .TA0006 => chars% "TA0006"
  | .TA0007 => chars% "TA0007"
  | .TA0008 => chars% "TA0008"
  | .TA0009 => chars% "TA0009"
  | .TA0011 => chars% "TA0011"
  | .TA0010 => chars% "TA0010"
  | .TA0040 => chars% "TA0040"
  | .TA0027 => chars% "TA0027"
  | .TA0041 => chars% "TA0041"
  | .TA0028 => chars% "TA0028"
  | .TA0029 => chars% "TA0029"
  | .TA0030 => chars% "TA0030"
  | .TA0031 => chars% "TA0031"
  | .TA0032 => chars% "TA0032"
  | .TA0033 => chars% "TA0033"
  | .TA0035 => chars% "TA0035"
  | .TA0037 => chars% "TA0037"
  | .TA0036 => chars% "TA0036"
  | .TA0034 => chars% "TA0034"
  | .TA0038 => chars% "TA0038"
  | .TA0039 => chars% "TA0039"
/-- The names the derived `Deserialize` knows, src/components/mitre.rs lines 33-118, part 1. -/
def MitreTactics.variants0 : List (Str × MitreTactics) :=
  [(chars% "TA0043", .TA0043), (chars% "TA0042", .TA0042), (chars% "TA0001", .TA0001), (chars% "TA0002", .TA0002),
   (chars% "TA0003", .TA0003), (chars% "TA0004", .TA0004), (chars% "TA0005", .TA0005), (chars% "TA0006", .TA0006),
   (chars% "TA0007", .TA0007), (chars% "TA0008", .TA0008), (chars% "TA0009", .TA0009), (chars% "TA0011", .TA0011),
   (chars% "TA0010", .TA0010), (chars% "TA0040", .TA0040), (chars% "TA0027", .TA0027), (chars% "TA0041", .TA0041),
   (chars% "TA0028", .TA0028), (chars% "TA0029", .TA0029), (chars% "TA0030", .TA0030), (chars% "TA0031", .TA0031),
   (chars% "TA0032", .TA0032), (chars% "TA0033", .TA0033), (chars% "TA0035", .TA0035), (chars% "TA0037", .TA0037),
   (chars% "TA0036", .TA0036), (chars% "TA0034", .TA0034), (chars% "TA0038", .TA0038), (chars% "TA0039", .TA0039)]
/-- All of them, src/components/mitre.rs lines 33-118. -/
def MitreTactics.variants : List (Str × MitreTactics) := variants0

/-- The name of the variant, src/components/mitre.rs lines 893-3102. -/
def MitreTechniques.variantName : MitreTechniques → Str
  | .T1001 => chars% "T1001"
  | .T1001_001 => chars% "T1001_001"
  | .T1001_002 => chars% "T1001_002"
  | .T1001_003 => chars% "T1001_003"
  | .T1003 => chars% "T1003"
  | .T1003_001 => chars% "T1003_001"
  | .T1003_002 => chars% "T1003_002"
  | .T1003_003 => chars% "T1003_003"
  | .T1003_004 => chars% "T1003_004"
  | .T1003_005 => chars% "T1003_005"
  | .T1003_006 => chars% "T1003_006"
  | .T1003_007 => chars% "T1003_007"
  | .T1003_008 => chars% "T1003_008"
  | .T1005 => chars% "T1005"
  | .T1006 => chars% "T1006"
  | .T1007 => chars% "T1007"
  | .T1008 => chars% "T1008"
  | .T1010 => chars% "T1010"
  | .T1011 => chars% "T1011"
  | .T1011_001 => chars% "T1011_001"
  | .T1012 => chars% "T1012"
  | .T1014 => chars% "T1014"
  | .T1016 => chars% "T1016"
  | .T1016_001 => chars% "T1016_001"
  | .T1018 => chars% "T1018"
  | .T1020 => chars% "T1020"
  | .T1020_001 => chars% "T1020_001"
  | .T1021 => chars% "T1021"
  | .T1021_001 => chars% "T1021_001"
  | .T1021_002 => chars% "T1021_002"
  | .T1021_003 => chars% "T1021_003"
  | .T1021_004 => chars% "T1021_004"
  | .T1021_005 => chars% "T1021_005"
  | .T1021_006 => chars% "T1021_006"
  | .T1025 => chars% "T1025"
  | .T1027 => chars% "T1027"
  | .T1027_001 => chars% "T1027_001"
  | .T1027_002 => chars% "T1027_002"
  | .T1027_003 => chars% "T1027_003"
  | .T1027_004 => chars% "T1027_004"
  | .T1027_005 => chars% "T1027_005"
  | .T1029 => chars% "T1029"
  | .T1030 => chars% "T1030"
  | .T1033 => chars% "T1033"
  | .T1036 => chars% "T1036"
  | .T1036_001 => chars% "T1036_001"
  | .T1036_002 => chars% "T1036_002"
  | .T1036_003 => chars% "T1036_003"
  | .T1036_004 => chars% "T1036_004"
  | .T1036_005 => chars% "T1036_005"
  | .T1036_006 => chars% "T1036_006"
  | .T1037 => chars% "T1037"
  | .T1037_001 => chars% "T1037_001"
  | .T1037_002 => chars% "T1037_002"
  | .T1037_003 => chars% "T1037_003"
  | .T1037_004 => chars% "T1037_004"
  | .T1037_005 => chars% "T1037_005"
  | .T1039 => chars% "T1039"
  | .T1040 => chars% "T1040"
  | .T1041 => chars% "T1041"
  | .T1046 => chars% "T1046"
  | .T1047 => chars% "T1047"
  | .T1048 => chars% "T1048"
  | .T1048_001 => chars% "T1048_001"
  | .T1048_002 => chars% "T1048_002"
  | .T1048_003 => chars% "T1048_003"
  | .T1049 => chars% "T1049"
  | .T1052 => chars% "T1052"
  | .T1052_001 => chars% "T1052_001"
  | .T1053 => chars% "T1053"
  | .T1053_001 => chars% "T1053_001"
  | .T1053_002 => chars% "T1053_002"
  | .T1053_003 => chars% "T1053_003"
  | .T1053_004 => chars% "T1053_004"
  | .T1053_005 => chars% "T1053_005"
  | .T1053_006 => chars% "T1053_006"
  | .T1053_007 => chars% "T1053_007"
  | .T1055 => chars% "T1055"
  | .T1055_001 => chars% "T1055_001"
  | .T1055_002 => chars% "T1055_002"
  | .T1055_003 => chars% "T1055_003"
  | .T1055_004 => chars% "T1055_004"
  | .T1055_005 => chars% "T1055_005"
  | .T1055_008 => chars% "T1055_008"
  | .T1055_009 => chars% "T1055_009"
  | .T1055_011 => chars% "T1055_011"
  | .T1055_012 => chars% "T1055_012"
  | .T1055_013 => chars% "T1055_013"
  | .T1055_014 => chars% "T1055_014"
  | .T1056 => chars% "T1056"
  | .T1056_001 => chars% "T1056_001"
  | .T1056_002 => chars% "T1056_002"
  | .T1056_003 => chars% "T1056_003"
  | .T1056_004 => chars% "T1056_004"
  | .T1057 => chars% "T1057"
  | .T1059 => chars% "T1059"
  | .T1059_001 => chars% "T1059_001"
  | .T1059_002 => chars% "T1059_002"
  | .T1059_003 => chars% "T1059_003"
  | .T1059_004 => chars% "T1059_004"
  | .T1059_005 => chars% "T1059_005"
  | .T1059_006 => chars% "T1059_006"
  | .T1059_007 => chars% "T1059_007"
  | .T1059_008 => chars% "T1059_008"
  | .T1068 => chars% "T1068"
  | .T1069 => chars% "T1069"
  | .T1069_001 => chars% "T1069_001"
  | .T1069_002 => chars% "T1069_002"
  | .T1069_003 => chars% "T1069_003"
  | .T1070 => chars% "T1070"
  | .T1070_001 => chars% "T1070_001"
  | .T1070_002 => chars% "T1070_002"
  | .T1070_003 => chars% "T1070_003"
  | .T1070_004 => chars% "T1070_004"
  | .T1070_005 => chars% "T1070_005"
  | .T1070_006 => chars% "T1070_006"
  | .T1071 => chars% "T1071"
  | .T1071_001 => chars% "T1071_001"
  | .T1071_002 => chars% "T1071_002"
  | .T1071_003 => chars% "T1071_003"
  | .T1071_004 => chars% "T1071_004"
  | .T1072 => chars% "T1072"
  | .T1074 => chars% "T1074"
  | .T1074_001 => chars% "T1074_001"
  | .T1074_002 => chars% "T1074_002"
  | .T1078 => chars% "T1078"
  | .T1078_001 => chars% "T1078_001"
  | .T1078_002 => chars% "T1078_002"
  | .T1078_003 => chars% "T1078_003"
  | .T1078_004 => chars% "T1078_004"
  | .T1080 => chars% "T1080"
  | .T1082 => chars% "T1082"
  | .T1083 => chars% "T1083"
  | .T1087 => chars% "T1087"
  | .T1087_001 => chars% "T1087_001"
  | .T1087_002 => chars% "T1087_002"
  | .T1087_003 => chars% "T1087_003"
  | .T1087_004 => chars% "T1087_004"
  | .T1090 => chars% "T1090"
  | .T1090_001 => chars% "T1090_001"
  | .T1090_002 => chars% "T1090_002"
  | .T1090_003 => chars% "T1090_003"
  | .T1090_004 => chars% "T1090_004"
  | .T1091 => chars% "T1091"
  | .T1092 => chars% "T1092"
  | .T1095 => chars% "T1095"
  | .T1098 => chars% "T1098"
  | .T1098_001 => chars% "T1098_001"
  | .T1098_002 => chars% "T1098_002"
  | .T1098_003 => chars% "T1098_003"
  | .T1098_004 => chars% "T1098_004"
  | .T1102 => chars% "T1102"
  | .T1102_001 => chars% "T1102_001"
  | .T1102_002 => chars% "T1102_002"
  | .T1102_003 => chars% "T1102_003"
  | .T1104 => chars% "T1104"
  | .T1105 => chars% "T1105"
  | .T1106 => chars% "T1106"
  | .T1110 => chars% "T1110"
  | .T1110_001 => chars% "T1110_001"
  | .T1110_002 => chars% "T1110_002"
  | .T1110_003 => chars% "T1110_003"
  | .T1110_004 => chars% "T1110_004"
  | .T1111 => chars% "T1111"
  | .T1112 => chars% "T1112"
  | .T1113 => chars% "T1113"
  | .T1114 => chars% "T1114"
  | .T1114_001 => chars% "T1114_001"
  | .T1114_002 => chars% "T1114_002"
  | .T1114_003 => chars% "T1114_003"
  | .T1115 => chars% "T1115"
  | .T1119 => chars% "T1119"
  | .T1120 => chars% "T1120"
  | .T1123 => chars% "T1123"
  | .T1124 => chars% "T1124"
  | .T1125 => chars% "T1125"
  | .T1127 => chars% "T1127"
  | .T1127_001 => chars% "T1127_001"
  | .T1129 => chars% "T1129"
  | .T1132 => chars% "T1132"
  | .T1132_001 => chars% "T1132_001"
  | .T1132_002 => chars% "T1132_002"
  | .T1133 => chars% "T1133"
  | .T1134 => chars% "T1134"
  | .T1134_001 => chars% "T1134_001"
  | .T1134_002 => chars% "T1134_002"
  | .T1134_003 => chars% "T1134_003"
  | .T1134_004 => chars% "T1134_004"
  | .T1134_005 => chars% "T1134_005"
  | .T1135 => chars% "T1135"
  | .T1136 => chars% "T1136"
  | .T1136_001 => chars% "T1136_001"
  | .T1136_002 => chars% "T1136_002"
  | .T1136_003 => chars% "T1136_003"
  | .T1137 => chars% "T1137"
  | .T1137_001 => chars% "T1137_001"
  | .T1137_002 => chars% "T1137_002"
  | .T1137_003 => chars% "T1137_003"
  | .T1137_004 => chars% "T1137_004"
  | .T1137_005 => chars% "T1137_005"
  | .T1137_006 => chars% "T1137_006"
  | .T1140 => chars% "T1140"
  | .T1176 => chars% "T1176"
  | .T1185 => chars% "T1185"
  | .T1187 => chars% "T1187"
  | .T1189 => chars% "T1189"
  | .T1190 => chars% "T1190"
  | .T1195 => chars% "T1195"
  | .T1195_001 => chars% "T1195_001"
  | .T1195_002 => chars% "T1195_002"
  | .T1195_003 => chars% "T1195_003"
  | .T1197 => chars% "T1197"
  | .T1199 => chars% "T1199"
  | .T1200 => chars% "T1200"
  | .T1201 => chars% "T1201"
  | .T1202 => chars% "T1202"
  | .T1203 => chars% "T1203"
  | .T1204 => chars% "T1204"
  | .T1204_001 => chars% "T1204_001"
  | .T1204_002 => chars% "T1204_002"
  | .T1204_003 => chars% "T1204_003"
  | .T1205 => chars% "T1205"
  | .T1205_001 => chars% "T1205_001"
  | .T1207 => chars% "T1207"
  | .T1210 => chars% "T1210"
  | .T1211 => chars% "T1211"
  | .T1212 => chars% "T1212"
  | .T1213 => chars% "T1213"
  | .T1213_001 => chars% "T1213_001"
  | .T1213_002 => chars% "T1213_002"
  | .T1216 => chars% "T1216"
  | .T1216_001 => chars% "T1216_001"
  | .T1217 => chars% "T1217"
  | .T1218 => chars% "T1218"
  | .T1218_001 => chars% "T1218_001"
  | .T1218_002 => chars% "T1218_002"
  | .T1218_003 => chars% "T1218_003"
  | .T1218_004 => chars% "T1218_004"
  | .T1218_005 => chars% "T1218_005"
  | .T1218_007 => chars% "T1218_007"
  | .T1218_008 => chars% "T1218_008"
  | .T1218_009 => chars% "T1218_009"
  | .T1218_010 => chars% "T1218_010"
  | .T1218_011 => chars% "T1218_011"
  | .T1218_012 => chars% "T1218_012"
  | .T1219 => chars% "T1219"
  | .T1220 => chars% "T1220"
  | .T1221 => chars% "T1221"
  | .T1222 => chars% "T1222"
  | .T1222_001 => chars% "T1222_001"
  | .T1222_002 => chars% "T1222_002"
  | .T1480 => chars% "T1480"
  | .T1480_001 => chars% "T1480_001"
  | .T1482 => chars% "T1482"
  | .T1484 => chars% "T1484"
  | .T1484_001 => chars% "T1484_001"
  | .T1484_002 => chars% "T1484_002"
  | .T1485 => chars% "T1485"
  | .T1486 => chars% "T1486"
  | .T1489 => chars% "T1489"
  | .T1490 => chars% "T1490"
  | .T1491 => chars% "T1491"
  | .T1491_001 => chars% "T1491_001"
  | .T1491_002 => chars% "T1491_002"
  | .T1495 => chars% "T1495"
  | .T1496 => chars% "T1496"
  | .T1497 => chars% "T1497"
  | .T1497_001 => chars% "T1497_001"
  | .T1497_002 => chars% "T1497_002"
  | .T1497_003 => chars% "T1497_003"
  | .T1498 => chars% "T1498"
  | .T1498_001 => chars% "T1498_001"
  | .T1498_002 => chars% "T1498_002"
  | .T1499 => chars% "T1499"
  | .T1499_001 => chars% "T1499_001"
  | .T1499_002 => chars% "T1499_002"
  | .T1499_003 => chars% "T1499_003"
  | .T1499_004 => chars% "T1499_004"
  | .T1505 => chars% "T1505"
  | .T1505_001 => chars% "T1505_001"
  | .T1505_002 => chars% "T1505_002"
  | .T1505_003 => chars% "T1505_003"
  | .T1518 => chars% "T1518"
  | .T1518_001 => chars% "T1518_001"
  | .T1525 => chars% "T1525"
  | .T1526 => chars% "T1526"
  | .T1528 => chars% "T1528"
  | .T1529 => chars% "T1529"
  | .T1530 => chars% "T1530"
  | .T1531 => chars% "T1531"
  | .T1534 => chars% "T1534"
  | .T1535 => chars% "T1535"
  | .T1537 => chars% "T1537"
  | .T1538 => chars% "T1538"
  | .T1539 => chars% "T1539"
  | .T1542 => chars% "T1542"
  | .T1542_001 => chars% "T1542_001"
  | .T1542_002 => chars% "T1542_002"
  | .T1542_003 => chars% "T1542_003"
  | .T1542_004 => chars% "T1542_004"
  | .T1542_005 => chars% "T1542_005"
  | .T1543 => chars% "T1543"
  | .T1543_001 => chars% "T1543_001"
  | .T1543_002 => chars% "T1543_002"
  | .T1543_003 => chars% "T1543_003"
  | .T1543_004 => chars% "T1543_004"
  | .T1546 => chars% "T1546"
  | .T1546_001 => chars% "T1546_001"
  | .T1546_002 => chars% "T1546_002"
  | .T1546_003 => chars% "T1546_003"
  | .T1546_004 => chars% "T1546_004"
  | .T1546_005 => chars% "T1546_005"
  | .T1546_006 => chars% "T1546_006"
  | .T1546_007 => chars% "T1546_007"
  | .T1546_008 => chars% "T1546_008"
  | .T1546_009 => chars% "T1546_009"
  | .T1546_010 => chars% "T1546_010"
  | .T1546_011 => chars% "T1546_011"
  | .T1546_012 => chars% "T1546_012"
  | .T1546_013 => chars% "T1546_013"
  | .T1546_014 => chars% "T1546_014"
  | .T1546_015 => chars% "T1546_015"
  | .T1547 => chars% "T1547"
  | .T1547_001 => chars% "T1547_001"
  | .T1547_002 => chars% "T1547_002"
  | .T1547_003 => chars% "T1547_003"
  | .T1547_004 => chars% "T1547_004"
  | .T1547_005 => chars% "T1547_005"
  | .T1547_006 => chars% "T1547_006"
  | .T1547_007 => chars% "T1547_007"
  | .T1547_008 => chars% "T1547_008"
  | .T1547_009 => chars% "T1547_009"
  | .T1547_010 => chars% "T1547_010"
  | .T1547_011 => chars% "T1547_011"
  | .T1547_012 => chars% "T1547_012"
  | .T1547_013 => chars% "T1547_013"
  | .T1547_014 => chars% "T1547_014"
  | .T1548 => chars% "T1548"
  | .T1548_001 => chars% "T1548_001"
  | .T1548_002 => chars% "T1548_002"
  | .T1548_003 => chars% "T1548_003"
  | .T1548_004 => chars% "T1548_004"
  | .T1550 => chars% "T1550"
  | .T1550_001 => chars% "T1550_001"
  | .T1550_002 => chars% "T1550_002"
  | .T1550_003 => chars% "T1550_003"
  | .T1550_004 => chars% "T1550_004"
  | .T1552 => chars% "T1552"
  | .T1552_001 => chars% "T1552_001"
  | .T1552_002 => chars% "T1552_002"
  | .T1552_003 => chars% "T1552_003"
  | .T1552_004 => chars% "T1552_004"
  | .T1552_005 => chars% "T1552_005"
  | .T1552_006 => chars% "T1552_006"
  | .T1552_007 => chars% "T1552_007"
  | .T1553 => chars% "T1553"
  | .T1553_001 => chars% "T1553_001"
  | .T1553_002 => chars% "T1553_002"
  | .T1553_003 => chars% "T1553_003"
  | .T1553_004 => chars% "T1553_004"
  | .T1553_005 => chars% "T1553_005"
  | .T1553_006 => chars% "T1553_006"
  | .T1554 => chars% "T1554"
  | .T1555 => chars% "T1555"
  | .T1555_001 => chars% "T1555_001"
  | .T1555_002 => chars% "T1555_002"
  | .T1555_003 => chars% "T1555_003"
  | .T1555_004 => chars% "T1555_004"
  | .T1555_005 => chars% "T1555_005"
  | .T1556 => chars% "T1556"
  | .T1556_001 => chars% "T1556_001"
  | .T1556_002 => chars% "T1556_002"
  | .T1556_003 => chars% "T1556_003"
  | .T1556_004 => chars% "T1556_004"
  | .T1557 => chars% "T1557"
  | .T1557_001 => chars% "T1557_001"
  | .T1557_002 => chars% "T1557_002"
  | .T1558 => chars% "T1558"
  | .T1558_001 => chars% "T1558_001"
  | .T1558_002 => chars% "T1558_002"
  | .T1558_003 => chars% "T1558_003"
  | .T1558_004 => chars% "T1558_004"
  | .T1559 => chars% "T1559"
  | .T1559_001 => chars% "T1559_001"
  | .T1559_002 => chars% "T1559_002"
  | .T1560 => chars% "T1560"
  | .T1560_001 => chars% "T1560_001"
  | .T1560_002 => chars% "T1560_002"
  | .T1560_003 => chars% "T1560_003"
  | .T1561 => chars% "T1561"
  | .T1561_001 => chars% "T1561_001"
  | .T1561_002 => chars% "T1561_002"
  | .T1562 => chars% "T1562"
  | .T1562_001 => chars% "T1562_001"
  | .T1562_002 => chars% "T1562_002"
  | .T1562_003 => chars% "T1562_003"
  | .T1562_004 => chars% "T1562_004"
  | .T1562_006 => chars% "T1562_006"
  | .T1562_007 => chars% "T1562_007"
  | .T1562_008 => chars% "T1562_008"
  | .T1563 => chars% "T1563"
  | .T1563_001 => chars% "T1563_001"
  | .T1563_002 => chars% "T1563_002"
  | .T1564 => chars% "T1564"
  | .T1564_001 => chars% "T1564_001"
  | .T1564_002 => chars% "T1564_002"
  | .T1564_003 => chars% "T1564_003"
  | .T1564_004 => chars% "T1564_004"
  | .T1564_005 => chars% "T1564_005"
  | .T1564_006 => chars% "T1564_006"
  | .T1564_007 => chars% "T1564_007"
  | .T1565 => chars% "T1565"
  | .T1565_001 => chars% "T1565_001"
  | .T1565_002 => chars% "T1565_002"
  | .T1565_003 => chars% "T1565_003"
  | .T1566 => chars% "T1566"
  | .T1566_001 => chars% "T1566_001"
  | .T1566_002 => chars% "T1566_002"
  | .T1566_003 => chars% "T1566_003"
  | .T1567 => chars% "T1567"
  | .T1567_001 => chars% "T1567_001"
  | .T1567_002 => chars% "T1567_002"
  | .T1568 => chars% "T1568"
  | .T1568_001 => chars% "T1568_001"
  | .T1568_002 => chars% "T1568_002"
  | .T1568_003 => chars% "T1568_003"
  | .T1569 => chars% "T1569"
  | .T1569_001 => chars% "T1569_001"
  | .T1569_002 => chars% "T1569_002"
  | .T1570 => chars% "T1570"
  | .T1571 => chars% "T1571"
  | .T1572 => chars% "T1572"
  | .T1573 => chars% "T1573"
  | .T1573_001 => chars% "T1573_001"
  | .T1573_002 => chars% "T1573_002"
  | .T1574 => chars% "T1574"
  | .T1574_001 => chars% "T1574_001"
  | .T1574_002 => chars% "T1574_002"
  | .T1574_004 => chars% "T1574_004"
  | .T1574_005 => chars% "T1574_005"
  | .T1574_006 => chars% "T1574_006"
  | .T1574_007 => chars% "T1574_007"
  | .T1574_008 => chars% "T1574_008"
  | .T1574_009 => chars% "T1574_009"
  | .T1574_010 => chars% "T1574_010"
  | .T1574_011 => chars% "T1574_011"
  | .T1574_012 => chars% "T1574_012"
  | .T1578 => chars% "T1578"
  | .T1578_001 => chars% "T1578_001"
  | .T1578_002 => chars% "T1578_002"
  | .T1578_003 => chars% "T1578_003"
  | .T1578_004 => chars% "T1578_004"
  | .T1580 => chars% "T1580"
  | .T1583 => chars% "T1583"
  | .T1583_001 => chars% "T1583_001"
  | .T1583_002 => chars% "T1583_002"
  | .T1583_003 => chars% "T1583_003"
  | .T1583_004 => chars% "T1583_004"
  | .T1583_005 => chars% "T1583_005"
  | .T1583_006 => chars% "T1583_006"
  | .T1584 => chars% "T1584"
  | .T1584_001 => chars% "T1584_001"
  | .T1584_002 => chars% "T1584_002"
  | .T1584_003 => chars% "T1584_003"
  | .T1584_004 => chars% "T1584_004"
  | .T1584_005 => chars% "T1584_005"
  | .T1584_006 => chars% "T1584_006"
  | .T1585 => chars% "T1585"
  | .T1585_001 => chars% "T1585_001"
  | .T1585_002 => chars% "T1585_002"
  | .T1586 => chars% "T1586"
  | .T1586_001 => chars% "T1586_001"
  | .T1586_002 => chars% "T1586_002"
  | .T1587 => chars% "T1587"
  | .T1587_001 => chars% "T1587_001"
  | .T1587_002 => chars% "T1587_002"
  | .T1587_003 => chars% "T1587_003"
  | .T1587_004 => chars% "T1587_004"
  | .T1588 => chars% "T1588"
  | .T1588_001 => chars% "T1588_001"
  | .T1588_002 => chars% "T1588_002"
  | .T1588_003 => chars% "T1588_003"
  | .T1588_004 => chars% "T1588_004"
  | .T1588_005 => chars% "T1588_005"
  | .T1588_006 => chars% "T1588_006"
  | .T1589 => chars% "T1589"
  | .T1589_001 => chars% "T1589_001"
  | .T1589_002 => chars% "T1589_002"
  | .T1589_003 => chars% "T1589_003"
  | .T1590 => chars% "T1590"
  | .T1590_001 => chars% "T1590_001"
  | .T1590_002 => chars% "T1590_002"
  | .T1590_003 => chars% "T1590_003"
  | .T1590_004 => chars% "T1590_004"
  | .T1590_005 => chars% "T1590_005"
  | .T1590_006 => chars% "T1590_006"
  | .T1591 => chars% "T1591"
  | .T1591_001 => chars% "T1591_001"
  | .T1591_002 => chars% "T1591_002"
  | .T1591_003 => chars% "T1591_003"
  | .T1591_004 => chars% "T1591_004"
  | .T1592 => chars% "T1592"
  | .T1592_001 => chars% "T1592_001"
  | .T1592_002 => chars% "T1592_002"
  | .T1592_003 => chars% "T1592_003"
  | .T1592_004 => chars% "T1592_004"
  | .T1593 => chars% "T1593"
  | .T1593_001 => chars% "T1593_001"
  | .T1593_002 => chars% "T1593_002"
  | .T1594 => chars% "T1594"
  | .T1595 => chars% "T1595"
  | .T1595_001 => chars% "T1595_001"
  | .T1595_002 => chars% "T1595_002"
  | .T1596 => chars% "T1596"
  | .T1596_001 => chars% "T1596_001"
  | .T1596_002 => chars% "T1596_002"
  | .T1596_003 => chars% "T1596_003"
  | .T1596_004 => chars% "T1596_004"
  | .T1596_005 => chars% "T1596_005"
  | .T1597 => chars% "T1597"
  | .T1597_001 => chars% "T1597_001"
  | .T1597_002 => chars% "T1597_002"
  | .T1598 => chars% "T1598"
  | .T1598_001 => chars% "T1598_001"
  | .T1598_002 => chars% "T1598_002"
  | .T1598_003 => chars% "T1598_003"
  | .T1599 => chars% "T1599"
  | .T1599_001 => chars% "T1599_001"
  | .T1600 => chars% "T1600"
  | .T1600_001 => chars% "T1600_001"
  | .T1600_002 => chars% "T1600_002"
  | .T1601 => chars% "T1601"
  | .T1601_001 => chars% "T1601_001"
  | .T1601_002 => chars% "T1601_002"
  | .T1602 => chars% "T1602"
  | .T1602_001 => chars% "T1602_001"
  | .T1602_002 => chars% "T1602_002"
  | .T1606 => chars% "T1606"
  | .T1606_001 => chars% "T1606_001"
  | .T1606_002 => chars% "T1606_002"
  | .T1608 => chars% "T1608"
  | .T1608_001 => chars% "T1608_001"
  | .T1608_002 => chars% "T1608_002"
  | .T1608_003 => chars% "T1608_003"
  | .T1608_004 => chars% "T1608_004"
  | .T1608_005 => chars% "T1608_005"
  | .T1609 => chars% "T1609"
  | .T1610 => chars% "T1610"
  | .T1611 => chars% "T1611"
  | .T1612 => chars% "T1612"
  | .T1613 => chars% "T1613"
  | .T1614 => chars% "T1614"
/-- The names the derived `Deserialize` knows, src/components/mitre.rs lines 893-3102, part 1. -/
def MitreTechniques.variants0 : List (Str × MitreTechniques) :=
  [(chars% "T1001", .T1001), (chars% "T1001_001", .T1001_001), (chars% "T1001_002", .T1001_002), (chars% "T1001_003", .T1001_003),
   (chars% "T1003", .T1003), (chars% "T1003_001", .T1003_001), (chars% "T1003_002", .T1003_002), (chars% "T1003_003", .T1003_003),
   (chars% "T1003_004", .T1003_004), (chars% "T1003_005", .T1003_005), (chars% "T1003_006", .T1003_006), (chars% "T1003_007", .T1003_007),
   (chars% "T1003_008", .T1003_008), (chars% "T1005", .T1005), (chars% "T1006", .T1006), (chars% "T1007", .T1007),
   (chars% "T1008", .T1008), (chars% "T1010", .T1010), (chars% "T1011", .T1011), (chars% "T1011_001", .T1011_001),
   (chars% "T1012", .T1012), (chars% "T1014", .T1014), (chars% "T1016", .T1016), (chars% "T1016_001", .T1016_001),
   (chars% "T1018", .T1018), (chars% "T1020", .T1020), (chars% "T1020_001", .T1020_001), (chars% "T1021", .T1021),
   (chars% "T1021_001", .T1021_001), (chars% "T1021_002", .T1021_002), (chars% "T1021_003", .T1021_003), (chars% "T1021_004", .T1021_004),
   (chars% "T1021_005", .T1021_005), (chars% "T1021_006", .T1021_006), (chars% "T1025", .T1025), (chars% "T1027", .T1027),
   (chars% "T1027_001", .T1027_001), (chars% "T1027_002", .T1027_002), (chars% "T1027_003", .T1027_003), (chars% "T1027_004", .T1027_004),
   (chars% "T1027_005", .T1027_005), (chars% "T1029", .T1029), (chars% "T1030", .T1030), (chars% "T1033", .T1033),
   (chars% "T1036", .T1036), (chars% "T1036_001", .T1036_001), (chars% "T1036_002", .T1036_002), (chars% "T1036_003", .T1036_003),
   (chars% "T1036_004", .T1036_004), (chars% "T1036_005", .T1036_005), (chars% "T1036_006", .T1036_006), (chars% "T1037", .T1037),
   (chars% "T1037_001", .T1037_001), (chars% "T1037_002", .T1037_002), (chars% "T1037_003", .T1037_003), (chars% "T1037_004", .T1037_004),
   (chars% "T1037_005", .T1037_005), (chars% "T1039", .T1039), (chars% "T1040", .T1040), (chars% "T1041", .T1041),
   (chars% "T1046", .T1046), (chars% "T1047", .T1047), (chars% "T1048", .T1048), (chars% "T1048_001", .T1048_001),
   (chars% "T1048_002", .T1048_002), (chars% "T1048_003", .T1048_003), (chars% "T1049", .T1049), (chars% "T1052", .T1052),
   (chars% "T1052_001", .T1052_001), (chars% "T1053", .T1053), (chars% "T1053_001", .T1053_001), (chars% "T1053_002", .T1053_002),
   (chars% "T1053_003", .T1053_003), (chars% "T1053_004", .T1053_004), (chars% "T1053_005", .T1053_005), (chars% "T1053_006", .T1053_006),
   (chars% "T1053_007", .T1053_007), (chars% "T1055", .T1055), (chars% "T1055_001", .T1055_001), (chars% "T1055_002", .T1055_002),
   (chars% "T1055_003", .T1055_003), (chars% "T1055_004", .T1055_004), (chars% "T1055_005", .T1055_005), (chars% "T1055_008", .T1055_008),
   (chars% "T1055_009", .T1055_009), (chars% "T1055_011", .T1055_011), (chars% "T1055_012", .T1055_012), (chars% "T1055_013", .T1055_013),
   (chars% "T1055_014", .T1055_014), (chars% "T1056", .T1056), (chars% "T1056_001", .T1056_001), (chars% "T1056_002", .T1056_002),
   (chars% "T1056_003", .T1056_003), (chars% "T1056_004", .T1056_004), (chars% "T1057", .T1057), (chars% "T1059", .T1059),
   (chars% "T1059_001", .T1059_001), (chars% "T1059_002", .T1059_002), (chars% "T1059_003", .T1059_003), (chars% "T1059_004", .T1059_004)]
/-- The names the derived `Deserialize` knows, src/components/mitre.rs lines 893-3102, part 2. -/
def MitreTechniques.variants1 : List (Str × MitreTechniques) :=
  [(chars% "T1059_005", .T1059_005), (chars% "T1059_006", .T1059_006), (chars% "T1059_007", .T1059_007), (chars% "T1059_008", .T1059_008),
   (chars% "T1068", .T1068), (chars% "T1069", .T1069), (chars% "T1069_001", .T1069_001), (chars% "T1069_002", .T1069_002),
   (chars% "T1069_003", .T1069_003), (chars% "T1070", .T1070), (chars% "T1070_001", .T1070_001), (chars% "T1070_002", .T1070_002),
   (chars% "T1070_003", .T1070_003), (chars% "T1070_004", .T1070_004), (chars% "T1070_005", .T1070_005), (chars% "T1070_006", .T1070_006),
   (chars% "T1071", .T1071), (chars% "T1071_001", .T1071_001), (chars% "T1071_002", .T1071_002), (chars% "T1071_003", .T1071_003),
   (chars% "T1071_004", .T1071_004), (chars% "T1072", .T1072), (chars% "T1074", .T1074), (chars% "T1074_001", .T1074_001),
   (chars% "T1074_002", .T1074_002), (chars% "T1078", .T1078), (chars% "T1078_001", .T1078_001), (chars% "T1078_002", .T1078_002),
   (chars% "T1078_003", .T1078_003), (chars% "T1078_004", .T1078_004), (chars% "T1080", .T1080), (chars% "T1082", .T1082),
   (chars% "T1083", .T1083), (chars% "T1087", .T1087), (chars% "T1087_001", .T1087_001), (chars% "T1087_002", .T1087_002),
   (chars% "T1087_003", .T1087_003), (chars% "T1087_004", .T1087_004), (chars% "T1090", .T1090), (chars% "T1090_001", .T1090_001),
   (chars% "T1090_002", .T1090_002), (chars% "T1090_003", .T1090_003), (chars% "T1090_004", .T1090_004), (chars% "T1091", .T1091),
   (chars% "T1092", .T1092), (chars% "T1095", .T1095), (chars% "T1098", .T1098), (chars% "T1098_001", .T1098_001),
   (chars% "T1098_002", .T1098_002), (chars% "T1098_003", .T1098_003), (chars% "T1098_004", .T1098_004), (chars% "T1102", .T1102),
   (chars% "T1102_001", .T1102_001), (chars% "T1102_002", .T1102_002), (chars% "T1102_003", .T1102_003), (chars% "T1104", .T1104),
   (chars% "T1105", .T1105), (chars% "T1106", .T1106), (chars% "T1110", .T1110), (chars% "T1110_001", .T1110_001),
   (chars% "T1110_002", .T1110_002), (chars% "T1110_003", .T1110_003), (chars% "T1110_004", .T1110_004), (chars% "T1111", .T1111),
   (chars% "T1112", .T1112), (chars% "T1113", .T1113), (chars% "T1114", .T1114), (chars% "T1114_001", .T1114_001),
   (chars% "T1114_002", .T1114_002), (chars% "T1114_003", .T1114_003), (chars% "T1115", .T1115), (chars% "T1119", .T1119),
   (chars% "T1120", .T1120), (chars% "T1123", .T1123), (chars% "T1124", .T1124), (chars% "T1125", .T1125),
   (chars% "T1127", .T1127), (chars% "T1127_001", .T1127_001), (chars% "T1129", .T1129), (chars% "T1132", .T1132),
   (chars% "T1132_001", .T1132_001), (chars% "T1132_002", .T1132_002), (chars% "T1133", .T1133), (chars% "T1134", .T1134),
   (chars% "T1134_001", .T1134_001), (chars% "T1134_002", .T1134_002), (chars% "T1134_003", .T1134_003), (chars% "T1134_004", .T1134_004),
   (chars% "T1134_005", .T1134_005), (chars% "T1135", .T1135), (chars% "T1136", .T1136), (chars% "T1136_001", .T1136_001),
   (chars% "T1136_002", .T1136_002), (chars% "T1136_003", .T1136_003), (chars% "T1137", .T1137), (chars% "T1137_001", .T1137_001),
   (chars% "T1137_002", .T1137_002), (chars% "T1137_003", .T1137_003), (chars% "T1137_004", .T1137_004), (chars% "T1137_005", .T1137_005)]
/-- The names the derived `Deserialize` knows, src/components/mitre.rs lines 893-3102, part 3. -/
def MitreTechniques.variants2 : List (Str × MitreTechniques) :=
  [(chars% "T1137_006", .T1137_006), (chars% "T1140", .T1140), (chars% "T1176", .T1176), (chars% "T1185", .T1185),
   (chars% "T1187", .T1187), (chars% "T1189", .T1189), (chars% "T1190", .T1190), (chars% "T1195", .T1195),
   (chars% "T1195_001", .T1195_001), (chars% "T1195_002", .T1195_002), (chars% "T1195_003", .T1195_003), (chars% "T1197", .T1197),
   (chars% "T1199", .T1199), (chars% "T1200", .T1200), (chars% "T1201", .T1201), (chars% "T1202", .T1202),
   (chars% "T1203", .T1203), (chars% "T1204", .T1204), (chars% "T1204_001", .T1204_001), (chars% "T1204_002", .T1204_002),
   (chars% "T1204_003", .T1204_003), (chars% "T1205", .T1205), (chars% "T1205_001", .T1205_001), (chars% "T1207", .T1207),
   (chars% "T1210", .T1210), (chars% "T1211", .T1211), (chars% "T1212", .T1212), (chars% "T1213", .T1213),
   (chars% "T1213_001", .T1213_001), (chars% "T1213_002", .T1213_002), (chars% "T1216", .T1216), (chars% "T1216_001", .T1216_001),
   (chars% "T1217", .T1217), (chars% "T1218", .T1218), (chars% "T1218_001", .T1218_001), (chars% "T1218_002", .T1218_002),
   (chars% "T1218_003", .T1218_003), (chars% "T1218_004", .T1218_004), (chars% "T1218_005", .T1218_005), (chars% "T1218_007", .T1218_007),
   (chars% "T1218_008", .T1218_008), (chars% "T1218_009", .T1218_009), (chars% "T1218_010", .T1218_010), (chars% "T1218_011", .T1218_011),
   (chars% "T1218_012", .T1218_012), (chars% "T1219", .T1219), (chars% "T1220", .T1220), (chars% "T1221", .T1221),
   (chars% "T1222", .T1222), (chars% "T1222_001", .T1222_001), (chars% "T1222_002", .T1222_002), (chars% "T1480", .T1480),
   (chars% "T1480_001", .T1480_001), (chars% "T1482", .T1482), (chars% "T1484", .T1484), (chars% "T1484_001", .T1484_001),
   (chars% "T1484_002", .T1484_002), (chars% "T1485", .T1485), (chars% "T1486", .T1486), (chars% "T1489", .T1489),
   (chars% "T1490", .T1490), (chars% "T1491", .T1491), (chars% "T1491_001", .T1491_001), (chars% "T1491_002", .T1491_002),
   (chars% "T1495", .T1495), (chars% "T1496", .T1496), (chars% "T1497", .T1497), (chars% "T1497_001", .T1497_001),
   (chars% "T1497_002", .T1497_002), (chars% "T1497_003", .T1497_003), (chars% "T1498", .T1498), (chars% "T1498_001", .T1498_001),
   (chars% "T1498_002", .T1498_002), (chars% "T1499", .T1499), (chars% "T1499_001", .T1499_001), (chars% "T1499_002", .T1499_002),
   (chars% "T1499_003", .T1499_003), (chars% "T1499_004", .T1499_004), (chars% "T1505", .T1505), (chars% "T1505_001", .T1505_001),
   (chars% "T1505_002", .T1505_002), (chars% "T1505_003", .T1505_003), (chars% "T1518", .T1518), (chars% "T1518_001", .T1518_001),
   (chars% "T1525", .T1525), (chars% "T1526", .T1526), (chars% "T1528", .T1528), (chars% "T1529", .T1529),
   (chars% "T1530", .T1530), (chars% "T1531", .T1531), (chars% "T1534", .T1534), (chars% "T1535", .T1535),
   (chars% "T1537", .T1537), (chars% "T1538", .T1538), (chars% "T1539", .T1539), (chars% "T1542", .T1542),
   (chars% "T1542_001", .T1542_001), (chars% "T1542_002", .T1542_002), (chars% "T1542_003", .T1542_003), (chars% "T1542_004", .T1542_004)]
/-- The names the derived `Deserialize` knows, src/components/mitre.rs lines 893-3102, part 4. -/
def MitreTechniques.variants3 : List (Str × MitreTechniques) :=
  [(chars% "T1542_005", .T1542_005), (chars% "T1543", .T1543), (chars% "T1543_001", .T1543_001), (chars% "T1543_002", .T1543_002),
   (chars% "T1543_003", .T1543_003), (chars% "T1543_004", .T1543_004), (chars% "T1546", .T1546), (chars% "T1546_001", .T1546_001),
   (chars% "T1546_002", .T1546_002), (chars% "T1546_003", .T1546_003), (chars% "T1546_004", .T1546_004), (chars% "T1546_005", .T1546_005),
   (chars% "T1546_006", .T1546_006), (chars% "T1546_007", .T1546_007), (chars% "T1546_008", .T1546_008), (chars% "T1546_009", .T1546_009),
   (chars% "T1546_010", .T1546_010), (chars% "T1546_011", .T1546_011), (chars% "T1546_012", .T1546_012), (chars% "T1546_013", .T1546_013),
   (chars% "T1546_014", .T1546_014), (chars% "T1546_015", .T1546_015), (chars% "T1547", .T1547), (chars% "T1547_001", .T1547_001),
   (chars% "T1547_002", .T1547_002), (chars% "T1547_003", .T1547_003), (chars% "T1547_004", .T1547_004), (chars% "T1547_005", .T1547_005),
   (chars% "T1547_006", .T1547_006), (chars% "T1547_007", .T1547_007), (chars% "T1547_008", .T1547_008), (chars% "T1547_009", .T1547_009),
   (chars% "T1547_010", .T1547_010), (chars% "T1547_011", .T1547_011), (chars% "T1547_012", .T1547_012), (chars% "T1547_013", .T1547_013),
   (chars% "T1547_014", .T1547_014), (chars% "T1548", .T1548), (chars% "T1548_001", .T1548_001), (chars% "T1548_002", .T1548_002),
   (chars% "T1548_003", .T1548_003), (chars% "T1548_004", .T1548_004), (chars% "T1550", .T1550), (chars% "T1550_001", .T1550_001),
   (chars% "T1550_002", .T1550_002), (chars% "T1550_003", .T1550_003), (chars% "T1550_004", .T1550_004), (chars% "T1552", .T1552),
   (chars% "T1552_001", .T1552_001), (chars% "T1552_002", .T1552_002), (chars% "T1552_003", .T1552_003), (chars% "T1552_004", .T1552_004),
   (chars% "T1552_005", .T1552_005), (chars% "T1552_006", .T1552_006), (chars% "T1552_007", .T1552_007), (chars% "T1553", .T1553),
   (chars% "T1553_001", .T1553_001), (chars% "T1553_002", .T1553_002), (chars% "T1553_003", .T1553_003), (chars% "T1553_004", .T1553_004),
   (chars% "T1553_005", .T1553_005), (chars% "T1553_006", .T1553_006), (chars% "T1554", .T1554), (chars% "T1555", .T1555),
   (chars% "T1555_001", .T1555_001), (chars% "T1555_002", .T1555_002), (chars% "T1555_003", .T1555_003), (chars% "T1555_004", .T1555_004),
   (chars% "T1555_005", .T1555_005), (chars% "T1556", .T1556), (chars% "T1556_001", .T1556_001), (chars% "T1556_002", .T1556_002),
   (chars% "T1556_003", .T1556_003), (chars% "T1556_004", .T1556_004), (chars% "T1557", .T1557), (chars% "T1557_001", .T1557_001),
   (chars% "T1557_002", .T1557_002), (chars% "T1558", .T1558), (chars% "T1558_001", .T1558_001), (chars% "T1558_002", .T1558_002),
   (chars% "T1558_003", .T1558_003), (chars% "T1558_004", .T1558_004), (chars% "T1559", .T1559), (chars% "T1559_001", .T1559_001),
   (chars% "T1559_002", .T1559_002), (chars% "T1560", .T1560), (chars% "T1560_001", .T1560_001), (chars% "T1560_002", .T1560_002),
   (chars% "T1560_003", .T1560_003), (chars% "T1561", .T1561), (chars% "T1561_001", .T1561_001), (chars% "T1561_002", .T1561_002),
   (chars% "T1562", .T1562), (chars% "T1562_001", .T1562_001), (chars% "T1562_002", .T1562_002), (chars% "T1562_003", .T1562_003),
   (chars% "T1562_004", .T1562_004), (chars% "T1562_006", .T1562_006), (chars% "T1562_007", .T1562_007), (chars% "T1562_008", .T1562_008)]
/-- The names the derived `Deserialize` knows, src/components/mitre.rs lines 893-3102, part 5. -/
def MitreTechniques.variants4 : List (Str × MitreTechniques) :=
  [(chars% "T1563", .T1563), (chars% "T1563_001", .T1563_001), (chars% "T1563_002", .T1563_002), (chars% "T1564", .T1564),
   (chars% "T1564_001", .T1564_001), (chars% "T1564_002", .T1564_002), (chars% "T1564_003", .T1564_003), (chars% "T1564_004", .T1564_004),
   (chars% "T1564_005", .T1564_005), (chars% "T1564_006", .T1564_006), (chars% "T1564_007", .T1564_007), (chars% "T1565", .T1565),
   (chars% "T1565_001", .T1565_001), (chars% "T1565_002", .T1565_002), (chars% "T1565_003", .T1565_003), (chars% "T1566", .T1566),
   (chars% "T1566_001", .T1566_001), (chars% "T1566_002", .T1566_002), (chars% "T1566_003", .T1566_003), (chars% "T1567", .T1567),
   (chars% "T1567_001", .T1567_001), (chars% "T1567_002", .T1567_002), (chars% "T1568", .T1568), (chars% "T1568_001", .T1568_001),
   (chars% "T1568_002", .T1568_002), (chars% "T1568_003", .T1568_003), (chars% "T1569", .T1569), (chars% "T1569_001", .T1569_001),
   (chars% "T1569_002", .T1569_002), (chars% "T1570", .T1570), (chars% "T1571", .T1571), (chars% "T1572", .T1572),
   (chars% "T1573", .T1573), (chars% "T1573_001", .T1573_001), (chars% "T1573_002", .T1573_002), (chars% "T1574", .T1574),
   (chars% "T1574_001", .T1574_001), (chars% "T1574_002", .T1574_002), (chars% "T1574_004", .T1574_004), (chars% "T1574_005", .T1574_005),
   (chars% "T1574_006", .T1574_006), (chars% "T1574_007", .T1574_007), (chars% "T1574_008", .T1574_008), (chars% "T1574_009", .T1574_009),
   (chars% "T1574_010", .T1574_010), (chars% "T1574_011", .T1574_011), (chars% "T1574_012", .T1574_012), (chars% "T1578", .T1578),
   (chars% "T1578_001", .T1578_001), (chars% "T1578_002", .T1578_002), (chars% "T1578_003", .T1578_003), (chars% "T1578_004", .T1578_004),
   (chars% "T1580", .T1580), (chars% "T1583", .T1583), (chars% "T1583_001", .T1583_001), (chars% "T1583_002", .T1583_002),
   (chars% "T1583_003", .T1583_003), (chars% "T1583_004", .T1583_004), (chars% "T1583_005", .T1583_005), (chars% "T1583_006", .T1583_006),
   (chars% "T1584", .T1584), (chars% "T1584_001", .T1584_001), (chars% "T1584_002", .T1584_002), (chars% "T1584_003", .T1584_003),
   (chars% "T1584_004", .T1584_004), (chars% "T1584_005", .T1584_005), (chars% "T1584_006", .T1584_006), (chars% "T1585", .T1585),
   (chars% "T1585_001", .T1585_001), (chars% "T1585_002", .T1585_002), (chars% "T1586", .T1586), (chars% "T1586_001", .T1586_001),
   (chars% "T1586_002", .T1586_002), (chars% "T1587", .T1587), (chars% "T1587_001", .T1587_001), (chars% "T1587_002", .T1587_002),
   (chars% "T1587_003", .T1587_003), (chars% "T1587_004", .T1587_004), (chars% "T1588", .T1588), (chars% "T1588_001", .T1588_001),
   (chars% "T1588_002", .T1588_002), (chars% "T1588_003", .T1588_003), (chars% "T1588_004", .T1588_004), (chars% "T1588_005", .T1588_005),
   (chars% "T1588_006", .T1588_006), (chars% "T1589", .T1589), (chars% "T1589_001", .T1589_001), (chars% "T1589_002", .T1589_002),
   (chars% "T1589_003", .T1589_003), (chars% "T1590", .T1590), (chars% "T1590_001", .T1590_001), (chars% "T1590_002", .T1590_002),
   (chars% "T1590_003", .T1590_003), (chars% "T1590_004", .T1590_004), (chars% "T1590_005", .T1590_005), (chars% "T1590_006", .T1590_006),
   (chars% "T1591", .T1591), (chars% "T1591_001", .T1591_001), (chars% "T1591_002", .T1591_002), (chars% "T1591_003", .T1591_003)]
/-- The names the derived `Deserialize` knows, src/components/mitre.rs lines 893-3102, part 6. -/
def MitreTechniques.variants5 : List (Str × MitreTechniques) :=
  [(chars% "T1591_004", .T1591_004), (chars% "T1592", .T1592), (chars% "T1592_001", .T1592_001), (chars% "T1592_002", .T1592_002),
   (chars% "T1592_003", .T1592_003), (chars% "T1592_004", .T1592_004), (chars% "T1593", .T1593), (chars% "T1593_001", .T1593_001),
   (chars% "T1593_002", .T1593_002), (chars% "T1594", .T1594), (chars% "T1595", .T1595), (chars% "T1595_001", .T1595_001),
   (chars% "T1595_002", .T1595_002), (chars% "T1596", .T1596), (chars% "T1596_001", .T1596_001), (chars% "T1596_002", .T1596_002),
   (chars% "T1596_003", .T1596_003), (chars% "T1596_004", .T1596_004), (chars% "T1596_005", .T1596_005), (chars% "T1597", .T1597),
   (chars% "T1597_001", .T1597_001), (chars% "T1597_002", .T1597_002), (chars% "T1598", .T1598), (chars% "T1598_001", .T1598_001),
   (chars% "T1598_002", .T1598_002), (chars% "T1598_003", .T1598_003), (chars% "T1599", .T1599), (chars% "T1599_001", .T1599_001),
   (chars% "T1600", .T1600), (chars% "T1600_001", .T1600_001), (chars% "T1600_002", .T1600_002), (chars% "T1601", .T1601),
   (chars% "T1601_001", .T1601_001), (chars% "T1601_002", .T1601_002), (chars% "T1602", .T1602), (chars% "T1602_001", .T1602_001),
   (chars% "T1602_002", .T1602_002), (chars% "T1606", .T1606), (chars% "T1606_001", .T1606_001), (chars% "T1606_002", .T1606_002),
   (chars% "T1608", .T1608), (chars% "T1608_001", .T1608_001), (chars% "T1608_002", .T1608_002), (chars% "T1608_003", .T1608_003),
   (chars% "T1608_004", .T1608_004), (chars% "T1608_005", .T1608_005), (chars% "T1609", .T1609), (chars% "T1610", .T1610),
   (chars% "T1611", .T1611), (chars% "T1612", .T1612), (chars% "T1613", .T1613), (chars% "T1614", .T1614)]
/-- All of them, src/components/mitre.rs lines 893-3102. -/
def MitreTechniques.variants : List (Str × MitreTechniques) := variants0 ++ variants1 ++ variants2 ++ variants3 ++ variants4 ++ variants5

end USiem
