import Verif.Model.Mitre
/- The ATT&CK identifier of each tactic and technique. Generated by tools/gen_mitre.py from the names of the enum variants. -/
namespace USiem.Spec

/-- The number of a tactic: TA0043 is 43. -/
def tacticNumber : MitreTactics → Nat
  | .TA0043 => 43 | .TA0042 => 42 | .TA0001 => 1 | .TA0002 => 2 | .TA0003 => 3 | .TA0004 => 4 | .TA0005 => 5
  | .TA0006 => 6 | .TA0007 => 7 | .TA0008 => 8 | .TA0009 => 9 | .TA0011 => 11 | .TA0010 => 10 | .TA0040 => 40
  | .TA0027 => 27 | .TA0041 => 41 | .TA0028 => 28 | .TA0029 => 29 | .TA0030 => 30 | .TA0031 => 31 | .TA0032 => 32
  | .TA0033 => 33 | .TA0035 => 35 | .TA0037 => 37 | .TA0036 => 36 | .TA0034 => 34 | .TA0038 => 38 | .TA0039 => 39

/-- The number of a technique and of its sub-technique: T1059_001 is (1059, some 1). -/
def techniqueNumber : MitreTechniques → Nat × Option Nat
  | .T1001 => (1001, none) | .T1001_001 => (1001, some 1) | .T1001_002 => (1001, some 2)
  | .T1001_003 => (1001, some 3) | .T1003 => (1003, none) | .T1003_001 => (1003, some 1)
  | .T1003_002 => (1003, some 2) | .T1003_003 => (1003, some 3) | .T1003_004 => (1003, some 4)
  | .T1003_005 => (1003, some 5) | .T1003_006 => (1003, some 6) | .T1003_007 => (1003, some 7)
  | .T1003_008 => (1003, some 8) | .T1005 => (1005, none) | .T1006 => (1006, none) | .T1007 => (1007, none)
  | .T1008 => (1008, none) | .T1010 => (1010, none) | .T1011 => (1011, none) | .T1011_001 => (1011, some 1)
  | .T1012 => (1012, none) | .T1014 => (1014, none) | .T1016 => (1016, none) | .T1016_001 => (1016, some 1)
  | .T1018 => (1018, none) | .T1020 => (1020, none) | .T1020_001 => (1020, some 1) | .T1021 => (1021, none)
  | .T1021_001 => (1021, some 1) | .T1021_002 => (1021, some 2) | .T1021_003 => (1021, some 3)
  | .T1021_004 => (1021, some 4) | .T1021_005 => (1021, some 5) | .T1021_006 => (1021, some 6)
  | .T1025 => (1025, none) | .T1027 => (1027, none) | .T1027_001 => (1027, some 1) | .T1027_002 => (1027, some 2)
  | .T1027_003 => (1027, some 3) | .T1027_004 => (1027, some 4) | .T1027_005 => (1027, some 5)
  | .T1029 => (1029, none) | .T1030 => (1030, none) | .T1033 => (1033, none) | .T1036 => (1036, none)
  | .T1036_001 => (1036, some 1) | .T1036_002 => (1036, some 2) | .T1036_003 => (1036, some 3)
  | .T1036_004 => (1036, some 4) | .T1036_005 => (1036, some 5) | .T1036_006 => (1036, some 6)
  | .T1037 => (1037, none) | .T1037_001 => (1037, some 1) | .T1037_002 => (1037, some 2)
  | .T1037_003 => (1037, some 3) | .T1037_004 => (1037, some 4) | .T1037_005 => (1037, some 5)
  | .T1039 => (1039, none) | .T1040 => (1040, none) | .T1041 => (1041, none) | .T1046 => (1046, none)
  | .T1047 => (1047, none) | .T1048 => (1048, none) | .T1048_001 => (1048, some 1) | .T1048_002 => (1048, some 2)
  | .T1048_003 => (1048, some 3) | .T1049 => (1049, none) | .T1052 => (1052, none) | .T1052_001 => (1052, some 1)
  | .T1053 => (1053, none) | .T1053_001 => (1053, some 1) | .T1053_002 => (1053, some 2)
  | .T1053_003 => (1053, some 3) | .T1053_004 => (1053, some 4) | .T1053_005 => (1053, some 5)
  | .T1053_006 => (1053, some 6) | .T1053_007 => (1053, some 7) | .T1055 => (1055, none)
  | .T1055_001 => (1055, some 1) | .T1055_002 => (1055, some 2) | .T1055_003 => (1055, some 3)
  | .T1055_004 => (1055, some 4) | .T1055_005 => (1055, some 5) | .T1055_008 => (1055, some 8)
  | .T1055_009 => (1055, some 9) | .T1055_011 => (1055, some 11) | .T1055_012 => (1055, some 12)
  | .T1055_013 => (1055, some 13) | .T1055_014 => (1055, some 14) | .T1056 => (1056, none)
  | .T1056_001 => (1056, some 1) | .T1056_002 => (1056, some 2) | .T1056_003 => (1056, some 3)
  | .T1056_004 => (1056, some 4) | .T1057 => (1057, none) | .T1059 => (1059, none) | .T1059_001 => (1059, some 1)
  | .T1059_002 => (1059, some 2) | .T1059_003 => (1059, some 3) | .T1059_004 => (1059, some 4)
  | .T1059_005 => (1059, some 5) | .T1059_006 => (1059, some 6) | .T1059_007 => (1059, some 7)
  | .T1059_008 => (1059, some 8) | .T1068 => (1068, none) | .T1069 => (1069, none) | .T1069_001 => (1069, some 1)
  | .T1069_002 => (1069, some 2) | .T1069_003 => (1069, some 3) | .T1070 => (1070, none)
  | .T1070_001 => (1070, some 1) | .T1070_002 => (1070, some 2) | .T1070_003 => (1070, some 3)
  | .T1070_004 => (1070, some 4) | .T1070_005 => (1070, some 5) | .T1070_006 => (1070, some 6)
  | .T1071 => (1071, none) | .T1071_001 => (1071, some 1) | .T1071_002 => (1071, some 2)
  | .T1071_003 => (1071, some 3) | .T1071_004 => (1071, some 4) | .T1072 => (1072, none) | .T1074 => (1074, none)
  | .T1074_001 => (1074, some 1) | .T1074_002 => (1074, some 2) | .T1078 => (1078, none)
  | .T1078_001 => (1078, some 1) | .T1078_002 => (1078, some 2) | .T1078_003 => (1078, some 3)
  | .T1078_004 => (1078, some 4) | .T1080 => (1080, none) | .T1082 => (1082, none) | .T1083 => (1083, none)
  | .T1087 => (1087, none) | .T1087_001 => (1087, some 1) | .T1087_002 => (1087, some 2)
  | .T1087_003 => (1087, some 3) | .T1087_004 => (1087, some 4) | .T1090 => (1090, none)
  | .T1090_001 => (1090, some 1) | .T1090_002 => (1090, some 2) | .T1090_003 => (1090, some 3)
  | .T1090_004 => (1090, some 4) | .T1091 => (1091, none) | .T1092 => (1092, none) | .T1095 => (1095, none)
  | .T1098 => (1098, none) | .T1098_001 => (1098, some 1) | .T1098_002 => (1098, some 2)
  | .T1098_003 => (1098, some 3) | .T1098_004 => (1098, some 4) | .T1102 => (1102, none)
  | .T1102_001 => (1102, some 1) | .T1102_002 => (1102, some 2) | .T1102_003 => (1102, some 3)
  | .T1104 => (1104, none) | .T1105 => (1105, none) | .T1106 => (1106, none) | .T1110 => (1110, none)
  | .T1110_001 => (1110, some 1) | .T1110_002 => (1110, some 2) | .T1110_003 => (1110, some 3)
  | .T1110_004 => (1110, some 4) | .T1111 => (1111, none) | .T1112 => (1112, none) | .T1113 => (1113, none)
  | .T1114 => (1114, none) | .T1114_001 => (1114, some 1) | .T1114_002 => (1114, some 2)
  | .T1114_003 => (1114, some 3) | .T1115 => (1115, none) | .T1119 => (1119, none) | .T1120 => (1120, none)
  | .T1123 => (1123, none) | .T1124 => (1124, none) | .T1125 => (1125, none) | .T1127 => (1127, none)
  | .T1127_001 => (1127, some 1) | .T1129 => (1129, none) | .T1132 => (1132, none) | .T1132_001 => (1132, some 1)
  | .T1132_002 => (1132, some 2) | .T1133 => (1133, none) | .T1134 => (1134, none) | .T1134_001 => (1134, some 1)
  | .T1134_002 => (1134, some 2) | .T1134_003 => (1134, some 3) | .T1134_004 => (1134, some 4)
  | .T1134_005 => (1134, some 5) | .T1135 => (1135, none) | .T1136 => (1136, none) | .T1136_001 => (1136, some 1)
  | .T1136_002 => (1136, some 2) | .T1136_003 => (1136, some 3) | .T1137 => (1137, none)
  | .T1137_001 => (1137, some 1) | .T1137_002 => (1137, some 2) | .T1137_003 => (1137, some 3)
  | .T1137_004 => (1137, some 4) | .T1137_005 => (1137, some 5) | .T1137_006 => (1137, some 6)
  | .T1140 => (1140, none) | .T1176 => (1176, none) | .T1185 => (1185, none) | .T1187 => (1187, none)
  | .T1189 => (1189, none) | .T1190 => (1190, none) | .T1195 => (1195, none) | .T1195_001 => (1195, some 1)
  | .T1195_002 => (1195, some 2) | .T1195_003 => (1195, some 3) | .T1197 => (1197, none) | .T1199 => (1199, none)
  | .T1200 => (1200, none) | .T1201 => (1201, none) | .T1202 => (1202, none) | .T1203 => (1203, none)
  | .T1204 => (1204, none) | .T1204_001 => (1204, some 1) | .T1204_002 => (1204, some 2)
  | .T1204_003 => (1204, some 3) | .T1205 => (1205, none) | .T1205_001 => (1205, some 1) | .T1207 => (1207, none)
  | .T1210 => (1210, none) | .T1211 => (1211, none) | .T1212 => (1212, none) | .T1213 => (1213, none)
  | .T1213_001 => (1213, some 1) | .T1213_002 => (1213, some 2) | .T1216 => (1216, none)
  | .T1216_001 => (1216, some 1) | .T1217 => (1217, none) | .T1218 => (1218, none) | .T1218_001 => (1218, some 1)
  | .T1218_002 => (1218, some 2) | .T1218_003 => (1218, some 3) | .T1218_004 => (1218, some 4)
  | .T1218_005 => (1218, some 5) | .T1218_007 => (1218, some 7) | .T1218_008 => (1218, some 8)
  | .T1218_009 => (1218, some 9) | .T1218_010 => (1218, some 10) | .T1218_011 => (1218, some 11)
  | .T1218_012 => (1218, some 12) | .T1219 => (1219, none) | .T1220 => (1220, none) | .T1221 => (1221, none)
  | .T1222 => (1222, none) | .T1222_001 => (1222, some 1) | .T1222_002 => (1222, some 2) | .T1480 => (1480, none)
  | .T1480_001 => (1480, some 1) | .T1482 => (1482, none) | .T1484 => (1484, none) | .T1484_001 => (1484, some 1)
  | .T1484_002 => (1484, some 2) | .T1485 => (1485, none) | .T1486 => (1486, none) | .T1489 => (1489, none)
  | .T1490 => (1490, none) | .T1491 => (1491, none) | .T1491_001 => (1491, some 1) | .T1491_002 => (1491, some 2)
  | .T1495 => (1495, none) | .T1496 => (1496, none) | .T1497 => (1497, none) | .T1497_001 => (1497, some 1)
  | .T1497_002 => (1497, some 2) | .T1497_003 => (1497, some 3) | .T1498 => (1498, none)
  | .T1498_001 => (1498, some 1) | .T1498_002 => (1498, some 2) | .T1499 => (1499, none)
  | .T1499_001 => (1499, some 1) | .T1499_002 => (1499, some 2) | .T1499_003 => (1499, some 3)
  | .T1499_004 => (1499, some 4) | .T1505 => (1505, none) | .T1505_001 => (1505, some 1)
  | .T1505_002 => (1505, some 2) | .T1505_003 => (1505, some 3) | .T1518 => (1518, none)
  | .T1518_001 => (1518, some 1) | .T1525 => (1525, none) | .T1526 => (1526, none) | .T1528 => (1528, none)
  | .T1529 => (1529, none) | .T1530 => (1530, none) | .T1531 => (1531, none) | .T1534 => (1534, none)
  | .T1535 => (1535, none) | .T1537 => (1537, none) | .T1538 => (1538, none) | .T1539 => (1539, none)
  | .T1542 => (1542, none) | .T1542_001 => (1542, some 1) | .T1542_002 => (1542, some 2)
  | .T1542_003 => (1542, some 3) | .T1542_004 => (1542, some 4) | .T1542_005 => (1542, some 5)
  | .T1543 => (1543, none) | .T1543_001 => (1543, some 1) | .T1543_002 => (1543, some 2)
  | .T1543_003 => (1543, some 3) | .T1543_004 => (1543, some 4) | .T1546 => (1546, none)
  | .T1546_001 => (1546, some 1) | .T1546_002 => (1546, some 2) | .T1546_003 => (1546, some 3)
  | .T1546_004 => (1546, some 4) | .T1546_005 => (1546, some 5) | .T1546_006 => (1546, some 6)
  | .T1546_007 => (1546, some 7) | .T1546_008 => (1546, some 8) | .T1546_009 => (1546, some 9)
  | .T1546_010 => (1546, some 10) | .T1546_011 => (1546, some 11) | .T1546_012 => (1546, some 12)
  | .T1546_013 => (1546, some 13) | .T1546_014 => (1546, some 14) | .T1546_015 => (1546, some 15)
  | .T1547 => (1547, none) | .T1547_001 => (1547, some 1) | .T1547_002 => (1547, some 2)
  | .T1547_003 => (1547, some 3) | .T1547_004 => (1547, some 4) | .T1547_005 => (1547, some 5)
  | .T1547_006 => (1547, some 6) | .T1547_007 => (1547, some 7) | .T1547_008 => (1547, some 8)
  | .T1547_009 => (1547, some 9) | .T1547_010 => (1547, some 10) | .T1547_011 => (1547, some 11)
  | .T1547_012 => (1547, some 12) | .T1547_013 => (1547, some 13) | .T1547_014 => (1547, some 14)
  | .T1548 => (1548, none) | .T1548_001 => (1548, some 1) | .T1548_002 => (1548, some 2)
  | .T1548_003 => (1548, some 3) | .T1548_004 => (1548, some 4) | .T1550 => (1550, none)
  | .T1550_001 => (1550, some 1) | .T1550_002 => (1550, some 2) | .T1550_003 => (1550, some 3)
  | .T1550_004 => (1550, some 4) | .T1552 => (1552, none) | .T1552_001 => (1552, some 1)
  | .T1552_002 => (1552, some 2) | .T1552_003 => (1552, some 3) | .T1552_004 => (1552, some 4)
  | .T1552_005 => (1552, some 5) | .T1552_006 => (1552, some 6) | .T1552_007 => (1552, some 7)
  | .T1553 => (1553, none) | .T1553_001 => (1553, some 1) | .T1553_002 => (1553, some 2)
  | .T1553_003 => (1553, some 3) | .T1553_004 => (1553, some 4) | .T1553_005 => (1553, some 5)
  | .T1553_006 => (1553, some 6) | .T1554 => (1554, none) | .T1555 => (1555, none) | .T1555_001 => (1555, some 1)
  | .T1555_002 => (1555, some 2) | .T1555_003 => (1555, some 3) | .T1555_004 => (1555, some 4)
  | .T1555_005 => (1555, some 5) | .T1556 => (1556, none) | .T1556_001 => (1556, some 1)
  | .T1556_002 => (1556, some 2) | .T1556_003 => (1556, some 3) | .T1556_004 => (1556, some 4)
  | .T1557 => (1557, none) | .T1557_001 => (1557, some 1) | .T1557_002 => (1557, some 2) | .T1558 => (1558, none)
  | .T1558_001 => (1558, some 1) | .T1558_002 => (1558, some 2) | .T1558_003 => (1558, some 3)
  | .T1558_004 => (1558, some 4) | .T1559 => (1559, none) | .T1559_001 => (1559, some 1)
  | .T1559_002 => (1559, some 2) | .T1560 => (1560, none) | .T1560_001 => (1560, some 1)
  | .T1560_002 => (1560, some 2) | .T1560_003 => (1560, some 3) | .T1561 => (1561, none)
  | .T1561_001 => (1561, some 1) | .T1561_002 => (1561, some 2) | .T1562 => (1562, none)
  | .T1562_001 => (1562, some 1) | .T1562_002 => (1562, some 2) | .T1562_003 => (1562, some 3)
  | .T1562_004 => (1562, some 4) | .T1562_006 => (1562, some 6) | .T1562_007 => (1562, some 7)
  | .T1562_008 => (1562, some 8) | .T1563 => (1563, none) | .T1563_001 => (1563, some 1)
  | .T1563_002 => (1563, some 2) | .T1564 => (1564, none) | .T1564_001 => (1564, some 1)
  | .T1564_002 => (1564, some 2) | .T1564_003 => (1564, some 3) | .T1564_004 => (1564, some 4)
  | .T1564_005 => (1564, some 5) | .T1564_006 => (1564, some 6) | .T1564_007 => (1564, some 7)
  | .T1565 => (1565, none) | .T1565_001 => (1565, some 1) | .T1565_002 => (1565, some 2)
  | .T1565_003 => (1565, some 3) | .T1566 => (1566, none) | .T1566_001 => (1566, some 1)
  | .T1566_002 => (1566, some 2) | .T1566_003 => (1566, some 3) | .T1567 => (1567, none)
  | .T1567_001 => (1567, some 1) | .T1567_002 => (1567, some 2) | .T1568 => (1568, none)
  | .T1568_001 => (1568, some 1) | .T1568_002 => (1568, some 2) | .T1568_003 => (1568, some 3)
  | .T1569 => (1569, none) | .T1569_001 => (1569, some 1) | .T1569_002 => (1569, some 2) | .T1570 => (1570, none)
  | .T1571 => (1571, none) | .T1572 => (1572, none) | .T1573 => (1573, none) | .T1573_001 => (1573, some 1)
  | .T1573_002 => (1573, some 2) | .T1574 => (1574, none) | .T1574_001 => (1574, some 1)
  | .T1574_002 => (1574, some 2) | .T1574_004 => (1574, some 4) | .T1574_005 => (1574, some 5)
  | .T1574_006 => (1574, some 6) | .T1574_007 => (1574, some 7) | .T1574_008 => (1574, some 8)
  | .T1574_009 => (1574, some 9) | .T1574_010 => (1574, some 10) | .T1574_011 => (1574, some 11)
  | .T1574_012 => (1574, some 12) | .T1578 => (1578, none) | .T1578_001 => (1578, some 1)
  | .T1578_002 => (1578, some 2) | .T1578_003 => (1578, some 3) | .T1578_004 => (1578, some 4)
  | .T1580 => (1580, none) | .T1583 => (1583, none) | .T1583_001 => (1583, some 1) | .T1583_002 => (1583, some 2)
  | .T1583_003 => (1583, some 3) | .T1583_004 => (1583, some 4) | .T1583_005 => (1583, some 5)
  | .T1583_006 => (1583, some 6) | .T1584 => (1584, none) | .T1584_001 => (1584, some 1)
  | .T1584_002 => (1584, some 2) | .T1584_003 => (1584, some 3) | .T1584_004 => (1584, some 4)
  | .T1584_005 => (1584, some 5) | .T1584_006 => (1584, some 6) | .T1585 => (1585, none)
  | .T1585_001 => (1585, some 1) | .T1585_002 => (1585, some 2) | .T1586 => (1586, none)
  | .T1586_001 => (1586, some 1) | .T1586_002 => (1586, some 2) | .T1587 => (1587, none)
  | .T1587_001 => (1587, some 1) | .T1587_002 => (1587, some 2) | .T1587_003 => (1587, some 3)
  | .T1587_004 => (1587, some 4) | .T1588 => (1588, none) | .T1588_001 => (1588, some 1)
  | .T1588_002 => (1588, some 2) | .T1588_003 => (1588, some 3) | .T1588_004 => (1588, some 4)
  | .T1588_005 => (1588, some 5) | .T1588_006 => (1588, some 6) | .T1589 => (1589, none)
  | .T1589_001 => (1589, some 1) | .T1589_002 => (1589, some 2) | .T1589_003 => (1589, some 3)
  | .T1590 => (1590, none) | .T1590_001 => (1590, some 1) | .T1590_002 => (1590, some 2)
  | .T1590_003 => (1590, some 3) | .T1590_004 => (1590, some 4) | .T1590_005 => (1590, some 5)
  | .T1590_006 => (1590, some 6) | .T1591 => (1591, none) | .T1591_001 => (1591, some 1)
  | .T1591_002 => (1591, some 2) | .T1591_003 => (1591, some 3) | .T1591_004 => (1591, some 4)
  | .T1592 => (1592, none) | .T1592_001 => (1592, some 1) | .T1592_002 => (1592, some 2)
  | .T1592_003 => (1592, some 3) | .T1592_004 => (1592, some 4) | .T1593 => (1593, none)
  | .T1593_001 => (1593, some 1) | .T1593_002 => (1593, some 2) | .T1594 => (1594, none) | .T1595 => (1595, none)
  | .T1595_001 => (1595, some 1) | .T1595_002 => (1595, some 2) | .T1596 => (1596, none)
  | .T1596_001 => (1596, some 1) | .T1596_002 => (1596, some 2) | .T1596_003 => (1596, some 3)
  | .T1596_004 => (1596, some 4) | .T1596_005 => (1596, some 5) | .T1597 => (1597, none)
  | .T1597_001 => (1597, some 1) | .T1597_002 => (1597, some 2) | .T1598 => (1598, none)
  | .T1598_001 => (1598, some 1) | .T1598_002 => (1598, some 2) | .T1598_003 => (1598, some 3)
  | .T1599 => (1599, none) | .T1599_001 => (1599, some 1) | .T1600 => (1600, none) | .T1600_001 => (1600, some 1)
  | .T1600_002 => (1600, some 2) | .T1601 => (1601, none) | .T1601_001 => (1601, some 1)
  | .T1601_002 => (1601, some 2) | .T1602 => (1602, none) | .T1602_001 => (1602, some 1)
  | .T1602_002 => (1602, some 2) | .T1606 => (1606, none) | .T1606_001 => (1606, some 1)
  | .T1606_002 => (1606, some 2) | .T1608 => (1608, none) | .T1608_001 => (1608, some 1)
  | .T1608_002 => (1608, some 2) | .T1608_003 => (1608, some 3) | .T1608_004 => (1608, some 4)
  | .T1608_005 => (1608, some 5) | .T1609 => (1609, none) | .T1610 => (1610, none) | .T1611 => (1611, none)
  | .T1612 => (1612, none) | .T1613 => (1613, none) | .T1614 => (1614, none)

/-- A number written with at least `w` digits. -/
def padded (w n : Nat) : Str := List.replicate (w - (decStr n).length) '0' ++ decStr n

/-- The ATT&CK identifier of a tactic, with the given prefix: "TA" or "ta" and four digits. -/
def tacticText (pre : Str) (t : MitreTactics) : Str := pre ++ padded 4 (tacticNumber t)

/-- The ATT&CK identifier of a technique, with the given prefix: "T" or "t", four digits, and for a sub-technique a dot and
three digits. -/
def techniqueText (pre : Str) (t : MitreTechniques) : Str :=
  match techniqueNumber t with
  | (n, none) => pre ++ padded 4 n
  | (n, some k) => pre ++ padded 4 n ++ '.' :: padded 3 k

/-- How JSON names a technique: as the identifier, with an underscore instead of the dot. -/
def techniqueJsonName (t : MitreTechniques) : Str :=
  match techniqueNumber t with
  | (n, none) => ['T'] ++ padded 4 n
  | (n, some k) => ['T'] ++ padded 4 n ++ '_' :: padded 3 k

end USiem.Spec
