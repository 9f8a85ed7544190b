import Verif.Proof.SunDay.Point

/-! # Principal terms near midnight (part 1), generated by `tools/clear.py` -/

namespace SunDay

/-- terms and the half minutes after J2000 they fall in -/
def near1 : List (ℕ × ℤ) := [
  (886, -5814865), (894, -5457648), (914, -4582251), (940, -3441360), (946, -3182629), (950, -3012618), (982, -1607275), (990, -1250043),
  (1028, 406298), (1036, 766255), (1046, 1195014), (1086, 2957555), (1112, 4095566), (1116, 4265484), (1122, 4524700), (1124, 4613878),
  (1132, 4973819), (1152, 5846601), (1208, 8303139), (1212, 8473047), (1218, 8732262), (1220, 8821441), (1226, 9092404), (1228, 9181408),
  (1248, 10054151), (1258, 10492053), (1264, 10748344), (1304, 12510735), (1308, 12680659), (1314, 12939864), (1316, 13029031), (1322, 13299973),
  (1324, 13388977), (1344, 14261751), (1354, 14699662), (1358, 14869679), (1360, 14955954), (1390, 16274955), (1398, 16632213), (1400, 16718330),
  (1404, 16888254), (1410, 17147458), (1412, 17236632), (1418, 17507596), (1420, 17596602), (1440, 18469350), (1450, 18907255), (1454, 19077275),
  (1456, 19163550), (1486, 20482548), (1494, 20839839), (1496, 20925957), (1500, 21095869), (1506, 21355050), (1514, 21715169), (1536, 22676932),
  (1546, 23114878), (1550, 23284885), (1552, 23371146), (1582, 24690115), (1590, 25047401), (1610, 25922749), (1642, 27322445), (1646, 27492463),
  (1648, 27578731), (1678, 28897701)]

theorem near1_ok : near1.all nearOk = true := by decide +kernel

end SunDay
