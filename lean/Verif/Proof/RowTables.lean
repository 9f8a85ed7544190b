import Mathlib.Data.Nat.Notation

/-! # The tables `XL0` and `XL1` prepared for evaluation by the kernel

Generated by `tools/tables.py`; `Proof/Rows.lean` proves that they agree with the tables of the model. -/

namespace Aff0

/-- a row of `XL0`: amplitude (positive and negative part), the amplitude again unless the row is constant, phase and frequency -/
structure ERow where
  ap : ℕ
  an : ℕ
  g : ℕ
  p : ℕ
  q : ℕ
  deriving DecidableEq

/-- a row of `XL1` -/
structure MRow where
  ap : ℕ
  an : ℕ
  p : ℕ
  q : ℕ
  r : ℕ
  s : ℕ
  u : ℕ
  deriving DecidableEq

/-- group 0 of `XL0` -/
def XL0r_0 : List ERow :=
  [⟨17534704567, 0, 0, 0, 0⟩, ⟨334165646, 0, 334165646, 46692568040000000238132097004, 6283075849991⟩,
   ⟨3489428, 0, 3489428, 46261024000000000235931222400, 12566151700000⟩,
   ⟨349706, 0, 349706, 27441180000000000139950018000, 5753384885000⟩,
   ⟨341757, 0, 341757, 28288660000000000144272166000, 3523118000⟩,
   ⟨313590, 0, 313590, 36276700000000000185011170000, 77713771468000⟩,
   ⟨267622, 0, 267622, 44180840000000000225322284000, 7860419392000⟩,
   ⟨234269, 0, 234269, 61351620000000000312893262000, 3930209696000⟩,
   ⟨132429, 0, 132429, 7424640000000000037865664000, 11506769770000⟩,
   ⟨127317, 0, 127317, 20370970000000000103891947000, 529690965000⟩,
   ⟨119917, 0, 119917, 11096290000000000056591079000, 1577343542000⟩,
   ⟨99025, 0, 99025, 52326800000000000266866680000, 5884926850000⟩,
   ⟨90186, 0, 90186, 20450500000000000104297550000, 26298320000⟩,
   ⟨85722, 0, 85722, 35084900000000000178932990000, 398149000000⟩,
   ⟨77979, 0, 77979, 11788300000000000060120330000, 5223693920000⟩,
   ⟨75314, 0, 75314, 25333900000000000129202890000, 5507553240000⟩,
   ⟨50526, 0, 50526, 45829300000000000233729430000, 18849227550000⟩,
   ⟨49238, 0, 49238, 42050700000000000214458570000, 775522610000⟩,
   ⟨35666, 0, 35666, 29195400000000000148896540000, 67310000⟩,
   ⟨31709, 0, 31709, 58490200000000000298300020000, 11790629090000⟩,
   ⟨28413, 0, 28413, 18986900000000000096833190000, 796298010000⟩,
   ⟨27104, 0, 27104, 3148900000000000016059390000, 10977078800000⟩,
   ⟨24281, 0, 24281, 3448100000000000017585310000, 5486777840000⟩,
   ⟨20616, 0, 20616, 48064700000000000245129970000, 2544314420000⟩,
   ⟨20539, 0, 20539, 18694800000000000095343480000, 5573142800000⟩,
   ⟨20226, 0, 20226, 24576800000000000125341680000, 6069776750000⟩,
   ⟨15552, 0, 15552, 8330600000000000042486060000, 213299100000⟩,
   ⟨13221, 0, 13221, 34111800000000000173970180000, 2942463420000⟩,
   ⟨12618, 0, 12618, 10830300000000000055234530000, 20775400000⟩,
   ⟨11513, 0, 11513, 6454500000000000032917950000, 980320000⟩,
   ⟨10285, 0, 10285, 6360000000000000032436000000, 4694002950000⟩,
   ⟨10190, 0, 10190, 9756900000000000049760190000, 15720838780000⟩,
   ⟨10172, 0, 10172, 42668000000000000217606800000, 7113550000⟩,
   ⟨9921, 0, 9921, 62099000000000000316704900000, 2146165400000⟩,
   ⟨9761, 0, 9761, 6810000000000000034731000000, 155420400000⟩,
   ⟨8580, 0, 8580, 59832000000000000305143200000, 161000685700000⟩,
   ⟨8513, 0, 8513, 12987000000000000066233700000, 6275962300000⟩,
   ⟨8471, 0, 8471, 36708000000000000187210800000, 71430695600000⟩,
   ⟨7964, 0, 7964, 18079000000000000092202900000, 17260154700000⟩,
   ⟨7876, 0, 7876, 30370000000000000154887000000, 12036460700000⟩,
   ⟨7465, 0, 7465, 17551000000000000089510100000, 5088628800000⟩,
   ⟨7387, 0, 7387, 35032000000000000178663200000, 3154687100000⟩,
   ⟨7355, 0, 7355, 46793000000000000238644300000, 801820900000⟩,
   ⟨6963, 0, 6963, 8330000000000000042483000000, 9437762900000⟩,
   ⟨6245, 0, 6245, 39776000000000000202857600000, 8827390300000⟩,
   ⟨6115, 0, 6115, 18184000000000000092738400000, 7084896800000⟩,
   ⟨5696, 0, 5696, 27843000000000000141999300000, 6286599000000⟩,
   ⟨5612, 0, 5612, 43869000000000000223731900000, 14143495200000⟩,
   ⟨5558, 0, 5558, 34701000000000000176975100000, 6279552700000⟩,
   ⟨5199, 0, 5199, 1891000000000000009644100000, 12139553500000⟩,
   ⟨5161, 0, 5161, 13328000000000000067972800000, 1748016400000⟩,
   ⟨5115, 0, 5115, 2831000000000000014438100000, 5856477700000⟩,
   ⟨4900, 0, 4900, 4874000000000000024857400000, 1194447000000⟩,
   ⟨4104, 0, 4104, 53682000000000000273778200000, 8429241300000⟩,
   ⟨4094, 0, 4094, 23985000000000000122323500000, 19651048500000⟩,
   ⟨3920, 0, 3920, 61683000000000000314583300000, 10447387800000⟩,
   ⟨3677, 0, 3677, 60413000000000000308106300000, 10213285500000⟩,
   ⟨3660, 0, 3660, 25696000000000000131049600000, 1059381900000⟩,
   ⟨3595, 0, 3595, 17088000000000000087148800000, 2352866200000⟩,
   ⟨3557, 0, 3557, 17760000000000000090576000000, 6812766800000⟩,
   ⟨3329, 0, 3329, 5931000000000000030248100000, 17789845600000⟩,
   ⟨3041, 0, 3041, 4429000000000000022587900000, 83996847300000⟩,
   ⟨3005, 0, 3005, 27398000000000000139729800000, 1349867400000⟩,
   ⟨2535, 0, 2535, 31647000000000000161399700000, 4690479800000⟩,
   ⟨2474, 0, 2474, 2148000000000000010954800000, 3590400000⟩,
   ⟨2366, 0, 2366, 4847000000000000024719700000, 8031092300000⟩,
   ⟨2357, 0, 2357, 20653000000000000105330300000, 3340612400000⟩,
   ⟨2282, 0, 2282, 52220000000000000266322000000, 4705732300000⟩,
   ⟨2189, 0, 2189, 55559000000000000283350900000, 553569400000⟩,
   ⟨2142, 0, 2142, 14256000000000000072705600000, 16730463700000⟩,
   ⟨2109, 0, 2109, 41483000000000000211563300000, 951718400000⟩,
   ⟨2030, 0, 2030, 3713000000000000018936300000, 283859300000⟩,
   ⟨1992, 0, 1992, 52221000000000000266327100000, 12168002700000⟩,
   ⟨1986, 0, 1986, 57747000000000000294509700000, 6309374200000⟩,
   ⟨1912, 0, 1912, 38222000000000000194932200000, 23581258200000⟩,
   ⟨1889, 0, 1889, 53863000000000000274701300000, 149854400100000⟩,
   ⟨1790, 0, 1790, 22149000000000000112959900000, 13367972600000⟩,
   ⟨1748, 0, 1748, 45605000000000000232585500000, 135065100000⟩,
   ⟨1622, 0, 1622, 59884000000000000305408400000, 11769853700000⟩,
   ⟨1508, 0, 1508, 41957000000000000213980700000, 6256777500000⟩,
   ⟨1442, 0, 1442, 41932000000000000213853200000, 242728600000⟩,
   ⟨1435, 0, 1435, 37236000000000000189903600000, 38027700000⟩,
   ⟨1397, 0, 1397, 44014000000000000224471400000, 6681224900000⟩,
   ⟨1362, 0, 1362, 18893000000000000096354300000, 7632943300000⟩,
   ⟨1250, 0, 1250, 11305000000000000057655500000, 5522900000⟩,
   ⟨1205, 0, 1205, 26223000000000000133737300000, 955599700000⟩,
   ⟨1200, 0, 1200, 10035000000000000051178500000, 632783700000⟩,
   ⟨1129, 0, 1129, 1774000000000000009047400000, 4164312000000⟩,
   ⟨1083, 0, 1083, 3273000000000000016692300000, 103092800000⟩,
   ⟨1052, 0, 1052, 9387000000000000047873700000, 11926254400000⟩,
   ⟨1050, 0, 1050, 53591000000000000273314100000, 1592596000000⟩,
   ⟨1033, 0, 1033, 61998000000000000316189800000, 6438496200000⟩,
   ⟨1001, 0, 1001, 60291000000000000307484100000, 5746271300000⟩,
   ⟨980, 0, 980, 9990000000000000050949000000, 11371705000000⟩,
   ⟨980, 0, 980, 52440000000000000267444000000, 27511468000000⟩,
   ⟨938, 0, 938, 26240000000000000133824000000, 5760498000000⟩,
   ⟨923, 0, 923, 4830000000000000024633000000, 522577000000⟩,
   ⟨922, 0, 922, 45710000000000000233121000000, 4292331000000⟩,
   ⟨905, 0, 905, 53370000000000000272187000000, 6386169000000⟩,
   ⟨862, 0, 862, 41650000000000000212415000000, 7058598000000⟩,
   ⟨841, 0, 841, 32990000000000000168249000000, 7234794000000⟩,
   ⟨836, 0, 836, 45390000000000000231489000000, 25132303000000⟩,
   ⟨813, 0, 813, 61120000000000000311712000000, 4732031000000⟩,
   ⟨812, 0, 812, 62710000000000000319821000000, 426598000000⟩,
   ⟨801, 0, 801, 58210000000000000296871000000, 28449000000⟩,
   ⟨787, 0, 787, 9960000000000000050796000000, 5643179000000⟩,
   ⟨776, 0, 776, 29570000000000000150807000000, 23013540000000⟩,
   ⟨769, 0, 769, 31210000000000000159171000000, 7238676000000⟩,
   ⟨758, 0, 758, 39740000000000000202674000000, 11499656000000⟩,
   ⟨735, 0, 735, 43860000000000000223686000000, 316392000000⟩,
   ⟨731, 0, 731, 6070000000000000030957000000, 11513883000000⟩,
   ⟨719, 0, 719, 39980000000000000203898000000, 74782000000⟩, ⟨706, 0, 706, 3230000000000000016473000000, 263084000000⟩,
   ⟨676, 0, 676, 59110000000000000301461000000, 90955552000000⟩,
   ⟨663, 0, 663, 36650000000000000186915000000, 17298182000000⟩,
   ⟨653, 0, 653, 57910000000000000295341000000, 18073705000000⟩,
   ⟨630, 0, 630, 47170000000000000240567000000, 6836645000000⟩,
   ⟨615, 0, 615, 14580000000000000074358000000, 233141314000000⟩,
   ⟨612, 0, 612, 10750000000000000054825000000, 19804827000000⟩,
   ⟨596, 0, 596, 33210000000000000169371000000, 6283009000000⟩,
   ⟨596, 0, 596, 28760000000000000146676000000, 6283143000000⟩,
   ⟨555, 0, 555, 24520000000000000125052000000, 12352853000000⟩,
   ⟨541, 0, 541, 53920000000000000274992000000, 419485000000⟩,
   ⟨531, 0, 531, 3820000000000000019482000000, 31441678000000⟩,
   ⟨519, 0, 519, 40650000000000000207315000000, 6208294000000⟩,
   ⟨513, 0, 513, 23610000000000000120411000000, 10973556000000⟩,
   ⟨494, 0, 494, 57370000000000000292587000000, 9917697000000⟩,
   ⟨450, 0, 450, 32720000000000000166872000000, 11015106000000⟩,
   ⟨449, 0, 449, 36530000000000000186303000000, 206186000000⟩,
   ⟨447, 0, 447, 20640000000000000105264000000, 7079374000000⟩,
   ⟨435, 0, 435, 44230000000000000225573000000, 5216580000000⟩,
   ⟨421, 0, 421, 19060000000000000097206000000, 245832000000⟩,
   ⟨413, 0, 413, 9210000000000000046971000000, 3738761000000⟩, ⟨402, 0, 402, 8400000000000000042840000000, 20355000000⟩,
   ⟨387, 0, 387, 18260000000000000093126000000, 11856219000000⟩,
   ⟨379, 0, 379, 23440000000000000119544000000, 3881000000⟩,
   ⟨374, 0, 374, 29540000000000000150654000000, 3128389000000⟩,
   ⟨370, 0, 370, 50310000000000000256581000000, 536805000000⟩,
   ⟨365, 0, 365, 10180000000000000051918000000, 16200773000000⟩,
   ⟨365, 0, 365, 10830000000000000055233000000, 88860057000000⟩,
   ⟨352, 0, 352, 59780000000000000304878000000, 3894182000000⟩,
   ⟨352, 0, 352, 20560000000000000104856000000, 244287600000000⟩,
   ⟨351, 0, 351, 37130000000000000189363000000, 6290189000000⟩,
   ⟨340, 0, 340, 11060000000000000056406000000, 14712317000000⟩,
   ⟨339, 0, 339, 9780000000000000049878000000, 8635942000000⟩,
   ⟨339, 0, 339, 32020000000000000163302000000, 5120601000000⟩,
   ⟨333, 0, 333, 8370000000000000042687000000, 6496375000000⟩,
   ⟨325, 0, 325, 34790000000000000177429000000, 6133513000000⟩,
   ⟨316, 0, 316, 50890000000000000259539000000, 21228392000000⟩,
   ⟨316, 0, 316, 13280000000000000067728000000, 10873986000000⟩,
   ⟨309, 0, 309, 36460000000000000185946000000, 10637000000⟩,
   ⟨303, 0, 303, 18020000000000000091902000000, 35371887000000⟩,
   ⟨296, 0, 296, 33970000000000000173247000000, 9225539000000⟩,
   ⟨288, 0, 288, 60260000000000000307326000000, 154717610000000⟩,
   ⟨281, 0, 281, 25850000000000000131835000000, 14314168000000⟩,
   ⟨262, 0, 262, 38560000000000000196656000000, 266607000000⟩,
   ⟨262, 0, 262, 25790000000000000131529000000, 22483849000000⟩,
   ⟨257, 0, 257, 15610000000000000079611000000, 23543231000000⟩,
   ⟨255, 0, 255, 39490000000000000201399000000, 1990745000000⟩,
   ⟨251, 0, 251, 37440000000000000190944000000, 10575407000000⟩,
   ⟨240, 0, 240, 11610000000000000059211000000, 10984192000000⟩,
   ⟨238, 0, 238, 1060000000000000005406000000, 7046000000⟩, ⟨236, 0, 236, 42720000000000000217872000000, 6040347000000⟩,
   ⟨234, 0, 234, 35770000000000000182427000000, 10969965000000⟩,
   ⟨211, 0, 211, 37140000000000000189414000000, 65147620000000⟩,
   ⟨210, 0, 210, 7540000000000000038454000000, 13521751000000⟩,
   ⟨207, 0, 207, 42280000000000000215628000000, 5650292000000⟩,
   ⟨202, 0, 202, 8140000000000000041514000000, 170673000000⟩,
   ⟨201, 0, 201, 46290000000000000236079000000, 6037244000000⟩,
   ⟨200, 0, 200, 3810000000000000019431000000, 6172870000000⟩,
   ⟨199, 0, 199, 39330000000000000200583000000, 6206810000000⟩,
   ⟨199, 0, 199, 51970000000000000265047000000, 6262300000000⟩,
   ⟨197, 0, 197, 10460000000000000053346000000, 18209330000000⟩,
   ⟨195, 0, 195, 10700000000000000054570000000, 5230807000000⟩,
   ⟨195, 0, 195, 48690000000000000248319000000, 36028000000⟩,
   ⟨194, 0, 194, 43130000000000000219963000000, 6244943000000⟩,
   ⟨192, 0, 192, 12290000000000000062679000000, 709933000000⟩,
   ⟨192, 0, 192, 55950000000000000285345000000, 6282096000000⟩,
   ⟨192, 0, 192, 6020000000000000030702000000, 6284056000000⟩,
   ⟨189, 0, 189, 37440000000000000190944000000, 23878000000⟩, ⟨188, 0, 188, 19040000000000000097104000000, 15252000000⟩,
   ⟨188, 0, 188, 8670000000000000044217000000, 22003915000000⟩,
   ⟨182, 0, 182, 36810000000000000187731000000, 15110466000000⟩,
   ⟨181, 0, 181, 4910000000000000025041000000, 1484000000⟩,
   ⟨179, 0, 179, 32220000000000000164322000000, 39302097000000⟩,
   ⟨179, 0, 179, 12590000000000000064209000000, 12559038000000⟩]

/-- group 1 of `XL0` -/
def XL0r_1 : List ERow :=
  [⟨62833196674749, 0, 0, 0, 0⟩, ⟨20605886, 0, 20605886, 26782345600000000136589962560, 6283075849990⟩,
   ⟨430343, 0, 430343, 26351270000000000134391477000, 12566151700000⟩,
   ⟨42526, 0, 42526, 15904700000000000081113970000, 3523120000⟩,
   ⟨11926, 0, 11926, 57955700000000000295574070000, 26298320000⟩,
   ⟨10898, 0, 10898, 29661800000000000151275180000, 1577343540000⟩,
   ⟨9348, 0, 9348, 25921000000000000132197100000, 18849227500000⟩,
   ⟨7212, 0, 7212, 11385000000000000058063500000, 529691000000⟩,
   ⟨6777, 0, 6777, 18747000000000000095609700000, 398149000000⟩,
   ⟨6733, 0, 6733, 44092000000000000224869200000, 5507553200000⟩,
   ⟨5903, 0, 5903, 28880000000000000147288000000, 5223693900000⟩,
   ⟨5598, 0, 5598, 21747000000000000110909700000, 155420400000⟩,
   ⟨4541, 0, 4541, 3980000000000000020298000000, 796298000000⟩,
   ⟨3637, 0, 3637, 4662000000000000023776200000, 775522600000⟩,
   ⟨2896, 0, 2896, 26471000000000000135002100000, 7113500000⟩,
   ⟨2084, 0, 2084, 53414000000000000272411400000, 980300000⟩,
   ⟨1910, 0, 1910, 18463000000000000094161300000, 5486777800000⟩,
   ⟨1851, 0, 1851, 49686000000000000253398600000, 213299100000⟩,
   ⟨1729, 0, 1729, 29912000000000000152551200000, 6275962300000⟩,
   ⟨1623, 0, 1623, 322000000000000001642200000, 2544314400000⟩,
   ⟨1583, 0, 1583, 14305000000000000072955500000, 2146165400000⟩,
   ⟨1462, 0, 1462, 12053000000000000061470300000, 10977078800000⟩,
   ⟨1246, 0, 1246, 28343000000000000144549300000, 1748016400000⟩,
   ⟨1188, 0, 1188, 32580000000000000166158000000, 5088628800000⟩,
   ⟨1181, 0, 1181, 52738000000000000268963800000, 1194447000000⟩,
   ⟨1151, 0, 1151, 20750000000000000105825000000, 4694003000000⟩,
   ⟨1064, 0, 1064, 7661000000000000039071100000, 553569400000⟩,
   ⟨997, 0, 997, 13030000000000000066453000000, 6286599000000⟩,
   ⟨972, 0, 972, 42390000000000000216189000000, 1349867000000⟩,
   ⟨945, 0, 945, 27000000000000000137700000000, 242729000000⟩,
   ⟨858, 0, 858, 56450000000000000287895000000, 951718000000⟩,
   ⟨758, 0, 758, 53010000000000000270351000000, 2352866000000⟩,
   ⟨639, 0, 639, 26500000000000000135150000000, 9437763000000⟩,
   ⟨610, 0, 610, 46660000000000000237966000000, 4690480000000⟩,
   ⟨583, 0, 583, 17660000000000000090066000000, 1059382000000⟩,
   ⟨531, 0, 531, 9090000000000000046359000000, 3154687000000⟩,
   ⟨522, 0, 522, 56610000000000000288711000000, 71430696000000⟩,
   ⟨520, 0, 520, 18540000000000000094554000000, 801821000000⟩,
   ⟨504, 0, 504, 14250000000000000072675000000, 6438496000000⟩,
   ⟨433, 0, 433, 2410000000000000012291000000, 6812767000000⟩,
   ⟨426, 0, 426, 7740000000000000039474000000, 10447388000000⟩,
   ⟨413, 0, 413, 52400000000000000267240000000, 7084897000000⟩,
   ⟨374, 0, 374, 20010000000000000102051000000, 8031092000000⟩,
   ⟨356, 0, 356, 24290000000000000123879000000, 14143495000000⟩,
   ⟨350, 0, 350, 48000000000000000244800000000, 6279553000000⟩,
   ⟨337, 0, 337, 8880000000000000045288000000, 12036461000000⟩,
   ⟨337, 0, 337, 38620000000000000196962000000, 1592596000000⟩,
   ⟨325, 0, 325, 34000000000000000173400000000, 7632943000000⟩,
   ⟨322, 0, 322, 6160000000000000031416000000, 8429241000000⟩,
   ⟨318, 0, 318, 31880000000000000162588000000, 4705732000000⟩,
   ⟨297, 0, 297, 60700000000000000309570000000, 4292331000000⟩,
   ⟨295, 0, 295, 14310000000000000072981000000, 5746271000000⟩,
   ⟨290, 0, 290, 23250000000000000118575000000, 20355000000⟩,
   ⟨275, 0, 275, 9350000000000000047685000000, 5760498000000⟩,
   ⟨270, 0, 270, 48040000000000000245004000000, 7234794000000⟩,
   ⟨253, 0, 253, 62230000000000000317373000000, 6836645000000⟩,
   ⟨228, 0, 228, 50030000000000000255153000000, 17789846000000⟩,
   ⟨225, 0, 225, 56720000000000000289272000000, 11499656000000⟩,
   ⟨215, 0, 215, 52020000000000000265302000000, 11513883000000⟩,
   ⟨208, 0, 208, 39550000000000000201705000000, 10213286000000⟩,
   ⟨208, 0, 208, 22680000000000000115668000000, 522577000000⟩,
   ⟨206, 0, 206, 22240000000000000113424000000, 5856478000000⟩,
   ⟨206, 0, 206, 25500000000000000130050000000, 25132303000000⟩,
   ⟨203, 0, 203, 9100000000000000046410000000, 6256778000000⟩,
   ⟨189, 0, 189, 5320000000000000027132000000, 3340612000000⟩,
   ⟨188, 0, 188, 47350000000000000241485000000, 83996847000000⟩,
   ⟨179, 0, 179, 14740000000000000075174000000, 4164312000000⟩,
   ⟨178, 0, 178, 30250000000000000154275000000, 5523000000⟩,
   ⟨177, 0, 177, 30260000000000000154326000000, 5753385000000⟩,
   ⟨159, 0, 159, 46370000000000000236487000000, 3286000000⟩,
   ⟨157, 0, 157, 61240000000000000312324000000, 5216580000000⟩,
   ⟨155, 0, 155, 30770000000000000156927000000, 6681225000000⟩,
   ⟨154, 0, 154, 42000000000000000214200000000, 13367973000000⟩,
   ⟨143, 0, 143, 11910000000000000060741000000, 3894182000000⟩,
   ⟨138, 0, 138, 30930000000000000157743000000, 135065000000⟩,
   ⟨136, 0, 136, 42450000000000000216495000000, 426598000000⟩,
   ⟨134, 0, 134, 57650000000000000294015000000, 6040347000000⟩,
   ⟨128, 0, 128, 30850000000000000157335000000, 5643179000000⟩,
   ⟨127, 0, 127, 20920000000000000106692000000, 6290189000000⟩,
   ⟨125, 0, 125, 30770000000000000156927000000, 11926254000000⟩,
   ⟨125, 0, 125, 34450000000000000175695000000, 536805000000⟩,
   ⟨114, 0, 114, 32440000000000000165444000000, 12168003000000⟩,
   ⟨112, 0, 112, 23180000000000000118218000000, 16730464000000⟩,
   ⟨111, 0, 111, 39010000000000000198951000000, 11506770000000⟩,
   ⟨111, 0, 111, 53200000000000000271320000000, 23878000000⟩,
   ⟨105, 0, 105, 37500000000000000191250000000, 7860419000000⟩,
   ⟨103, 0, 103, 24470000000000000124797000000, 1990745000000⟩, ⟨96, 0, 96, 8200000000000000041820000000, 3880000000⟩,
   ⟨96, 0, 96, 40800000000000000208080000000, 6127660000000⟩, ⟨91, 0, 91, 54200000000000000276420000000, 206190000000⟩,
   ⟨91, 0, 91, 4200000000000000021420000000, 7079370000000⟩, ⟨88, 0, 88, 51700000000000000263670000000, 11790630000000⟩,
   ⟨81, 0, 81, 3400000000000000017340000000, 9917700000000⟩, ⟨80, 0, 80, 38900000000000000198390000000, 10973560000000⟩,
   ⟨78, 0, 78, 24000000000000000122400000000, 1589070000000⟩,
   ⟨78, 0, 78, 25800000000000000131580000000, 11371700000000⟩, ⟨77, 0, 77, 39800000000000000202980000000, 955600000000⟩,
   ⟨77, 0, 77, 33600000000000000171360000000, 36030000000⟩, ⟨76, 0, 76, 13000000000000000066300000000, 103090000000⟩,
   ⟨75, 0, 75, 51800000000000000264180000000, 10969970000000⟩,
   ⟨75, 0, 75, 49600000000000000252960000000, 6496370000000⟩, ⟨73, 0, 73, 52100000000000000265710000000, 38030000000⟩,
   ⟨72, 0, 72, 26500000000000000135150000000, 6309370000000⟩, ⟨70, 0, 70, 56100000000000000286110000000, 3738760000000⟩,
   ⟨69, 0, 69, 26000000000000000132600000000, 3496030000000⟩, ⟨69, 0, 69, 3900000000000000019890000000, 15250000000⟩,
   ⟨69, 0, 69, 27800000000000000141780000000, 20780000000⟩, ⟨65, 0, 65, 11300000000000000057630000000, 7058600000000⟩,
   ⟨64, 0, 64, 42800000000000000218280000000, 28450000000⟩, ⟨61, 0, 61, 56300000000000000287130000000, 10984190000000⟩,
   ⟨60, 0, 60, 7300000000000000037230000000, 419480000000⟩, ⟨60, 0, 60, 52800000000000000269280000000, 10575410000000⟩,
   ⟨58, 0, 58, 55500000000000000283050000000, 17298180000000⟩,
   ⟨58, 0, 58, 31900000000000000162690000000, 4732030000000⟩]

/-- group 2 of `XL0` -/
def XL0r_2 : List ERow :=
  [⟨5291887, 0, 0, 0, 0⟩, ⟨871984, 0, 871984, 10720970000000000054676947000, 6283075850000⟩,
   ⟨30913, 0, 30913, 8672900000000000044231790000, 12566151700000⟩,
   ⟨2734, 0, 2734, 530000000000000002703000000, 3523100000⟩,
   ⟨1633, 0, 1633, 51883000000000000264603300000, 26298300000⟩,
   ⟨1575, 0, 1575, 36846000000000000187914600000, 155420400000⟩,
   ⟨954, 0, 954, 7570000000000000038607000000, 18849228000000⟩,
   ⟨894, 0, 894, 20570000000000000104907000000, 77713771000000⟩,
   ⟨695, 0, 695, 8270000000000000042177000000, 775523000000⟩,
   ⟨506, 0, 506, 46630000000000000237813000000, 1577344000000⟩,
   ⟨406, 0, 406, 10310000000000000052581000000, 7114000000⟩,
   ⟨381, 0, 381, 34410000000000000175491000000, 5573143000000⟩,
   ⟨346, 0, 346, 51410000000000000262191000000, 796298000000⟩,
   ⟨317, 0, 317, 60530000000000000308703000000, 5507553000000⟩,
   ⟨302, 0, 302, 11920000000000000060792000000, 242729000000⟩,
   ⟨289, 0, 289, 61170000000000000311967000000, 529691000000⟩,
   ⟨271, 0, 271, 3060000000000000015606000000, 398149000000⟩,
   ⟨254, 0, 254, 22800000000000000116280000000, 553569000000⟩,
   ⟨237, 0, 237, 43810000000000000223431000000, 5223694000000⟩, ⟨208, 0, 208, 37540000000000000191454000000, 980000000⟩,
   ⟨168, 0, 168, 9020000000000000046002000000, 951718000000⟩,
   ⟨153, 0, 153, 57590000000000000293709000000, 1349867000000⟩,
   ⟨145, 0, 145, 43640000000000000222564000000, 1748016000000⟩,
   ⟨134, 0, 134, 37210000000000000189771000000, 1194447000000⟩,
   ⟨125, 0, 125, 29480000000000000150348000000, 6438496000000⟩,
   ⟨122, 0, 122, 29730000000000000151623000000, 2146165000000⟩,
   ⟨110, 0, 110, 12710000000000000064821000000, 161000686000000⟩,
   ⟨104, 0, 104, 6040000000000000030804000000, 3154687000000⟩,
   ⟨100, 0, 100, 59860000000000000305286000000, 6286599000000⟩,
   ⟨92, 0, 92, 48000000000000000244800000000, 5088630000000⟩, ⟨89, 0, 89, 52300000000000000266730000000, 7084900000000⟩,
   ⟨83, 0, 83, 33100000000000000168810000000, 213300000000⟩, ⟨76, 0, 76, 34200000000000000174420000000, 5486780000000⟩,
   ⟨71, 0, 71, 61900000000000000315690000000, 4690480000000⟩, ⟨68, 0, 68, 34300000000000000174930000000, 4694000000000⟩,
   ⟨65, 0, 65, 16000000000000000081600000000, 2544310000000⟩, ⟨64, 0, 64, 19800000000000000100980000000, 801820000000⟩,
   ⟨61, 0, 61, 24800000000000000126480000000, 10977080000000⟩,
   ⟨50, 0, 50, 14400000000000000073440000000, 6836650000000⟩, ⟨49, 0, 49, 23400000000000000119340000000, 1592600000000⟩,
   ⟨46, 0, 46, 13100000000000000066810000000, 4292330000000⟩,
   ⟨46, 0, 46, 38100000000000000194310000000, 149854400000000⟩, ⟨43, 0, 43, 400000000000000002040000000, 7234790000000⟩,
   ⟨40, 0, 40, 49400000000000000251940000000, 7632940000000⟩,
   ⟨39, 0, 39, 15700000000000000080070000000, 71430700000000⟩,
   ⟨38, 0, 38, 31700000000000000161670000000, 6309370000000⟩, ⟨35, 0, 35, 9900000000000000050490000000, 6040350000000⟩,
   ⟨35, 0, 35, 6700000000000000034170000000, 1059380000000⟩, ⟨31, 0, 31, 31800000000000000162180000000, 2352870000000⟩,
   ⟨31, 0, 31, 35500000000000000181050000000, 8031090000000⟩,
   ⟨30, 0, 30, 19200000000000000097920000000, 10447390000000⟩,
   ⟨30, 0, 30, 25200000000000000128520000000, 6127660000000⟩, ⟨28, 0, 28, 44200000000000000225420000000, 9437760000000⟩,
   ⟨28, 0, 28, 27100000000000000138210000000, 3894180000000⟩, ⟨27, 0, 27, 6700000000000000034170000000, 25132300000000⟩,
   ⟨26, 0, 26, 52700000000000000268770000000, 6812770000000⟩, ⟨25, 0, 25, 5500000000000000028050000000, 6279550000000⟩,
   ⟨23, 0, 23, 13800000000000000070380000000, 4705730000000⟩, ⟨22, 0, 22, 6400000000000000032640000000, 6256780000000⟩,
   ⟨20, 0, 20, 60700000000000000309570000000, 640880000000⟩]

/-- group 3 of `XL0` -/
def XL0r_3 : List ERow :=
  [⟨28923, 0, 28923, 58438400000000000298035840000, 6283075850000⟩, ⟨3496, 0, 0, 0, 0⟩,
   ⟨1682, 0, 1682, 54877000000000000279872700000, 12566151700000⟩,
   ⟨296, 0, 296, 51960000000000000264996000000, 155420000000⟩, ⟨129, 0, 129, 47220000000000000240822000000, 3523000000⟩,
   ⟨71, 0, 71, 53000000000000000270300000000, 18849230000000⟩, ⟨64, 0, 64, 59700000000000000304470000000, 242730000000⟩,
   ⟨40, 0, 40, 37900000000000000193290000000, 553570000000⟩]

/-- group 4 of `XL0` -/
def XL0r_4 : List ERow :=
  [⟨11408, 0, 0, 31415900000000000160221090000, 0⟩, ⟨772, 0, 772, 41340000000000000210834000000, 6283076000000⟩,
   ⟨77, 0, 77, 38400000000000000195840000000, 12566150000000⟩, ⟨42, 0, 42, 4200000000000000021420000000, 155420000000⟩]

/-- group 5 of `XL0` -/
def XL0r_5 : List ERow :=
  [⟨88, 0, 0, 31400000000000000160140000000, 0⟩, ⟨17, 0, 17, 27700000000000000141270000000, 6283080000000⟩,
   ⟨5, 0, 5, 20100000000000000102510000000, 155420000000⟩, ⟨3, 0, 3, 22100000000000000112710000000, 12566150000000⟩]

/-- `XL1 0` -/
def XL1r_0 : List MRow :=
  [⟨226395860000, 0, 7847582200000000040022669220, 8328691424623, 1522924100, 25071900000, 62831853071795865089571720331⟩,
   ⟨45864380000, 0, 1873974000000000009557267400, 7214062865360, 62831853071795865087510562331, 62831853071795865070835318331, 82800000⟩,
   ⟨23699140000, 0, 25429520000000000129690552000, 15542754289980, 62831853071795865089033486331, 6212000000, 62831853071795865089654518331⟩,
   ⟨7690260000, 0, 31403130000000000160155963000, 16657382849250, 3045850000, 50144000000, 62831853071795865089448118331⟩,
   ⟨6664180000, 0, 15276710000000000077911221000, 628301955210, 62831853071795865089668678331, 62000000, 62831853071795865089689918331⟩,
   ⟨4115960000, 0, 48266070000000000246156957000, 16866932315000, 62831853071795865088415198331, 62831853071795865088625318331, 62831853071795865089689418331⟩,
   ⟨2116560000, 0, 41150280000000000209866428000, 62831853071795863975066759031, 62831853071795865085987638331, 62831853071795865045765318331, 206400000⟩,
   ⟨2054360000, 0, 2305230000000000011756673000, 6585760910100, 62831853071795865087537198331, 62831853071795865070775318331, 88200000⟩,
   ⟨1919560000, 0, 48985070000000000249823857000, 23871445714600, 861090000, 31280000000, 62831853071795865089531318331⟩,
   ⟨1647290000, 0, 25860780000000000131889978000, 14914452334800, 62831853071795865089060118331, 6150000000, 62831853071795865089660318331⟩,
   ⟨1473210000, 0, 54553000000000000278220300000, 62831853071795857389305848931, 62831853071795865088145718331, 62831853071795865064685318331, 118000000⟩,
   ⟨1249880000, 0, 4860800000000000024790080000, 7771377145000, 62831853071795865089364418331, 3110000000, 62831853071795865089675318331⟩,
   ⟨1093800000, 0, 38832300000000000198044730000, 8956993379800, 1496300000, 25130000000, 62831853071795865089566318331⟩,
   ⟨551770000, 0, 55703300000000000284086830000, 62831853071795863765517293331, 618300000, 7300000000, 62831853071795865089660318331⟩,
   ⟨451000000, 0, 8989800000000000045847980000, 25195623740000, 242800000, 24000000000, 62831853071795865089566318331⟩,
   ⟨395330000, 0, 38121300000000000194418630000, 62831853071795856551454428331, 2803000000, 26100000000, 62831853071795865089577318331⟩,
   ⟨384300000, 0, 43011500000000000219358650000, 22756817155000, 62831853071795865086848718331, 62831853071795865077095318331, 42000000⟩,
   ⟨361240000, 0, 54958700000000000280289370000, 24986074274000, 4568800000, 75200000000, 62831853071795865089324318331⟩,
   ⟨307730000, 0, 19455900000000000099225090000, 14428125731000, 62831853071795865085325818331, 62831853071795865051995318331, 166000000⟩,
   ⟨283970000, 0, 32858600000000000167578860000, 7842364821000, 62831853071795865087483918331, 62831853071795865070895318331, 77000000⟩,
   ⟨243580000, 0, 56414200000000000287712420000, 16171056245000, 62831853071795865089006818331, 6300000000, 62831853071795865089649318331⟩,
   ⟨185850000, 0, 44137100000000000225099210000, 62831853071795864532381038331, 62831853071795865087841518331, 62831853071795865067695318331, 100000000⟩,
   ⟨179540000, 0, 35845400000000000182811540000, 8399679100000, 62831853071795865089337718331, 3200000000, 62831853071795865089665318331⟩,
   ⟨145300000, 0, 49416000000000000252021600000, 23243143759000, 888000000, 31200000000, 62831853071795865089535318331⟩,
   ⟨143800000, 0, 9709000000000000049515900000, 32200137139000, 2384000000, 56400000000, 62831853071795865089405318331⟩,
   ⟨142510000, 0, 57641000000000000293969100000, 62831853071795865087394118331, 1523000000, 25100000000, 62831853071795865089575318331⟩,
   ⟨138990000, 0, 3735000000000000019048500000, 31085508580000, 62831853071795865088371318331, 12400000000, 62831853071795865089615318331⟩,
   ⟨131940000, 0, 17595000000000000089734500000, 62831853071795855646375334331, 62831853071795865084464318331, 62831853071795865020695318331, 330000000⟩,
   ⟨96790000, 0, 30997000000000000158084700000, 62831853071795849060614424331, 62831853071795865086623318331, 62831853071795865039595318331, 240000000⟩,
   ⟨93660000, 0, 3016000000000000015381600000, 24080995180000, 62831853071795865086230318331, 62831853071795865069795318331, 80000000⟩,
   ⟨86060000, 0, 41582000000000000212068200000, 62831853071795863346764804331, 62831853071795865086014318331, 62831853071795865045695318331, 210000000⟩,
   ⟨84530000, 0, 28416000000000000144921600000, 16100068570000, 1192000000, 28200000000, 62831853071795865089555318331⟩,
   ⟨80500000, 0, 26292000000000000134089200000, 14286150380000, 62831853071795865089086318331, 6100000000, 62831853071795865089665318331⟩,
   ⟨76300000, 0, 62388000000000000318178800000, 17285684804000, 3019000000, 50200000000, 62831853071795865089445318331⟩,
   ⟨74470000, 0, 14845000000000000075709500000, 1256603910000, 62831853071795865089642318331, 100000000, 62831853071795865089685318331⟩,
   ⟨73710000, 0, 2736000000000000013953600000, 5957458955000, 62831853071795865087564318331, 62831853071795865070695318331, 90000000⟩,
   ⟨70630000, 0, 56715000000000000289246500000, 33757047000, 62831853071795865089387318331, 62831853071795865086095318331, 20000000⟩,
   ⟨63830000, 0, 47843000000000000243999300000, 7004513400000, 2141000000, 32400000000, 62831853071795865089535318331⟩,
   ⟨57420000, 0, 26572000000000000135517200000, 32409686605000, 62831853071795865087753318331, 5000000000, 62831853071795865089645318331⟩,
   ⟨43740000, 0, 43443000000000000221559300000, 22128515200000, 62831853071795865086875318331, 62831853071795865076695318331, 50000000⟩,
   ⟨39980000, 0, 32545000000000000165979500000, 33524315160000, 1766000000, 49000000000, 62831853071795865089445318331⟩,
   ⟨32100000, 0, 22443000000000000114459300000, 14985440010000, 62831853071795865087179318331, 62831853071795865073695318331, 60000000⟩,
   ⟨29150000, 0, 17138000000000000087403800000, 24499747670000, 834000000, 31000000000, 62831853071795865089525318331⟩,
   ⟨27320000, 0, 19887000000000000101423700000, 13799823780000, 62831853071795865085352318331, 62831853071795865051695318331, 170000000⟩,
   ⟨25680000, 0, 54122000000000000276022200000, 62831853071795858017607808331, 62831853071795865088119318331, 62831853071795865064695318331, 110000000⟩,
   ⟨25210000, 0, 32427000000000000165377700000, 8470666780000, 62831853071795865087457318331, 62831853071795865070695318331, 70000000⟩,
   ⟨24890000, 0, 40719000000000000207666900000, 62831853071795864603368718331, 62831853071795865085961318331, 62831853071795865045695318331, 200000000⟩,
   ⟨21460000, 0, 56135000000000000286288500000, 62831853071795863137215338331, 645000000, 7000000000, 62831853071795865089665318331⟩,
   ⟨19780000, 0, 27291000000000000139184100000, 39414200000000, 199000000, 37000000000, 62831853071795865089485318331⟩,
   ⟨19340000, 0, 15682000000000000079978200000, 33314765700000, 6092000000, 100000000000, 62831853071795865089195318331⟩,
   ⟨18710000, 0, 4166000000000000021246600000, 30457206620000, 62831853071795865088398318331, 12000000000, 62831853071795865089595318331⟩,
   ⟨17530000, 0, 20582000000000000104968200000, 62831853071795856203689618331, 62831853071795865086315318331, 62831853071795865042695318331, 200000000⟩,
   ⟨14370000, 0, 23860000000000000121686000000, 62831853071795864393819248331, 590000000, 7000000000, 0⟩,
   ⟨13730000, 0, 30260000000000000154326000000, 62831853071795864880145848331, 4330000000, 51000000000, 62831853071795865089495318331⟩,
   ⟨12620000, 0, 59400000000000000302940000000, 16728370520000, 1170000000, 28000000000, 62831853071795865089595318331⟩,
   ⟨12240000, 0, 61720000000000000314772000000, 6656748590000, 62831853071795865085655318331, 62831853071795865048695318331, 200000000⟩,
   ⟨11870000, 0, 58730000000000000299523000000, 6099434310000, 62831853071795865083805318331, 62831853071795865026695318331, 300000000⟩,
   ⟨11770000, 0, 10140000000000000051714000000, 31571835180000, 2410000000, 56000000000, 62831853071795865089395318331⟩,
   ⟨11620000, 0, 38400000000000000195840000000, 9585295340000, 1470000000, 25000000000, 62831853071795865089595318331⟩,
   ⟨11430000, 0, 56390000000000000287589000000, 8364739840000, 62831853071795865087515318331, 62831853071795865070695318331, 100000000⟩,
   ⟨10780000, 0, 12290000000000000062679000000, 70987680000, 62831853071795865087815318331, 62831853071795865067695318331, 100000000⟩,
   ⟨10590000, 0, 33260000000000000169626000000, 40528828560000, 3910000000, 81000000000, 62831853071795865089295318331⟩,
   ⟨9900000, 0, 50130000000000000255663000000, 40738378030000, 62831853071795865089275318331, 30000000000, 62831853071795865089495318331⟩,
   ⟨9480000, 0, 56870000000000000290037000000, 62831853071795847317683908331, 62831853071795865082945318331, 62831853071795864995695318331, 500000000⟩,
   ⟨8760000, 0, 2980000000000000015198000000, 62831853071795865089342998331, 0, 0, 0⟩,
   ⟨8220000, 0, 29940000000000000152694000000, 393020970000, 0, 0, 0⟩,
   ⟨7880000, 0, 18360000000000000093636000000, 8326390220000, 3050000000, 50000000000, 62831853071795865089495318331⟩,
   ⟨7520000, 0, 49850000000000000254235000000, 22614841800000, 910000000, 31000000000, 62831853071795865089495318331⟩,
   ⟨7400000, 0, 28750000000000000146625000000, 8330992620000, 0, 0, 0⟩,
   ⟨6690000, 0, 7440000000000000037944000000, 62831853071795840731922998331, 62831853071795865085095318331, 62831853071795865014695318331, 400000000⟩,
   ⟨6440000, 0, 13140000000000000067014000000, 8393125770000, 62831853071795865087515318331, 62831853071795865070695318331, 100000000⟩,
   ⟨6390000, 0, 58880000000000000300288000000, 575338490000, 0, 0, 0⟩,
   ⟨6350000, 0, 11160000000000000056916000000, 23385119110000, 62831853071795865086825318331, 62831853071795865076695318331, 0⟩,
   ⟨5840000, 0, 51970000000000000265047000000, 24428759990000, 2710000000, 53000000000, 62831853071795865089395318331⟩,
   ⟨5830000, 0, 35130000000000000179163000000, 62831853071795855994140148331, 950000000, 4000000000, 0⟩,
   ⟨5720000, 0, 60590000000000000309009000000, 29970880020000, 62831853071795865084665318331, 62831853071795865057695318331, 100000000⟩,
   ⟨5650000, 0, 29600000000000000150960000000, 328630000, 1520000000, 25000000000, 62831853071795865089595318331⟩,
   ⟨5610000, 0, 40010000000000000204051000000, 62831853071795847108134448331, 62831853071795865087265318331, 62831853071795865046695318331, 200000000⟩,
   ⟨5570000, 0, 5290000000000000026979000000, 7143075190000, 62831853071795865089395318331, 3000000000, 0⟩,
   ⟨5460000, 0, 23110000000000000117861000000, 25614376230000, 4540000000, 75000000000, 62831853071795865089295318331⟩,
   ⟨5360000, 0, 42290000000000000215679000000, 15752303760000, 62831853071795865084705318331, 62831853071795865044695318331, 200000000⟩,
   ⟨4930000, 0, 33160000000000000169116000000, 62831853071795856794760918331, 62831853071795865087865318331, 62831853071795865060695318331, 100000000⟩,
   ⟨4910000, 0, 17440000000000000088944000000, 8362448500000, 1210000000, 21000000000, 62831853071795865089595318331⟩,
   ⟨4780000, 0, 18030000000000000091953000000, 62831853071795855018073418331, 62831853071795865084495318331, 62831853071795865020695318331, 300000000⟩,
   ⟨4540000, 0, 8570000000000000043707000000, 15333204800000, 3660000000, 57000000000, 62831853071795865089395318331⟩,
   ⟨4450000, 0, 20710000000000000105621000000, 8311770700000, 62831853071795865087515318331, 62831853071795865070695318331, 100000000⟩,
   ⟨4260000, 0, 3450000000000000017595000000, 23452693200000, 62831853071795865086255318331, 62831853071795865069695318331, 100000000⟩,
   ⟨4200000, 0, 49410000000000000251991000000, 33733864600000, 62831853071795865087135318331, 62831853071795865087695318331, 0⟩,
   ⟨4130000, 0, 16420000000000000083742000000, 17495234300000, 62831853071795865088385318331, 62831853071795865088695318331, 0⟩,
   ⟨4040000, 0, 14580000000000000074358000000, 23314131400000, 62831853071795865088705318331, 9000000000, 62831853071795865089595318331⟩,
   ⟨3950000, 0, 21320000000000000108732000000, 38299571400000, 62831853071795865086185318331, 62831853071795865083695318331, 0⟩,
   ⟨3820000, 0, 27000000000000000137700000000, 31781384600000, 62831853071795865087775318331, 5000000000, 0⟩,
   ⟨3750000, 0, 48270000000000000246177000000, 6376211400000, 2170000000, 32000000000, 62831853071795865089495318331⟩,
   ⟨3610000, 0, 38670000000000000197217000000, 16833175300000, 62831853071795865088725318331, 3000000000, 0⟩,
   ⟨3580000, 0, 50440000000000000257244000000, 15056427700000, 62831853071795865085295318331, 62831853071795865051695318331, 200000000⟩,
   ⟨3500000, 0, 51570000000000000263007000000, 62831853071795856831991618331, 62831853071795865086295318331, 62831853071795865042695318331, 200000000⟩,
   ⟨3440000, 0, 42330000000000000215883000000, 157734400000, 0, 0, 0⟩,
   ⟨3400000, 0, 26720000000000000136272000000, 13657848400000, 62831853071795865089115318331, 6000000000, 0⟩,
   ⟨3290000, 0, 56100000000000000286110000000, 41853006600000, 3290000000, 74000000000, 62831853071795865089295318331⟩,
   ⟨3250000, 0, 58950000000000000300645000000, 62831853071795865049880418331, 0, 0, 0⟩,
   ⟨3090000, 0, 43870000000000000223737000000, 21500213200000, 62831853071795865086905318331, 62831853071795865076695318331, 100000000⟩,
   ⟨3020000, 0, 12780000000000000065178000000, 786041900000, 0, 0, 0⟩,
   ⟨3020000, 0, 53410000000000000272391000000, 62831853071795840522373518331, 62831853071795865089425318331, 62831853071795865065695318331, 100000000⟩,
   ⟨3010000, 0, 10450000000000000053295000000, 5889884800000, 62831853071795865088125318331, 62831853071795865077695318331, 0⟩,
   ⟨2940000, 0, 42010000000000000214251000000, 62831853071795862718462818331, 62831853071795865086045318331, 62831853071795865045695318331, 200000000⟩,
   ⟨2930000, 0, 37040000000000000188904000000, 21642188600000, 62831853071795865083145318331, 62831853071795865032695318331, 200000000⟩,
   ⟨2900000, 0, 40690000000000000207519000000, 32828439100000, 2360000000, 56000000000, 62831853071795865089395318331⟩,
   ⟨2890000, 0, 34720000000000000177072000000, 31713810500000, 62831853071795865088345318331, 12000000000, 62831853071795865089595318331⟩,
   ⟨2850000, 0, 54070000000000000275757000000, 62831853071795865055913918331, 310000000, 4000000000, 0⟩,
   ⟨2830000, 0, 59980000000000000305898000000, 62831853071795865072774618331, 62831853071795865085985318331, 62831853071795865045695318331, 200000000⟩,
   ⟨2830000, 0, 27720000000000000141372000000, 38785898000000, 230000000, 37000000000, 62831853071795865089495318331⟩,
   ⟨2740000, 0, 53430000000000000272493000000, 15613742000000, 62831853071795865087155318331, 62831853071795865073695318331, 100000000⟩,
   ⟨2630000, 0, 39970000000000000203847000000, 25823925700000, 220000000, 24000000000, 62831853071795865089595318331⟩,
   ⟨2540000, 0, 6000000000000000030600000000, 24638309500000, 62831853071795865088085318331, 2000000000, 0⟩,
   ⟨2530000, 0, 13440000000000000068544000000, 6447199100000, 290000000, 10000000000, 62831853071795865089595318331⟩,
   ⟨2500000, 0, 8870000000000000045237000000, 141975400000, 62831853071795865085935318331, 62831853071795865045695318331, 200000000⟩,
   ⟨2470000, 0, 3170000000000000016167000000, 5329157000000, 62831853071795865087595318331, 62831853071795865070695318331, 100000000⟩,
   ⟨2450000, 0, 1410000000000000007191000000, 36048400000, 62831853071795865085985318331, 62831853071795865045695318331, 200000000⟩,
   ⟨2310000, 0, 22870000000000000116637000000, 14357138100000, 62831853071795865087205318331, 62831853071795865073695318331, 100000000⟩,
   ⟨2270000, 0, 51580000000000000263058000000, 2629800000, 0, 0, 0⟩,
   ⟨2190000, 0, 50850000000000000259335000000, 47742891400000, 1720000000, 63000000000, 62831853071795865089395318331⟩,
   ⟨2110000, 0, 21450000000000000109395000000, 6638724400000, 62831853071795865087515318331, 62831853071795865070695318331, 100000000⟩,
   ⟨2010000, 0, 44150000000000000225165000000, 39623749500000, 62831853071795865085565318331, 62831853071795865075695318331, 0⟩,
   ⟨1940000, 0, 20910000000000000106641000000, 588492700000, 0, 0, 0⟩,
   ⟨1930000, 0, 30570000000000000155907000000, 62831853071795849688916418331, 62831853071795865086595318331, 62831853071795865039695318331, 0⟩,
   ⟨1860000, 0, 55980000000000000285498000000, 16799358200000, 62831853071795865088975318331, 6000000000, 0⟩,
   ⟨1850000, 0, 38860000000000000198186000000, 1150677000000, 0, 0, 0⟩,
   ⟨1830000, 0, 16190000000000000082569000000, 7178014400000, 1520000000, 25000000000, 0⟩,
   ⟨1810000, 0, 26350000000000000134385000000, 8328339100000, 1520000000, 25000000000, 0⟩,
   ⟨1810000, 0, 20770000000000000105927000000, 8329043700000, 1520000000, 25000000000, 0⟩,
   ⟨1790000, 0, 32150000000000000163965000000, 62831853071795855436825918331, 62831853071795865088795318331, 62831853071795865071695318331, 0⟩,
   ⟨1760000, 0, 17160000000000000087516000000, 62831853071795856274677318331, 62831853071795865084435318331, 62831853071795865020695318331, 0⟩,
   ⟨1750000, 0, 56730000000000000289323000000, 550755300000, 0, 0, 0⟩,
   ⟨1700000, 0, 20600000000000000105060000000, 31295058000000, 62831853071795865084095318331, 62831853071795865050695318331, 0⟩,
   ⟨1670000, 0, 12390000000000000063189000000, 7211761700000, 62831853071795865088995318331, 6000000000, 0⟩,
   ⟨1650000, 0, 44990000000000000229449000000, 14967415800000, 62831853071795865088995318331, 6000000000, 0⟩,
   ⟨1640000, 0, 35950000000000000183345000000, 15540453100000, 900000000, 31000000000, 0⟩,
   ⟨1640000, 0, 42370000000000000216087000000, 522369400000, 0, 0, 0⟩,
   ⟨1630000, 0, 46330000000000000236283000000, 15545055500000, 62831853071795865087495318331, 62831853071795865070695318331, 0⟩,
   ⟨1610000, 0, 4780000000000000024378000000, 6428020900000, 62831853071795865087495318331, 62831853071795865070695318331, 0⟩,
   ⟨1580000, 0, 20300000000000000103530000000, 13171521800000, 62831853071795865085395318331, 62831853071795865051695318331, 0⟩,
   ⟨1570000, 0, 22800000000000000116280000000, 7216364100000, 62831853071795865085995318331, 62831853071795865045695318331, 0⟩,
   ⟨1540000, 0, 56500000000000000288150000000, 7935670500000, 1500000000, 25000000000, 0⟩,
   ⟨1520000, 0, 4600000000000000023460000000, 29828904700000, 62831853071795865088395318331, 12000000000, 0⟩,
   ⟨1510000, 0, 11900000000000000060690000000, 62831853071795865088984018331, 0, 0, 0⟩,
   ⟨1500000, 0, 14200000000000000072420000000, 23942433400000, 62831853071795865088695318331, 9000000000, 0⟩,
   ⟨1440000, 0, 27500000000000000140250000000, 7753352900000, 1500000000, 25000000000, 0⟩,
   ⟨1370000, 0, 20800000000000000106080000000, 7213710500000, 62831853071795865087495318331, 62831853071795865070695318331, 0⟩,
   ⟨1370000, 0, 14400000000000000073440000000, 7214415200000, 62831853071795865087495318331, 62831853071795865070695318331, 0⟩,
   ⟨1360000, 0, 44600000000000000227460000000, 62831853071795863904079118331, 62831853071795865087895318331, 62831853071795865067695318331, 0⟩,
   ⟨1360000, 0, 30300000000000000154530000000, 8000104800000, 62831853071795865087495318331, 62831853071795865070695318331, 0⟩,
   ⟨1340000, 0, 28300000000000000144330000000, 14756712400000, 62831853071795865088995318331, 6000000000, 0⟩,
   ⟨1310000, 0, 50500000000000000257550000000, 6821041900000, 62831853071795865087495318331, 62831853071795865070695318331, 0⟩,
   ⟨1280000, 0, 59900000000000000305490000000, 62831853071795847874998218331, 62831853071795865084795318331, 62831853071795865017695318331, 0⟩,
   ⟨1270000, 0, 53500000000000000272850000000, 8721712400000, 1500000000, 25000000000, 0⟩,
   ⟨1260000, 0, 44900000000000000228990000000, 46628262900000, 62831853071795865087695318331, 19000000000, 0⟩,
   ⟨1250000, 0, 59400000000000000302940000000, 7149628500000, 1500000000, 25000000000, 0⟩,
   ⟨1240000, 0, 10900000000000000055590000000, 49067069500000, 1100000000, 55000000000, 0⟩,
   ⟨1210000, 0, 28800000000000000146880000000, 15471766600000, 1200000000, 28000000000, 0⟩,
   ⟨1110000, 0, 39200000000000000199920000000, 41643457100000, 7600000000, 125000000000, 62831853071795865088695318331⟩,
   ⟨1100000, 0, 19600000000000000099960000000, 8904029900000, 1500000000, 25000000000, 0⟩,
   ⟨1060000, 0, 33000000000000000168300000000, 62831853071795865071646418331, 62831853071795865087495318331, 62831853071795865070695318331, 0⟩,
   ⟨1050000, 0, 23000000000000000117300000000, 62831853071795865084764318331, 1500000000, 25000000000, 0⟩,
   ⟨1040000, 0, 22200000000000000113220000000, 62831853071795865083136318331, 62831853071795865087795318331, 62831853071795865067695318331, 0⟩,
   ⟨1010000, 0, 14400000000000000073440000000, 1884905900000, 62831853071795865089595318331, 0, 0⟩,
   ⟨1000000, 0, 59200000000000000301920000000, 5471132400000, 62831853071795865083795318331, 62831853071795865026695318331, 0⟩,
   ⟨990000, 0, 11200000000000000057120000000, 15149733300000, 62831853071795865088995318331, 6000000000, 0⟩,
   ⟨960000, 0, 47300000000000000241230000000, 15508997200000, 62831853071795865089295318331, 10000000000, 0⟩,
   ⟨950000, 0, 51800000000000000264180000000, 7230983500000, 1500000000, 25000000000, 0⟩,
   ⟨930000, 0, 33700000000000000171870000000, 39900526600000, 3900000000, 81000000000, 0⟩,
   ⟨920000, 0, 20100000000000000102510000000, 25057061900000, 2700000000, 53000000000, 0⟩,
   ⟨920000, 0, 12100000000000000061710000000, 62831853071795865010065518331, 0, 0, 0⟩,
   ⟨920000, 0, 16500000000000000084150000000, 62831853071795838779443018331, 62831853071795865085695318331, 62831853071795865021695318331, 0⟩,
   ⟨910000, 0, 10100000000000000051510000000, 42062556100000, 62831853071795865088695318331, 23000000000, 0⟩,
   ⟨900000, 0, 61000000000000000311100000000, 29342578100000, 62831853071795865084695318331, 62831853071795865057695318331, 0⟩,
   ⟨900000, 0, 44300000000000000225930000000, 15542402000000, 62831853071795865088995318331, 6000000000, 0⟩,
   ⟨900000, 0, 38000000000000000193800000000, 15543106600000, 62831853071795865088995318331, 6000000000, 0⟩,
   ⟨890000, 0, 41500000000000000211650000000, 6063385900000, 62831853071795865087495318331, 62831853071795865070695318331, 0⟩,
   ⟨860000, 0, 40300000000000000205530000000, 52969100000, 0, 0, 0⟩,
   ⟨850000, 0, 4900000000000000024990000000, 47952440900000, 62831853071795865087095318331, 11000000000, 0⟩,
   ⟨850000, 0, 16000000000000000081600000000, 7632815400000, 2100000000, 32000000000, 0⟩,
   ⟨840000, 0, 2200000000000000011220000000, 14392077300000, 62831853071795865088995318331, 6000000000, 0⟩,
   ⟨830000, 0, 62200000000000000317220000000, 6028446600000, 62831853071795865085695318331, 62831853071795865048695318331, 0⟩,
   ⟨830000, 0, 6300000000000000032130000000, 62831853071795857179756418331, 2800000000, 26000000000, 0⟩,
   ⟨830000, 0, 52000000000000000265200000000, 62831853071795865012143018331, 0, 0, 0⟩,
   ⟨820000, 0, 27400000000000000139740000000, 8786146700000, 62831853071795865087495318331, 62831853071795865070695318331, 0⟩,
   ⟨800000, 0, 24300000000000000123930000000, 9166542800000, 62831853071795865086895318331, 62831853071795865063695318331, 0⟩,
   ⟨800000, 0, 37000000000000000188700000000, 62831853071795839684522118331, 4100000000, 27000000000, 0⟩,
   ⟨780000, 0, 56800000000000000289680000000, 48857520000000, 5400000000, 106000000000, 62831853071795865088695318331⟩,
   ⟨770000, 0, 18500000000000000094350000000, 8315573500000, 62831853071795865087495318331, 62831853071795865070695318331, 0⟩,
   ⟨750000, 0, 54600000000000000278460000000, 62831853071795846898585018331, 1900000000, 8000000000, 0⟩,
   ⟨750000, 0, 14100000000000000071910000000, 62831853071795848851064918331, 1300000000, 1000000000, 0⟩,
   ⟨740000, 0, 50600000000000000258060000000, 40110076100000, 62831853071795865089295318331, 30000000000, 0⟩,
   ⟨720000, 0, 21000000000000000107100000000, 64434300000, 62831853071795865085995318331, 62831853071795865045695318331, 0⟩,
   ⟨710000, 0, 21700000000000000110670000000, 37671269500000, 62831853071795865086195318331, 62831853071795865083695318331, 0⟩,
   ⟨690000, 0, 17100000000000000087210000000, 16693431300000, 62831853071795865088995318331, 6000000000, 0⟩,
   ⟨690000, 0, 33300000000000000169830000000, 62831853071795838988992518331, 62831853071795865081395318331, 62831853071795864970695318331, 1000000000⟩,
   ⟨680000, 0, 10900000000000000055590000000, 8329402800000, 1500000000, 25000000000, 0⟩,
   ⟨680000, 0, 36200000000000000184620000000, 8327980100000, 1500000000, 25000000000, 0⟩,
   ⟨680000, 0, 24100000000000000122910000000, 16833150900000, 62831853071795865088695318331, 3000000000, 0⟩,
   ⟨670000, 0, 34000000000000000173400000000, 24709297100000, 62831853071795865086195318331, 62831853071795865069695318331, 0⟩,
   ⟨670000, 0, 16500000000000000084150000000, 8346715600000, 62831853071795865089395318331, 3000000000, 0⟩,
   ⟨660000, 0, 26100000000000000133110000000, 22547267700000, 1500000000, 39000000000, 0⟩,
   ⟨660000, 0, 35000000000000000178500000000, 15576511300000, 62831853071795865088695318331, 3000000000, 0⟩,
   ⟨650000, 0, 57600000000000000293760000000, 33037988600000, 62831853071795865087695318331, 5000000000, 0⟩,
   ⟨650000, 0, 45800000000000000233580000000, 8322132500000, 62831853071795865089395318331, 3000000000, 0⟩,
   ⟨650000, 0, 62000000000000000316200000000, 17913986800000, 3000000000, 50000000000, 0⟩,
   ⟨650000, 0, 15000000000000000076500000000, 22685829500000, 62831853071795865088695318331, 9000000000, 0⟩,
   ⟨650000, 0, 23700000000000000120870000000, 7180305800000, 62831853071795865087795318331, 62831853071795865074695318331, 0⟩,
   ⟨640000, 0, 10600000000000000054060000000, 30943533200000, 2400000000, 56000000000, 0⟩,
   ⟨640000, 0, 18900000000000000096390000000, 8288876500000, 1500000000, 25000000000, 0⟩,
   ⟨640000, 0, 47000000000000000239700000000, 6033500000, 300000000, 4000000000, 0⟩,
   ⟨630000, 0, 28300000000000000144330000000, 8368506300000, 1500000000, 25000000000, 0⟩,
   ⟨630000, 0, 56600000000000000288660000000, 62831853071795862508913418331, 700000000, 7000000000, 0⟩,
   ⟨620000, 0, 37800000000000000192780000000, 7056328500000, 62831853071795865087495318331, 62831853071795865070695318331, 0⟩,
   ⟨610000, 0, 14900000000000000075990000000, 8294910000000, 1800000000, 29000000000, 0⟩,
   ⟨610000, 0, 1200000000000000006120000000, 62831853071795854808523918331, 62831853071795865088795318331, 62831853071795865071695318331, 0⟩,
   ⟨610000, 0, 30600000000000000156060000000, 62831853071795856727222418331, 62831853071795865088495318331, 62831853071795865068695318331, 0⟩,
   ⟨610000, 0, 44300000000000000225930000000, 8170957100000, 1500000000, 25000000000, 0⟩,
   ⟨590000, 0, 57800000000000000294780000000, 62831853071795865076577418331, 62831853071795865085995318331, 62831853071795865045695318331, 0⟩,
   ⟨590000, 0, 59700000000000000304470000000, 6625570200000, 62831853071795865087495318331, 62831853071795865070695318331, 0⟩,
   ⟨580000, 0, 50100000000000000255510000000, 62831853071795865089187318331, 62831853071795865089395318331, 0, 0⟩,
   ⟨580000, 0, 27300000000000000139230000000, 7161093800000, 62831853071795865087495318331, 62831853071795865070695318331, 0⟩,
   ⟨570000, 0, 1900000000000000009690000000, 7214062900000, 62831853071795865087495318331, 62831853071795865070695318331, 0⟩,
   ⟨570000, 0, 40000000000000000204000000000, 22199502900000, 62831853071795865084995318331, 62831853071795865054695318331, 0⟩,
   ⟨570000, 0, 53800000000000000274380000000, 8119142000000, 5800000000, 76000000000, 0⟩,
   ⟨560000, 0, 10700000000000000054570000000, 7542649500000, 1500000000, 25000000000, 0⟩,
   ⟨560000, 0, 2800000000000000014280000000, 8486425800000, 1500000000, 25000000000, 0⟩,
   ⟨540000, 0, 41900000000000000213690000000, 16655081600000, 4600000000, 75000000000, 0⟩,
   ⟨530000, 0, 7200000000000000036720000000, 7267032000000, 62831853071795865087495318331, 62831853071795865070695318331, 0⟩,
   ⟨530000, 0, 31200000000000000159120000000, 12619200000, 600000000, 7000000000, 0⟩,
   ⟨520000, 0, 29900000000000000152490000000, 62831853071795832193682318331, 62831853071795865087895318331, 62831853071795865040695318331, 0⟩,
   ⟨520000, 0, 34600000000000000176460000000, 1097708000000, 0, 0, 0⟩,
   ⟨510000, 0, 53700000000000000273870000000, 62831853071795858645909318331, 62831853071795865088095318331, 62831853071795865064695318331, 0⟩,
   ⟨510000, 0, 13500000000000000068850000000, 7789401000000, 62831853071795865087495318331, 62831853071795865070695318331, 0⟩,
   ⟨510000, 0, 58300000000000000297330000000, 40042502000000, 200000000, 38000000000, 0⟩,
   ⟨510000, 0, 36300000000000000185130000000, 9114733000000, 1500000000, 25000000000, 0⟩,
   ⟨500000, 0, 15100000000000000077010000000, 8504484000000, 62831853071795865087195318331, 62831853071795865067695318331, 0⟩,
   ⟨500000, 0, 52300000000000000266730000000, 16659684000000, 1500000000, 25000000000, 0⟩,
   ⟨500000, 0, 11500000000000000058650000000, 7247820000000, 62831853071795865087195318331, 62831853071795865066695318331, 0⟩,
   ⟨470000, 0, 2500000000000000012750000000, 62831853071795863799274318331, 300000000, 0, 0⟩,
   ⟨470000, 0, 46700000000000000238170000000, 62831853071795832403231318331, 62831853071795865083595318331, 62831853071795864989695318331, 0⟩,
   ⟨470000, 0, 34900000000000000177990000000, 548678000000, 0, 0, 0⟩,
   ⟨470000, 0, 23700000000000000120870000000, 6663308000000, 62831853071795865087495318331, 62831853071795865070695318331, 0⟩,
   ⟨460000, 0, 9800000000000000049980000000, 1572084000000, 0, 0, 0⟩,
   ⟨460000, 0, 20400000000000000104040000000, 14954262000000, 62831853071795865088995318331, 6000000000, 0⟩,
   ⟨460000, 0, 37200000000000000189720000000, 6691693000000, 62831853071795865087495318331, 62831853071795865070695318331, 0⟩,
   ⟨450000, 0, 61900000000000000315690000000, 62831853071795864854408318331, 0, 0, 0⟩,
   ⟨440000, 0, 29600000000000000150960000000, 32967001000000, 62831853071795865089595318331, 27000000000, 0⟩,
   ⟨440000, 0, 38200000000000000194820000000, 62831853071795863417752318331, 62831853071795865084095318331, 62831853071795865023695318331, 0⟩,
   ⟨430000, 0, 58200000000000000296820000000, 1179063000000, 0, 0, 0⟩,
   ⟨430000, 0, 700000000000000003570000000, 34152617000000, 1700000000, 49000000000, 0⟩,
   ⟨430000, 0, 37100000000000000189210000000, 6514773000000, 62831853071795865089395318331, 0, 0⟩,
   ⟨430000, 0, 56200000000000000286620000000, 15732000000, 62831853071795865087195318331, 62831853071795865066695318331, 0⟩,
   ⟨430000, 0, 58000000000000000295800000000, 8351233000000, 62831853071795865087495318331, 62831853071795865070695318331, 0⟩,
   ⟨420000, 0, 2700000000000000013770000000, 7740199000000, 1500000000, 25000000000, 0⟩,
   ⟨420000, 0, 61400000000000000313140000000, 15385020000000, 62831853071795865088995318331, 6000000000, 0⟩,
   ⟨420000, 0, 61300000000000000312630000000, 7285051000000, 62831853071795865085595318331, 62831853071795865048695318331, 0⟩,
   ⟨410000, 0, 12700000000000000064770000000, 32757451000000, 4200000000, 78000000000, 0⟩,
   ⟨410000, 0, 44600000000000000227460000000, 8275722000000, 1500000000, 25000000000, 0⟩,
   ⟨400000, 0, 2300000000000000011730000000, 8381661000000, 1500000000, 25000000000, 0⟩,
   ⟨400000, 0, 58700000000000000299370000000, 62831853071795864322831318331, 2500000000, 29000000000, 0⟩,
   ⟨400000, 0, 16600000000000000084660000000, 254431000000, 0, 0, 0⟩,
   ⟨400000, 0, 4000000000000000020400000000, 9027981000000, 62831853071795865089295318331, 0, 0⟩,
   ⟨400000, 0, 29600000000000000150960000000, 7777936000000, 1500000000, 25000000000, 0⟩,
   ⟨390000, 0, 46700000000000000238170000000, 33943068000000, 6100000000, 100000000000, 0⟩,
   ⟨390000, 0, 35200000000000000179520000000, 8326062000000, 1500000000, 25000000000, 0⟩,
   ⟨390000, 0, 37500000000000000191250000000, 21013887000000, 62831853071795865083195318331, 62831853071795865032695318331, 0⟩,
   ⟨390000, 0, 56000000000000000285600000000, 606978000000, 0, 0, 0⟩,
   ⟨390000, 0, 11900000000000000060690000000, 8331321000000, 1500000000, 25000000000, 0⟩,
   ⟨390000, 0, 28400000000000000144840000000, 7211433000000, 62831853071795865087495318331, 62831853071795865070695318331, 0⟩,
   ⟨380000, 0, 6700000000000000034170000000, 7216693000000, 62831853071795865087495318331, 62831853071795865070695318331, 0⟩,
   ⟨380000, 0, 62200000000000000317220000000, 25161867000000, 600000000, 28000000000, 0⟩,
   ⟨380000, 0, 44000000000000000224400000000, 7806322000000, 1500000000, 25000000000, 0⟩,
   ⟨380000, 0, 41600000000000000212160000000, 9179168000000, 62831853071795865087495318331, 62831853071795865070695318331, 0⟩,
   ⟨370000, 0, 47300000000000000241230000000, 14991999000000, 62831853071795865088995318331, 6000000000, 0⟩,
   ⟨360000, 0, 3500000000000000017850000000, 67514000000, 62831853071795865089095318331, 62831853071795865082695318331, 0⟩,
   ⟨360000, 0, 37000000000000000188700000000, 25266611000000, 62831853071795865088095318331, 0, 0⟩,
   ⟨360000, 0, 53900000000000000274890000000, 16328796000000, 62831853071795865088995318331, 6000000000, 0⟩,
   ⟨350000, 0, 14400000000000000073440000000, 7174248000000, 62831853071795865087495318331, 62831853071795865070695318331, 0⟩,
   ⟨350000, 0, 50000000000000000255000000000, 15684730000000, 62831853071795865085295318331, 62831853071795865051695318331, 0⟩,
   ⟨350000, 0, 3900000000000000019890000000, 62831853071795865074276318331, 62831853071795865087495318331, 62831853071795865070695318331, 0⟩,
   ⟨350000, 0, 60700000000000000309570000000, 15020385000000, 62831853071795865088995318331, 6000000000, 0⟩,
   ⟨340000, 0, 60100000000000000306510000000, 7371797000000, 62831853071795865087495318331, 62831853071795865070695318331, 0⟩,
   ⟨340000, 0, 9600000000000000048960000000, 62831853071795848466069318331, 62831853071795865086295318331, 62831853071795865035695318331, 0⟩,
   ⟨330000, 0, 62400000000000000318240000000, 9479368000000, 1500000000, 25000000000, 0⟩,
   ⟨330000, 0, 32100000000000000163710000000, 23661896000000, 5200000000, 82000000000, 0⟩,
   ⟨330000, 0, 40600000000000000207060000000, 8311418000000, 62831853071795865087495318331, 62831853071795865070695318331, 0⟩,
   ⟨330000, 0, 24000000000000000122400000000, 1965105000000, 0, 0, 0⟩,
   ⟨330000, 0, 51700000000000000263670000000, 15489785000000, 62831853071795865088995318331, 6000000000, 0⟩,
   ⟨330000, 0, 50300000000000000256530000000, 21986540000000, 900000000, 31000000000, 0⟩,
   ⟨330000, 0, 41000000000000000209100000000, 16691140000000, 2700000000, 46000000000, 0⟩,
   ⟨330000, 0, 51300000000000000261630000000, 47114589000000, 1700000000, 63000000000, 0⟩,
   ⟨330000, 0, 44500000000000000226950000000, 8917184000000, 1500000000, 25000000000, 0⟩,
   ⟨330000, 0, 42300000000000000215730000000, 2078000000, 0, 0, 0⟩,
   ⟨320000, 0, 23300000000000000118830000000, 75251000000, 1500000000, 25000000000, 0⟩,
   ⟨320000, 0, 21000000000000000107100000000, 7253878000000, 62831853071795865087495318331, 62831853071795865070695318331, 0⟩,
   ⟨320000, 0, 31100000000000000158610000000, 62831853071795865089471318331, 1500000000, 25000000000, 0⟩,
   ⟨320000, 0, 44300000000000000225930000000, 16640462000000, 62831853071795865088995318331, 6000000000, 0⟩,
   ⟨320000, 0, 56800000000000000289680000000, 8328363000000, 0, 0, 0⟩,
   ⟨310000, 0, 53200000000000000271320000000, 8329020000000, 3000000000, 50000000000, 0⟩,
   ⟨310000, 0, 37000000000000000188700000000, 16118093000000, 62831853071795865088995318331, 6000000000, 0⟩,
   ⟨300000, 0, 36700000000000000187170000000, 16721817000000, 62831853071795865088995318331, 6000000000, 0⟩,
   ⟨300000, 0, 52700000000000000268770000000, 62831853071795863208203318331, 62831853071795865088495318331, 62831853071795865074695318331, 0⟩,
   ⟨300000, 0, 57200000000000000291720000000, 8157839000000, 62831853071795865087495318331, 62831853071795865070695318331, 0⟩,
   ⟨290000, 0, 57300000000000000292230000000, 62831853071795846689382318331, 62831853071795865082995318331, 62831853071795864995695318331, 0⟩,
   ⟨290000, 0, 27600000000000000140760000000, 16000000000, 62831853071795865087495318331, 62831853071795865070695318331, 0⟩,
   ⟨290000, 0, 17500000000000000089250000000, 8879447000000, 1500000000, 25000000000, 0⟩,
   ⟨290000, 0, 3200000000000000016320000000, 8851061000000, 1500000000, 25000000000, 0⟩,
   ⟨290000, 0, 9000000000000000045900000000, 14704903000000, 3700000000, 57000000000, 0⟩,
   ⟨280000, 0, 29000000000000000147900000000, 15595723000000, 62831853071795865088995318331, 6000000000, 0⟩,
   ⟨280000, 0, 58800000000000000299880000000, 16864631000000, 200000000, 24000000000, 0⟩,
   ⟨280000, 0, 6300000000000000032130000000, 16869234000000, 62831853071795865086895318331, 62831853071795865063695318331, 0⟩,
   ⟨280000, 0, 40400000000000000206040000000, 62831853071795846479832318331, 62831853071795865087295318331, 62831853071795865046695318331, 0⟩,
   ⟨270000, 0, 58300000000000000297330000000, 6727736000000, 62831853071795865083795318331, 62831853071795865026695318331, 0⟩,
   ⟨270000, 0, 61200000000000000312120000000, 418752000000, 4300000000, 51000000000, 0⟩,
   ⟨270000, 0, 1400000000000000007140000000, 41157131000000, 3900000000, 81000000000, 0⟩,
   ⟨260000, 0, 38000000000000000193800000000, 15542000000, 0, 0, 0⟩,
   ⟨260000, 0, 16800000000000000085680000000, 50181698000000, 4800000000, 99000000000, 62831853071795865088695318331⟩,
   ⟨260000, 0, 3200000000000000016320000000, 315469000000, 0, 0, 0⟩,
   ⟨250000, 0, 56700000000000000289170000000, 19188000000, 300000000, 0, 0⟩,
   ⟨250000, 0, 31600000000000000161160000000, 62133000000, 62831853071795865087495318331, 62831853071795865070695318331, 0⟩,
   ⟨250000, 0, 37600000000000000191760000000, 15502939000000, 62831853071795865088995318331, 6000000000, 0⟩,
   ⟨250000, 0, 45300000000000000231030000000, 45999961000000, 62831853071795865087695318331, 19000000000, 0⟩,
   ⟨240000, 0, 32100000000000000163710000000, 837851000000, 62831853071795865085295318331, 62831853071795865038695318331, 0⟩,
   ⟨240000, 0, 28200000000000000143820000000, 38157596000000, 300000000, 37000000000, 0⟩,
   ⟨240000, 0, 52100000000000000265710000000, 15540124000000, 62831853071795865088995318331, 6000000000, 0⟩,
   ⟨240000, 0, 2600000000000000013260000000, 14218576000000, 0, 13000000000, 0⟩,
   ⟨240000, 0, 30100000000000000153510000000, 15545384000000, 62831853071795865088995318331, 6000000000, 0⟩,
   ⟨240000, 0, 11600000000000000059160000000, 62831853071795847665448318331, 62831853071795865089095318331, 62831853071795865068695318331, 0⟩,
   ⟨230000, 0, 23400000000000000119340000000, 62831853071795865022121318331, 600000000, 7000000000, 0⟩,
   ⟨230000, 0, 24400000000000000124440000000, 18024000000, 62831853071795865087795318331, 62831853071795865067695318331, 0⟩,
   ⟨230000, 0, 37000000000000000188700000000, 469400000000, 0, 0, 0⟩,
   ⟨230000, 0, 7200000000000000036720000000, 7136511000000, 62831853071795865087495318331, 62831853071795865070695318331, 0⟩,
   ⟨230000, 0, 45000000000000000229500000000, 15582569000000, 62831853071795865088995318331, 6000000000, 0⟩,
   ⟨230000, 0, 28000000000000000142800000000, 62831853071795848503300318331, 62831853071795865084795318331, 62831853071795865017695318331, 0⟩,
   ⟨230000, 0, 15100000000000000077010000000, 80182000000, 0, 0, 0⟩,
   ⟨230000, 0, 10900000000000000055590000000, 5261583000000, 62831853071795865088195318331, 62831853071795865077695318331, 0⟩,
   ⟨230000, 0, 5600000000000000028560000000, 54956954000000, 62831853071795865089195318331, 44000000000, 0⟩,
   ⟨230000, 0, 40100000000000000204510000000, 8550860000000, 62831853071795865087495318331, 62831853071795865070695318331, 0⟩,
   ⟨230000, 0, 44600000000000000227460000000, 38995448000000, 62831853071795865085595318331, 62831853071795865075695318331, 0⟩,
   ⟨230000, 0, 38200000000000000194820000000, 2358126000000, 0, 0, 0⟩,
   ⟨220000, 0, 37700000000000000192270000000, 32271125000000, 500000000, 34000000000, 0⟩,
   ⟨220000, 0, 8200000000000000041820000000, 15935775000000, 62831853071795865088995318331, 6000000000, 0⟩,
   ⟨220000, 0, 10700000000000000054570000000, 24013421000000, 62831853071795865086795318331, 62831853071795865076695318331, 0⟩,
   ⟨220000, 0, 4000000000000000020400000000, 8940078000000, 62831853071795865087495318331, 62831853071795865070695318331, 0⟩,
   ⟨220000, 0, 20600000000000000105060000000, 15700489000000, 62831853071795865088995318331, 6000000000, 0⟩,
   ⟨220000, 0, 42700000000000000217770000000, 15124002000000, 62831853071795865084695318331, 62831853071795865044695318331, 0⟩,
   ⟨210000, 0, 11600000000000000059160000000, 56071583000000, 3200000000, 88000000000, 0⟩,
   ⟨210000, 0, 55800000000000000284580000000, 9572189000000, 62831853071795865087495318331, 62831853071795865070695318331, 0⟩,
   ⟨200000, 0, 17000000000000000086700000000, 62831853071795865072422318331, 62831853071795865085995318331, 62831853071795865045695318331, 0⟩,
   ⟨200000, 0, 30500000000000000155550000000, 214617000000, 0, 0, 0⟩,
   ⟨200000, 0, 44100000000000000224910000000, 8391048000000, 62831853071795865087495318331, 62831853071795865070695318331, 0⟩,
   ⟨200000, 0, 59500000000000000303450000000, 23869145000000, 2400000000, 56000000000, 0⟩,
   ⟨200000, 0, 4200000000000000021420000000, 40947927000000, 62831853071795865084995318331, 62831853071795865068695318331, 0⟩,
   ⟨190000, 0, 13900000000000000070890000000, 5818897000000, 300000000, 10000000000, 0⟩,
   ⟨190000, 0, 7100000000000000036210000000, 23873747000000, 62831853071795865088995318331, 6000000000, 0⟩,
   ⟨190000, 0, 28100000000000000143310000000, 7291615000000, 62831853071795865087495318331, 62831853071795865070695318331, 0⟩,
   ⟨190000, 0, 50900000000000000259590000000, 8428018000000, 62831853071795865087495318331, 62831853071795865070695318331, 0⟩,
   ⟨190000, 0, 41400000000000000211140000000, 6518187000000, 62831853071795865088095318331, 62831853071795865077695318331, 0⟩,
   ⟨190000, 0, 38500000000000000196350000000, 21330000000, 0, 0, 0⟩,
   ⟨180000, 0, 6600000000000000033660000000, 14445046000000, 62831853071795865088995318331, 6000000000, 0⟩,
   ⟨180000, 0, 16500000000000000084150000000, 966000000, 62831853071795865085695318331, 62831853071795865041695318331, 0⟩,
   ⟨180000, 0, 56400000000000000287640000000, 62831853071795847945986318331, 62831853071795865082895318331, 62831853071795864995695318331, 0⟩,
   ⟨180000, 0, 60100000000000000306510000000, 7736432000000, 62831853071795865087495318331, 62831853071795865070695318331, 0⟩,
   ⟨180000, 0, 27400000000000000139740000000, 31153083000000, 62831853071795865087795318331, 5000000000, 0⟩,
   ⟨180000, 0, 45800000000000000233580000000, 6116355000000, 62831853071795865087495318331, 62831853071795865070695318331, 0⟩,
   ⟨180000, 0, 22800000000000000116280000000, 46401000000, 300000000, 0, 0⟩,
   ⟨180000, 0, 38000000000000000193800000000, 10213597000000, 1400000000, 25000000000, 0⟩,
   ⟨180000, 0, 28400000000000000144840000000, 56281132000000, 62831853071795865088595318331, 36000000000, 0⟩,
   ⟨180000, 0, 35300000000000000180030000000, 8249062000000, 1500000000, 25000000000, 0⟩,
   ⟨170000, 0, 44300000000000000225930000000, 20871911000000, 62831853071795865086695318331, 62831853071795865076695318331, 0⟩,
   ⟨170000, 0, 44400000000000000226440000000, 627596000000, 0, 0, 0⟩,
   ⟨170000, 0, 18500000000000000094350000000, 628308000000, 0, 0, 0⟩,
   ⟨170000, 0, 11900000000000000060690000000, 8408321000000, 2000000000, 25000000000, 0⟩,
   ⟨170000, 0, 19500000000000000099450000000, 7214056000000, 62831853071795865087695318331, 62831853071795865070695318331, 0⟩,
   ⟨170000, 0, 15700000000000000080070000000, 7214070000000, 62831853071795865087695318331, 62831853071795865070695318331, 0⟩,
   ⟨170000, 0, 16500000000000000084150000000, 13870811000000, 62831853071795865083695318331, 62831853071795865029695318331, 0⟩,
   ⟨170000, 0, 3000000000000000015300000000, 22542000000, 62831853071795865085695318331, 62831853071795865045695318331, 0⟩,
   ⟨170000, 0, 26200000000000000133620000000, 62831853071795864970250318331, 0, 0, 0⟩,
   ⟨160000, 0, 48700000000000000248370000000, 5747909000000, 2000000000, 32000000000, 0⟩,
   ⟨160000, 0, 44500000000000000226950000000, 14339108000000, 62831853071795865088695318331, 6000000000, 0⟩,
   ⟨160000, 0, 18300000000000000093330000000, 41366680000000, 0, 30000000000, 0⟩,
   ⟨160000, 0, 45300000000000000231030000000, 16309618000000, 62831853071795865086695318331, 62831853071795865066695318331, 0⟩,
   ⟨160000, 0, 25400000000000000129540000000, 15542754000000, 62831853071795865088695318331, 6000000000, 0⟩,
   ⟨160000, 0, 60500000000000000308550000000, 1203646000000, 0, 0, 0⟩,
   ⟨150000, 0, 52000000000000000265200000000, 2751147000000, 0, 0, 0⟩,
   ⟨150000, 0, 18000000000000000091800000000, 62831853071795854389771318331, 62831853071795865084695318331, 62831853071795865020695318331, 0⟩,
   ⟨150000, 0, 4000000000000000020400000000, 22824391000000, 62831853071795865086695318331, 62831853071795865069695318331, 0⟩,
   ⟨150000, 0, 21000000000000000107100000000, 30666756000000, 62831853071795865083695318331, 62831853071795865050695318331, 0⟩,
   ⟨150000, 0, 21000000000000000107100000000, 6010417000000, 62831853071795865087695318331, 62831853071795865070695318331, 0⟩,
   ⟨150000, 0, 7000000000000000035700000000, 62831853071795841360225318331, 62831853071795865084695318331, 62831853071795865014695318331, 0⟩,
   ⟨150000, 0, 14000000000000000071400000000, 14363691000000, 62831853071795865088695318331, 6000000000, 0⟩,
   ⟨150000, 0, 58000000000000000295800000000, 16900689000000, 62831853071795865087695318331, 0, 0⟩,
   ⟨150000, 0, 52000000000000000265200000000, 23800458000000, 3000000000, 53000000000, 0⟩,
   ⟨150000, 0, 53000000000000000270300000000, 6035000000000, 62831853071795865087695318331, 62831853071795865070695318331, 0⟩,
   ⟨150000, 0, 12000000000000000061200000000, 8251139000000, 2000000000, 25000000000, 0⟩,
   ⟨150000, 0, 36000000000000000183600000000, 62831853071795865080835318331, 0, 0, 0⟩,
   ⟨150000, 0, 8000000000000000040800000000, 882739000000, 0, 0, 0⟩,
   ⟨150000, 0, 30000000000000000153000000000, 1021329000000, 0, 0, 0⟩,
   ⟨150000, 0, 6000000000000000030600000000, 23296107000000, 1000000000, 31000000000, 0⟩,
   ⟨140000, 0, 54000000000000000275400000000, 7227181000000, 2000000000, 25000000000, 0⟩,
   ⟨140000, 0, 1000000000000000005100000000, 7213352000000, 62831853071795865087695318331, 62831853071795865070695318331, 0⟩,
   ⟨140000, 0, 40000000000000000204000000000, 15506706000000, 3000000000, 50000000000, 0⟩,
   ⟨140000, 0, 34000000000000000173400000000, 7214774000000, 62831853071795865087695318331, 62831853071795865070695318331, 0⟩,
   ⟨140000, 0, 46000000000000000234600000000, 6665385000000, 62831853071795865087695318331, 62831853071795865070695318331, 0⟩,
   ⟨140000, 0, 1000000000000000005100000000, 62831853071795865081059318331, 62831853071795865087695318331, 62831853071795865067695318331, 0⟩,
   ⟨140000, 0, 31000000000000000158100000000, 15465202000000, 62831853071795865088695318331, 6000000000, 0⟩,
   ⟨140000, 0, 49000000000000000249900000000, 508863000000, 0, 0, 0⟩,
   ⟨140000, 0, 35000000000000000178500000000, 8406244000000, 2000000000, 25000000000, 0⟩,
   ⟨140000, 0, 13000000000000000066300000000, 13313497000000, 62831853071795865081695318331, 62831853071795865007695318331, 0⟩,
   ⟨140000, 0, 28000000000000000142800000000, 49276619000000, 62831853071795865086695318331, 0, 0⟩,
   ⟨140000, 0, 1000000000000000005100000000, 30528194000000, 62831853071795865086695318331, 62831853071795865079695318331, 0⟩,
   ⟨130000, 0, 17000000000000000086700000000, 25128050000000, 1000000000, 31000000000, 0⟩,
   ⟨130000, 0, 29000000000000000147900000000, 14128405000000, 62831853071795865088695318331, 6000000000, 0⟩,
   ⟨130000, 0, 34000000000000000173400000000, 57395761000000, 3000000000, 80000000000, 0⟩,
   ⟨130000, 0, 27000000000000000137700000000, 13029546000000, 62831853071795865088695318331, 6000000000, 0⟩,
   ⟨130000, 0, 39000000000000000198900000000, 7802556000000, 62831853071795865087695318331, 62831853071795865070695318331, 0⟩,
   ⟨130000, 0, 16000000000000000081600000000, 8258802000000, 62831853071795865087695318331, 62831853071795865070695318331, 0⟩,
   ⟨130000, 0, 22000000000000000112200000000, 8417709000000, 62831853071795865087695318331, 62831853071795865070695318331, 0⟩,
   ⟨130000, 0, 7000000000000000035700000000, 9965210000000, 62831853071795865087695318331, 62831853071795865070695318331, 0⟩,
   ⟨130000, 0, 34000000000000000173400000000, 50391247000000, 0, 48000000000, 0⟩,
   ⟨130000, 0, 30000000000000000153000000000, 7134433000000, 62831853071795865087695318331, 62831853071795865070695318331, 0⟩,
   ⟨130000, 0, 29000000000000000147900000000, 30599182000000, 62831853071795865084695318331, 62831853071795865058695318331, 0⟩,
   ⟨130000, 0, 36000000000000000183600000000, 62831853071795855365838318331, 1000000000, 0, 0⟩,
   ⟨130000, 0, 48000000000000000244800000000, 7607084000000, 62831853071795865087695318331, 62831853071795865070695318331, 0⟩,
   ⟨120000, 0, 8000000000000000040800000000, 23837689000000, 1000000000, 35000000000, 0⟩,
   ⟨120000, 0, 36000000000000000183600000000, 4409000000, 62831853071795865085695318331, 62831853071795865045695318331, 0⟩,
   ⟨120000, 0, 50000000000000000255000000000, 16657031000000, 3000000000, 50000000000, 0⟩,
   ⟨120000, 0, 44000000000000000224400000000, 16657735000000, 3000000000, 50000000000, 0⟩,
   ⟨120000, 0, 11000000000000000056100000000, 15578803000000, 62831853071795865085695318331, 62831853071795865051695318331, 0⟩,
   ⟨120000, 0, 60000000000000000306000000000, 62831853071795865078205318331, 0, 0, 0⟩,
   ⟨120000, 0, 19000000000000000096900000000, 8164398000000, 0, 0, 0⟩,
   ⟨120000, 0, 24000000000000000122400000000, 31852372000000, 62831853071795865085695318331, 62831853071795865072695318331, 0⟩,
   ⟨120000, 0, 24000000000000000122400000000, 6607085000000, 62831853071795865087695318331, 62831853071795865070695318331, 0⟩,
   ⟨120000, 0, 42000000000000000214200000000, 8359870000000, 0, 0, 0⟩,
   ⟨120000, 0, 5000000000000000025500000000, 5799713000000, 62831853071795865087695318331, 62831853071795865070695318331, 0⟩,
   ⟨120000, 0, 27000000000000000137700000000, 7220622000000, 0, 0, 0⟩,
   ⟨120000, 0, 43000000000000000219300000000, 62831853071795864949975318331, 0, 0, 0⟩,
   ⟨120000, 0, 23000000000000000117300000000, 13728836000000, 62831853071795865087695318331, 62831853071795865073695318331, 0⟩,
   ⟨110000, 0, 36000000000000000183600000000, 14912146000000, 1000000000, 31000000000, 0⟩,
   ⟨110000, 0, 47000000000000000239700000000, 14916748000000, 62831853071795865087695318331, 62831853071795865070695318331, 0⟩]

/-- `XL1 1` -/
def XL1r_1 : List MRow :=
  [⟨16768000, 0, 46692600000000000238132260000, 628301955000, 62831853071795865089668718331, 100000000, 62831853071795865089690318331⟩,
   ⟨5164200, 0, 33721000000000000171977100000, 6585760910000, 62831853071795865087537318331, 62831853071795865070795318331, 90000000⟩,
   ⟨4138300, 0, 57277000000000000292112700000, 14914452335000, 62831853071795865089060318331, 6200000000, 62831853071795865089655318331⟩,
   ⟨3711500, 0, 39695000000000000202444500000, 7700389469000, 1550000000, 25000000000, 62831853071795865089575318331⟩,
   ⟨2756000, 0, 7416000000000000037821600000, 8956993380000, 1496000000, 25100000000, 62831853071795865089565318331⟩,
   ⟨2459900, 0, 42253000000000000215490300000, 62831853071795865087394118331, 1523000000, 25100000000, 62831853071795865089575318331⟩,
   ⟨711800, 0, 1443000000000000007359300000, 7842364820000, 62831853071795865087484318331, 62831853071795865070695318331, 80000000⟩,
   ⟨612800, 0, 24998000000000000127489800000, 16171056250000, 62831853071795865089007318331, 6000000000, 0⟩,
   ⟨451600, 0, 4430000000000000022593000000, 8399679100000, 62831853071795865089335318331, 3000000000, 0⟩,
   ⟨404800, 0, 57710000000000000294321000000, 14286150380000, 62831853071795865089085318331, 6000000000, 0⟩,
   ⟨374700, 0, 46260000000000000235926000000, 1256603910000, 62831853071795865089645318331, 0, 0⟩,
   ⟨370700, 0, 34150000000000000174165000000, 5957458950000, 62831853071795865087565318331, 62831853071795865070695318331, 100000000⟩,
   ⟨364900, 0, 18000000000000000091800000000, 23243143760000, 890000000, 31000000000, 62831853071795865089495318331⟩,
   ⟨243800, 0, 420000000000000002142000000, 16029080890000, 3070000000, 50000000000, 62831853071795865089495318331⟩,
   ⟨216500, 0, 10170000000000000051867000000, 62831853071795863346764808331, 62831853071795865086015318331, 62831853071795865045695318331, 200000000⟩,
   ⟨192300, 0, 30970000000000000157947000000, 17285684800000, 3020000000, 50000000000, 62831853071795865089395318331⟩,
   ⟨169200, 0, 12800000000000000065280000000, 328600000, 1520000000, 25000000000, 62831853071795865089595318331⟩,
   ⟨136100, 0, 2980000000000000015198000000, 8326390200000, 3050000000, 50000000000, 62831853071795865089495318331⟩,
   ⟨129300, 0, 40130000000000000204663000000, 7072087500000, 1580000000, 25000000000, 62831853071795865089595318331⟩,
   ⟨127600, 0, 44130000000000000225063000000, 8330992600000, 0, 0, 0⟩,
   ⟨127000, 0, 1010000000000000005151000000, 8470666800000, 62831853071795865087455318331, 62831853071795865070695318331, 100000000⟩,
   ⟨109700, 0, 12030000000000000061353000000, 22128515200000, 62831853071795865086875318331, 62831853071795865076695318331, 0⟩,
   ⟨108800, 0, 25450000000000000129795000000, 15542754300000, 62831853071795865089035318331, 6000000000, 0⟩,
   ⟨83500, 0, 1900000000000000009690000000, 7214062900000, 62831853071795865087515318331, 62831853071795865070695318331, 100000000⟩,
   ⟨73400, 0, 48550000000000000247605000000, 24499747700000, 830000000, 31000000000, 62831853071795865089495318331⟩,
   ⟨68600, 0, 51300000000000000261630000000, 13799823800000, 62831853071795865085355318331, 62831853071795865051695318331, 200000000⟩,
   ⟨63100, 0, 9300000000000000047430000000, 62831853071795864603368718331, 62831853071795865085965318331, 62831853071795865045695318331, 0⟩,
   ⟨58500, 0, 6990000000000000035649000000, 9585295300000, 1500000000, 25000000000, 0⟩,
   ⟨56600, 0, 40730000000000000207723000000, 8328339100000, 1500000000, 25000000000, 0⟩,
   ⟨56600, 0, 6380000000000000032538000000, 8329043700000, 1500000000, 25000000000, 0⟩,
   ⟨53900, 0, 24720000000000000126072000000, 62831853071795863137215318331, 600000000, 7000000000, 0⟩,
   ⟨50900, 0, 28800000000000000146880000000, 62831853071795865088984018331, 0, 0, 0⟩,
   ⟨46900, 0, 35600000000000000181560000000, 30457206600000, 62831853071795865088395318331, 12000000000, 0⟩,
   ⟨38700, 0, 7800000000000000039780000000, 62831853071795865089343018331, 0, 0, 0⟩,
   ⟨37800, 0, 18400000000000000093840000000, 22614841800000, 900000000, 31000000000, 0⟩,
   ⟨36200, 0, 55300000000000000282030000000, 62831853071795864393819218331, 600000000, 7000000000, 0⟩,
   ⟨31700, 0, 28000000000000000142800000000, 16728370500000, 1200000000, 28000000000, 0⟩,
   ⟨30300, 0, 60700000000000000309570000000, 157734400000, 0, 0, 0⟩,
   ⟨30000, 0, 25300000000000000129030000000, 33757000000, 62831853071795865089395318331, 62831853071795865085695318331, 0⟩,
   ⟨29500, 0, 41600000000000000212160000000, 31571835200000, 2400000000, 56000000000, 0⟩,
   ⟨28900, 0, 59800000000000000304980000000, 7211761700000, 62831853071795865088995318331, 6000000000, 0⟩,
   ⟨28500, 0, 20600000000000000105060000000, 15540453100000, 900000000, 31000000000, 0⟩,
   ⟨28300, 0, 26500000000000000135150000000, 2629800000, 0, 0, 0⟩,
   ⟨28200, 0, 61700000000000000314670000000, 15545055500000, 62831853071795865087495318331, 62831853071795865070695318331, 0⟩,
   ⟨27800, 0, 12300000000000000062730000000, 62831853071795865049880418331, 0, 0, 0⟩,
   ⟨27200, 0, 38200000000000000194820000000, 7216364100000, 62831853071795865085995318331, 62831853071795865045695318331, 0⟩,
   ⟨27000, 0, 43700000000000000222870000000, 70987700000, 62831853071795865087795318331, 62831853071795865067695318331, 0⟩,
   ⟨25600, 0, 58100000000000000296310000000, 13657848400000, 62831853071795865089095318331, 6000000000, 0⟩,
   ⟨24400, 0, 56400000000000000287640000000, 62831853071795865089471618331, 1500000000, 25000000000, 0⟩,
   ⟨24000, 0, 29600000000000000150960000000, 8311770700000, 62831853071795865087495318331, 62831853071795865070695318331, 0⟩,
   ⟨23900, 0, 8700000000000000044370000000, 62831853071795865055913918331, 300000000, 4000000000, 0⟩,
   ⟨21600, 0, 23100000000000000117810000000, 15999500000, 62831853071795865087495318331, 62831853071795865070695318331, 0⟩,
   ⟨18600, 0, 34600000000000000176460000000, 5329157000000, 62831853071795865087595318331, 62831853071795865070695318331, 0⟩,
   ⟨16900, 0, 24000000000000000122400000000, 24357772000000, 4600000000, 75000000000, 0⟩,
   ⟨16100, 0, 58000000000000000295800000000, 8329403000000, 1500000000, 25000000000, 0⟩,
   ⟨16100, 0, 52000000000000000265200000000, 8327980000000, 1500000000, 25000000000, 0⟩,
   ⟨16000, 0, 42600000000000000217260000000, 23385119000000, 62831853071795865086795318331, 62831853071795865076695318331, 0⟩,
   ⟨15600, 0, 12600000000000000064260000000, 550755000000, 0, 0, 0⟩,
   ⟨15500, 0, 12500000000000000063750000000, 21500213000000, 62831853071795865086895318331, 62831853071795865076695318331, 0⟩,
   ⟨15200, 0, 6000000000000000030600000000, 62831853071795865072774318331, 62831853071795865085995318331, 62831853071795865045695318331, 0⟩,
   ⟨15000, 0, 27100000000000000138210000000, 62831853071795865010065318331, 0, 0, 0⟩,
   ⟨15000, 0, 52900000000000000269790000000, 15542000000, 0, 0, 0⟩,
   ⟨14800, 0, 10600000000000000054060000000, 62831853071795862718463318331, 62831853071795865085995318331, 62831853071795865045695318331, 0⟩,
   ⟨14100, 0, 7700000000000000039270000000, 8328691000000, 1500000000, 25000000000, 0⟩,
   ⟨14100, 0, 36700000000000000187170000000, 7143075000000, 62831853071795865089395318331, 0, 0⟩,
   ⟨13800, 0, 54500000000000000277950000000, 25614376000000, 4500000000, 75000000000, 0⟩,
   ⟨12900, 0, 49000000000000000249900000000, 23871446000000, 900000000, 31000000000, 0⟩,
   ⟨12600, 0, 40300000000000000205530000000, 141975000000, 62831853071795865085895318331, 62831853071795865045695318331, 0⟩,
   ⟨12400, 0, 60100000000000000306510000000, 522369000000, 0, 0, 0⟩,
   ⟨12000, 0, 49400000000000000251940000000, 62831853071795855018073318331, 62831853071795865084495318331, 62831853071795865020695318331, 0⟩,
   ⟨11800, 0, 50700000000000000258570000000, 62831853071795865074276318331, 62831853071795865087495318331, 62831853071795865070695318331, 0⟩,
   ⟨10700, 0, 34900000000000000177990000000, 23452693000000, 62831853071795865086295318331, 62831853071795865069695318331, 0⟩,
   ⟨10400, 0, 47800000000000000243780000000, 17495234000000, 62831853071795865088395318331, 0, 0⟩,
   ⟨10300, 0, 14400000000000000073440000000, 62831853071795865071646318331, 62831853071795865087495318331, 62831853071795865070695318331, 0⟩,
   ⟨10200, 0, 56300000000000000287130000000, 15542402000000, 62831853071795865088995318331, 6000000000, 0⟩,
   ⟨10200, 0, 25900000000000000132090000000, 15543107000000, 62831853071795865088995318331, 6000000000, 0⟩,
   ⟨10000, 0, 41100000000000000209610000000, 62831853071795865083136318331, 62831853071795865087795318331, 62831853071795865067695318331, 0⟩,
   ⟨9700, 0, 800000000000000004080000000, 15400779000000, 3100000000, 50000000000, 0⟩,
   ⟨9600, 0, 58400000000000000297840000000, 31781385000000, 62831853071795865087795318331, 5000000000, 0⟩,
   ⟨9400, 0, 10800000000000000055080000000, 8328363000000, 0, 0, 0⟩,
   ⟨9400, 0, 24600000000000000125460000000, 16799358000000, 62831853071795865088995318331, 6000000000, 0⟩,
   ⟨9400, 0, 16900000000000000086190000000, 6376211000000, 2200000000, 32000000000, 0⟩,
   ⟨9300, 0, 36400000000000000185640000000, 8329020000000, 3000000000, 50000000000, 0⟩,
   ⟨9300, 0, 26500000000000000135150000000, 16655082000000, 4600000000, 75000000000, 0⟩,
   ⟨9000, 0, 19000000000000000096900000000, 15056428000000, 62831853071795865085295318331, 62831853071795865051695318331, 0⟩,
   ⟨8900, 0, 15900000000000000081090000000, 52969000000, 0, 0, 0⟩,
   ⟨8800, 0, 20200000000000000103020000000, 62831853071795856831991318331, 62831853071795865086295318331, 62831853071795865042695318331, 0⟩,
   ⟨8800, 0, 30200000000000000154020000000, 7213711000000, 62831853071795865087495318331, 62831853071795865070695318331, 0⟩,
   ⟨8700, 0, 5000000000000000025500000000, 7214415000000, 62831853071795865087495318331, 62831853071795865070695318331, 0⟩,
   ⟨8700, 0, 4900000000000000024990000000, 16659684000000, 1500000000, 25000000000, 0⟩,
   ⟨8200, 0, 56400000000000000287640000000, 62831853071795865084764318331, 1500000000, 25000000000, 0⟩,
   ⟨7900, 0, 51700000000000000263670000000, 13171522000000, 62831853071795865085395318331, 62831853071795865051695318331, 0⟩,
   ⟨7600, 0, 36000000000000000183600000000, 29828905000000, 62831853071795865088395318331, 12000000000, 0⟩,
   ⟨7600, 0, 40800000000000000208080000000, 24567322000000, 300000000, 24000000000, 0⟩,
   ⟨7600, 0, 45800000000000000233580000000, 1884906000000, 62831853071795865089595318331, 0, 0⟩,
   ⟨7300, 0, 3300000000000000016830000000, 31713811000000, 62831853071795865088295318331, 12000000000, 0⟩,
   ⟨7300, 0, 9300000000000000047430000000, 32828439000000, 2400000000, 56000000000, 0⟩,
   ⟨7100, 0, 59100000000000000301410000000, 38785898000000, 200000000, 37000000000, 0⟩,
   ⟨6900, 0, 22000000000000000112200000000, 15613742000000, 62831853071795865087195318331, 62831853071795865073695318331, 0⟩,
   ⟨6600, 0, 38700000000000000197370000000, 15732000000, 62831853071795865087195318331, 62831853071795865066695318331, 0⟩,
   ⟨6600, 0, 8600000000000000043860000000, 25823926000000, 200000000, 24000000000, 0⟩,
   ⟨6500, 0, 25200000000000000128520000000, 8170957000000, 1500000000, 25000000000, 0⟩,
   ⟨6300, 0, 1800000000000000009180000000, 8322132000000, 62831853071795865089395318331, 0, 0⟩,
   ⟨6000, 0, 58400000000000000297840000000, 8326062000000, 1500000000, 25000000000, 0⟩,
   ⟨6000, 0, 51500000000000000262650000000, 8331321000000, 1500000000, 25000000000, 0⟩,
   ⟨6000, 0, 21800000000000000111180000000, 8486426000000, 1500000000, 25000000000, 0⟩,
   ⟨5800, 0, 23000000000000000117300000000, 62831853071795865087964318331, 62831853071795865085695318331, 62831853071795865045695318331, 0⟩,
   ⟨5800, 0, 54300000000000000276930000000, 14357138000000, 62831853071795865087695318331, 62831853071795865073695318331, 0⟩,
   ⟨5700, 0, 30900000000000000157590000000, 8294910000000, 2000000000, 29000000000, 0⟩,
   ⟨5700, 0, 46700000000000000238170000000, 62831853071795856727222318331, 62831853071795865088695318331, 62831853071795865068695318331, 0⟩,
   ⟨5600, 0, 41500000000000000211650000000, 16833151000000, 62831853071795865088695318331, 0, 0⟩,
   ⟨5400, 0, 19300000000000000098430000000, 7056329000000, 62831853071795865087695318331, 62831853071795865070695318331, 0⟩,
   ⟨5400, 0, 52700000000000000268770000000, 8315574000000, 62831853071795865087695318331, 62831853071795865070695318331, 0⟩,
   ⟨5200, 0, 56000000000000000285600000000, 8311418000000, 62831853071795865087695318331, 62831853071795865070695318331, 0⟩,
   ⟨5200, 0, 27000000000000000137700000000, 62831853071795865012143318331, 0, 0, 0⟩,
   ⟨5100, 0, 43000000000000000219300000000, 7230984000000, 2000000000, 25000000000, 0⟩,
   ⟨5000, 0, 4000000000000000020400000000, 62831853071795865089187318331, 0, 0, 0⟩,
   ⟨4900, 0, 54000000000000000275400000000, 7211433000000, 62831853071795865087695318331, 62831853071795865070695318331, 0⟩,
   ⟨4900, 0, 44000000000000000224400000000, 7216693000000, 62831853071795865087695318331, 62831853071795865070695318331, 0⟩,
   ⟨4900, 0, 43000000000000000219300000000, 16864631000000, 0, 24000000000, 0⟩,
   ⟨4900, 0, 22000000000000000112200000000, 16869234000000, 62831853071795865086695318331, 62831853071795865063695318331, 0⟩,
   ⟨4700, 0, 61000000000000000311100000000, 627596000000, 0, 0, 0⟩,
   ⟨4700, 0, 50000000000000000255000000000, 12619000000, 1000000000, 7000000000, 0⟩,
   ⟨4500, 0, 49000000000000000249900000000, 62831853071795856274677318331, 62831853071795865084695318331, 62831853071795865020695318331, 0⟩,
   ⟨4400, 0, 16000000000000000081600000000, 62133000000, 62831853071795865087695318331, 62831853071795865070695318331, 0⟩,
   ⟨4200, 0, 29000000000000000147900000000, 62831853071795865076577318331, 62831853071795865085695318331, 62831853071795865045695318331, 0⟩,
   ⟨4200, 0, 41000000000000000209100000000, 62831853071795864970250318331, 0, 0, 0⟩,
   ⟨4100, 0, 43000000000000000219300000000, 22756817000000, 62831853071795865086695318331, 62831853071795865076695318331, 0⟩,
   ⟨4100, 0, 36000000000000000183600000000, 8288877000000, 2000000000, 25000000000, 0⟩,
   ⟨4000, 0, 5000000000000000025500000000, 6663308000000, 62831853071795865087695318331, 62831853071795865070695318331, 0⟩,
   ⟨4000, 0, 11000000000000000056100000000, 8368506000000, 2000000000, 25000000000, 0⟩,
   ⟨3900, 0, 41000000000000000209100000000, 6443786000000, 2000000000, 25000000000, 0⟩,
   ⟨3900, 0, 31000000000000000158100000000, 16657383000000, 3000000000, 50000000000, 0⟩,
   ⟨3800, 0, 1000000000000000005100000000, 16657031000000, 3000000000, 50000000000, 0⟩,
   ⟨3800, 0, 30000000000000000153000000000, 16657735000000, 3000000000, 50000000000, 0⟩,
   ⟨3800, 0, 46000000000000000234600000000, 23942433000000, 62831853071795865088695318331, 9000000000, 0⟩,
   ⟨3700, 0, 43000000000000000219300000000, 15385020000000, 62831853071795865088695318331, 6000000000, 0⟩,
   ⟨3700, 0, 50000000000000000255000000000, 548678000000, 0, 0, 0⟩,
   ⟨3600, 0, 18000000000000000091800000000, 7213352000000, 62831853071795865087695318331, 62831853071795865070695318331, 0⟩,
   ⟨3600, 0, 17000000000000000086700000000, 7214774000000, 62831853071795865087695318331, 62831853071795865070695318331, 0⟩,
   ⟨3500, 0, 11000000000000000056100000000, 7777936000000, 2000000000, 25000000000, 0⟩,
   ⟨3500, 0, 16000000000000000081600000000, 62831853071795865080835318331, 0, 0, 0⟩,
   ⟨3500, 0, 44000000000000000224400000000, 23869145000000, 2000000000, 56000000000, 0⟩,
   ⟨3500, 0, 20000000000000000102000000000, 6691693000000, 62831853071795865087695318331, 62831853071795865070695318331, 0⟩,
   ⟨3400, 0, 13000000000000000066300000000, 62831853071795863904079318331, 62831853071795865087695318331, 62831853071795865067695318331, 0⟩,
   ⟨3400, 0, 22000000000000000112200000000, 23873747000000, 62831853071795865088695318331, 6000000000, 0⟩,
   ⟨3300, 0, 20000000000000000102000000000, 62831853071795864854408318331, 0, 0, 0⟩,
   ⟨3300, 0, 31000000000000000158100000000, 17913987000000, 3000000000, 50000000000, 0⟩,
   ⟨3300, 0, 10000000000000000051000000000, 8351233000000, 62831853071795865087695318331, 62831853071795865070695318331, 0⟩]

/-- `XL1 2` -/
def XL1r_2 : List MRow :=
  [⟨48700, 0, 46693000000000000238134300000, 628301960000, 62831853071795865089668318331, 0, 62831853071795865089685318331⟩,
   ⟨22800, 0, 26746000000000000136404600000, 62831853071795865087394118331, 1523000000, 25000000000, 62831853071795865089575318331⟩,
   ⟨15000, 0, 33720000000000000171972000000, 6585760910000, 62831853071795865087535318331, 62831853071795865070695318331, 100000000⟩,
   ⟨12000, 0, 57280000000000000292128000000, 14914452330000, 62831853071795865089055318331, 6000000000, 0⟩,
   ⟨10800, 0, 39690000000000000202419000000, 7700389470000, 1550000000, 25000000000, 62831853071795865089595318331⟩,
   ⟨8000, 0, 7420000000000000037842000000, 8956993380000, 1500000000, 25000000000, 62831853071795865089595318331⟩,
   ⟨2540, 0, 60020000000000000306102000000, 328600000, 1520000000, 25000000000, 62831853071795865089595318331⟩,
   ⟨2100, 0, 1440000000000000007344000000, 7842364800000, 62831853071795865087485318331, 62831853071795865070695318331, 0⟩,
   ⟨1800, 0, 25000000000000000127500000000, 16171056200000, 62831853071795865088995318331, 6000000000, 0⟩,
   ⟨1300, 0, 4400000000000000022440000000, 8399679100000, 62831853071795865089295318331, 3000000000, 0⟩,
   ⟨1260, 0, 50300000000000000256530000000, 8326390200000, 3000000000, 50000000000, 0⟩,
   ⟨1200, 0, 57700000000000000294270000000, 14286150400000, 62831853071795865089095318331, 6000000000, 0⟩,
   ⟨1180, 0, 59600000000000000303960000000, 8330992600000, 0, 0, 0⟩,
   ⟨1100, 0, 18000000000000000091800000000, 23243143800000, 900000000, 31000000000, 0⟩,
   ⟨1100, 0, 34200000000000000174420000000, 5957459000000, 62831853071795865087595318331, 62831853071795865070695318331, 0⟩,
   ⟨1100, 0, 46300000000000000236130000000, 1256603900000, 62831853071795865089595318331, 0, 0⟩,
   ⟨990, 0, 47000000000000000239700000000, 62831853071795865088984018331, 0, 0, 0⟩,
   ⟨700, 0, 400000000000000002040000000, 16029080900000, 3100000000, 50000000000, 0⟩,
   ⟨700, 0, 51400000000000000262140000000, 8328339100000, 1500000000, 25000000000, 0⟩,
   ⟨700, 0, 58500000000000000298350000000, 8329043700000, 1500000000, 25000000000, 0⟩,
   ⟨600, 0, 10200000000000000052020000000, 62831853071795863346764818331, 62831853071795865085995318331, 62831853071795865045695318331, 0⟩,
   ⟨600, 0, 31000000000000000158100000000, 17285684800000, 3000000000, 50000000000, 0⟩,
   ⟨540, 0, 56900000000000000290190000000, 62831853071795865089343318331, 0, 0, 0⟩,
   ⟨430, 0, 5200000000000000026520000000, 15542000000, 0, 0, 0⟩,
   ⟨410, 0, 20300000000000000103530000000, 2630000000, 0, 0, 0⟩,
   ⟨400, 0, 1000000000000000005100000000, 8470667000000, 62831853071795865087495318331, 62831853071795865070695318331, 0⟩,
   ⟨400, 0, 40100000000000000204510000000, 7072088000000, 1600000000, 25000000000, 0⟩,
   ⟨360, 0, 29300000000000000149430000000, 62831853071795865080835318331, 62831853071795865089395318331, 0, 0⟩,
   ⟨300, 0, 12000000000000000061200000000, 22128515000000, 62831853071795865086895318331, 62831853071795865076695318331, 0⟩,
   ⟨300, 0, 25400000000000000129540000000, 15542754000000, 62831853071795865088995318331, 6000000000, 0⟩,
   ⟨270, 0, 44300000000000000225930000000, 7211762000000, 62831853071795865088995318331, 6000000000, 0⟩,
   ⟨260, 0, 5100000000000000026010000000, 15540453000000, 900000000, 31000000000, 0⟩,
   ⟨260, 0, 14400000000000000073440000000, 15545055000000, 62831853071795865087495318331, 62831853071795865070695318331, 0⟩,
   ⟨250, 0, 53700000000000000273870000000, 7216364000000, 62831853071795865085995318331, 62831853071795865045695318331, 0⟩]

/-- `XL1 3` -/
def XL1r_3 : List MRow :=
  [⟨120, 0, 10410000000000000053091000000, 62831853071795865087394118331, 1520000000, 25000000000, 62831853071795865089595318331⟩,
   ⟨17, 0, 3100000000000000015810000000, 62831853071795865088984318331, 0, 0, 0⟩]

end Aff0
