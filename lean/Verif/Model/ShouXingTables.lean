import Mathlib.Data.Int.Notation
import Mathlib.Data.Nat.Notation

/-! # The tables of `util/ShouXingUtil.py`

Generated by `tools/tables.py` from the text of the repository.  A decimal is written as an integer; the comment of
the table says how many decimal places it has. -/

namespace ShouXing

/-- `lunar_python/util/ShouXingUtil.py` 16-27 `__NUT_B`, by rows of five; places 4, 5, 6, 0 (the fifth number is never read) -/
def NUT_B : List (ℤ × ℤ × ℤ × ℤ) :=
  [⟨21824, -3375705, 36, -1720⟩, ⟨35069, 125666393, 11, -132⟩, ⟨13375, 1679941820, -51, -23⟩, ⟨43649, -6751410, 72, 21⟩,
   ⟨400, -62830200, 0, -14⟩, ⟨23600, 832869100, 0, 7⟩, ⟨34600, 188496600, 0, -5⟩, ⟨54400, 1683317500, 0, -4⟩,
   ⟨36900, 2512811000, 0, -3⟩, ⟨35500, 62836200, 0, 2⟩]

/-- `lunar_python/util/ShouXingUtil.py` 30-56 `__DT_AT`, by rows of five, each with the first number of the next row; places 0, 2, 2, 3, 4, 0 -/
def DT_AT : List (ℤ × ℤ × ℤ × ℤ × ℤ × ℤ) :=
  [⟨-4000, 10837170, -1303680, 392000, 0, -500⟩, ⟨-500, 1720100, -62782, 16170, -3413, -150⟩,
   ⟨-150, 1220060, -34641, 5403, -1593, 150⟩, ⟨150, 911380, -32813, -1647, 377, 500⟩,
   ⟨500, 570750, -39141, 915, 3145, 900⟩, ⟨900, 220340, -28345, 13034, -1778, 1300⟩,
   ⟨1300, 49010, -5735, 2085, -72, 1600⟩, ⟨1600, 12000, -981, -1532, 1403, 1700⟩, ⟨1700, 1020, -91, 510, -370, 1800⟩,
   ⟨1800, 1340, -72, 202, -193, 1830⟩, ⟨1830, 780, -181, 416, -247, 1860⟩, ⟨1860, 830, -13, -406, 292, 1880⟩,
   ⟨1880, -540, 32, -183, 173, 1900⟩, ⟨1900, -230, 206, 169, -135, 1920⟩, ⟨1920, 2120, 169, -304, 167, 1940⟩,
   ⟨1940, 2420, 122, -64, 31, 1960⟩, ⟨1960, 3320, 51, 231, -109, 1980⟩, ⟨1980, 5100, 129, -26, 32, 2000⟩,
   ⟨2000, 6387, 10, 0, 0, 2005⟩, ⟨2005, 6470, 21, 0, 0, 2012⟩, ⟨2012, 6680, 22, 0, 0, 2018⟩,
   ⟨2018, 7360, 40, 0, 0, 2021⟩, ⟨2021, 7810, 44, 0, 0, 2024⟩, ⟨2024, 8310, 55, 0, 0, 2028⟩]

/-- `lunar_python/util/ShouXingUtil.py` 55: the last two numbers of `__DT_AT`; places 0 and 1 -/
def DT_END : ℤ × ℤ := (2028, 986)

/-- `lunar_python/util/ShouXingUtil.py` 57-245 `__XL0[20:578]`, by threes; places 0, 9, 9 -/
def XL0_0 : List (ℤ × ℤ × ℤ) :=
  [⟨17534704567, 0, 0⟩, ⟨334165646, 4669256804, 6283075849991⟩, ⟨3489428, 4626102400, 12566151700000⟩,
   ⟨349706, 2744118000, 5753384885000⟩, ⟨341757, 2828866000, 3523118000⟩, ⟨313590, 3627670000, 77713771468000⟩,
   ⟨267622, 4418084000, 7860419392000⟩, ⟨234269, 6135162000, 3930209696000⟩, ⟨132429, 742464000, 11506769770000⟩,
   ⟨127317, 2037097000, 529690965000⟩, ⟨119917, 1109629000, 1577343542000⟩, ⟨99025, 5232680000, 5884926850000⟩,
   ⟨90186, 2045050000, 26298320000⟩, ⟨85722, 3508490000, 398149000000⟩, ⟨77979, 1178830000, 5223693920000⟩,
   ⟨75314, 2533390000, 5507553240000⟩, ⟨50526, 4582930000, 18849227550000⟩, ⟨49238, 4205070000, 775522610000⟩,
   ⟨35666, 2919540000, 67310000⟩, ⟨31709, 5849020000, 11790629090000⟩, ⟨28413, 1898690000, 796298010000⟩,
   ⟨27104, 314890000, 10977078800000⟩, ⟨24281, 344810000, 5486777840000⟩, ⟨20616, 4806470000, 2544314420000⟩,
   ⟨20539, 1869480000, 5573142800000⟩, ⟨20226, 2457680000, 6069776750000⟩, ⟨15552, 833060000, 213299100000⟩,
   ⟨13221, 3411180000, 2942463420000⟩, ⟨12618, 1083030000, 20775400000⟩, ⟨11513, 645450000, 980320000⟩,
   ⟨10285, 636000000, 4694002950000⟩, ⟨10190, 975690000, 15720838780000⟩, ⟨10172, 4266800000, 7113550000⟩,
   ⟨9921, 6209900000, 2146165400000⟩, ⟨9761, 681000000, 155420400000⟩, ⟨8580, 5983200000, 161000685700000⟩,
   ⟨8513, 1298700000, 6275962300000⟩, ⟨8471, 3670800000, 71430695600000⟩, ⟨7964, 1807900000, 17260154700000⟩,
   ⟨7876, 3037000000, 12036460700000⟩, ⟨7465, 1755100000, 5088628800000⟩, ⟨7387, 3503200000, 3154687100000⟩,
   ⟨7355, 4679300000, 801820900000⟩, ⟨6963, 833000000, 9437762900000⟩, ⟨6245, 3977600000, 8827390300000⟩,
   ⟨6115, 1818400000, 7084896800000⟩, ⟨5696, 2784300000, 6286599000000⟩, ⟨5612, 4386900000, 14143495200000⟩,
   ⟨5558, 3470100000, 6279552700000⟩, ⟨5199, 189100000, 12139553500000⟩, ⟨5161, 1332800000, 1748016400000⟩,
   ⟨5115, 283100000, 5856477700000⟩, ⟨4900, 487400000, 1194447000000⟩, ⟨4104, 5368200000, 8429241300000⟩,
   ⟨4094, 2398500000, 19651048500000⟩, ⟨3920, 6168300000, 10447387800000⟩, ⟨3677, 6041300000, 10213285500000⟩,
   ⟨3660, 2569600000, 1059381900000⟩, ⟨3595, 1708800000, 2352866200000⟩, ⟨3557, 1776000000, 6812766800000⟩,
   ⟨3329, 593100000, 17789845600000⟩, ⟨3041, 442900000, 83996847300000⟩, ⟨3005, 2739800000, 1349867400000⟩,
   ⟨2535, 3164700000, 4690479800000⟩, ⟨2474, 214800000, 3590400000⟩, ⟨2366, 484700000, 8031092300000⟩,
   ⟨2357, 2065300000, 3340612400000⟩, ⟨2282, 5222000000, 4705732300000⟩, ⟨2189, 5555900000, 553569400000⟩,
   ⟨2142, 1425600000, 16730463700000⟩, ⟨2109, 4148300000, 951718400000⟩, ⟨2030, 371300000, 283859300000⟩,
   ⟨1992, 5222100000, 12168002700000⟩, ⟨1986, 5774700000, 6309374200000⟩, ⟨1912, 3822200000, 23581258200000⟩,
   ⟨1889, 5386300000, 149854400100000⟩, ⟨1790, 2214900000, 13367972600000⟩, ⟨1748, 4560500000, 135065100000⟩,
   ⟨1622, 5988400000, 11769853700000⟩, ⟨1508, 4195700000, 6256777500000⟩, ⟨1442, 4193200000, 242728600000⟩,
   ⟨1435, 3723600000, 38027700000⟩, ⟨1397, 4401400000, 6681224900000⟩, ⟨1362, 1889300000, 7632943300000⟩,
   ⟨1250, 1130500000, 5522900000⟩, ⟨1205, 2622300000, 955599700000⟩, ⟨1200, 1003500000, 632783700000⟩,
   ⟨1129, 177400000, 4164312000000⟩, ⟨1083, 327300000, 103092800000⟩, ⟨1052, 938700000, 11926254400000⟩,
   ⟨1050, 5359100000, 1592596000000⟩, ⟨1033, 6199800000, 6438496200000⟩, ⟨1001, 6029100000, 5746271300000⟩,
   ⟨980, 999000000, 11371705000000⟩, ⟨980, 5244000000, 27511468000000⟩, ⟨938, 2624000000, 5760498000000⟩,
   ⟨923, 483000000, 522577000000⟩, ⟨922, 4571000000, 4292331000000⟩, ⟨905, 5337000000, 6386169000000⟩,
   ⟨862, 4165000000, 7058598000000⟩, ⟨841, 3299000000, 7234794000000⟩, ⟨836, 4539000000, 25132303000000⟩,
   ⟨813, 6112000000, 4732031000000⟩, ⟨812, 6271000000, 426598000000⟩, ⟨801, 5821000000, 28449000000⟩,
   ⟨787, 996000000, 5643179000000⟩, ⟨776, 2957000000, 23013540000000⟩, ⟨769, 3121000000, 7238676000000⟩,
   ⟨758, 3974000000, 11499656000000⟩, ⟨735, 4386000000, 316392000000⟩, ⟨731, 607000000, 11513883000000⟩,
   ⟨719, 3998000000, 74782000000⟩, ⟨706, 323000000, 263084000000⟩, ⟨676, 5911000000, 90955552000000⟩,
   ⟨663, 3665000000, 17298182000000⟩, ⟨653, 5791000000, 18073705000000⟩, ⟨630, 4717000000, 6836645000000⟩,
   ⟨615, 1458000000, 233141314000000⟩, ⟨612, 1075000000, 19804827000000⟩, ⟨596, 3321000000, 6283009000000⟩,
   ⟨596, 2876000000, 6283143000000⟩, ⟨555, 2452000000, 12352853000000⟩, ⟨541, 5392000000, 419485000000⟩,
   ⟨531, 382000000, 31441678000000⟩, ⟨519, 4065000000, 6208294000000⟩, ⟨513, 2361000000, 10973556000000⟩,
   ⟨494, 5737000000, 9917697000000⟩, ⟨450, 3272000000, 11015106000000⟩, ⟨449, 3653000000, 206186000000⟩,
   ⟨447, 2064000000, 7079374000000⟩, ⟨435, 4423000000, 5216580000000⟩, ⟨421, 1906000000, 245832000000⟩,
   ⟨413, 921000000, 3738761000000⟩, ⟨402, 840000000, 20355000000⟩, ⟨387, 1826000000, 11856219000000⟩,
   ⟨379, 2344000000, 3881000000⟩, ⟨374, 2954000000, 3128389000000⟩, ⟨370, 5031000000, 536805000000⟩,
   ⟨365, 1018000000, 16200773000000⟩, ⟨365, 1083000000, 88860057000000⟩, ⟨352, 5978000000, 3894182000000⟩,
   ⟨352, 2056000000, 244287600000000⟩, ⟨351, 3713000000, 6290189000000⟩, ⟨340, 1106000000, 14712317000000⟩,
   ⟨339, 978000000, 8635942000000⟩, ⟨339, 3202000000, 5120601000000⟩, ⟨333, 837000000, 6496375000000⟩,
   ⟨325, 3479000000, 6133513000000⟩, ⟨316, 5089000000, 21228392000000⟩, ⟨316, 1328000000, 10873986000000⟩,
   ⟨309, 3646000000, 10637000000⟩, ⟨303, 1802000000, 35371887000000⟩, ⟨296, 3397000000, 9225539000000⟩,
   ⟨288, 6026000000, 154717610000000⟩, ⟨281, 2585000000, 14314168000000⟩, ⟨262, 3856000000, 266607000000⟩,
   ⟨262, 2579000000, 22483849000000⟩, ⟨257, 1561000000, 23543231000000⟩, ⟨255, 3949000000, 1990745000000⟩,
   ⟨251, 3744000000, 10575407000000⟩, ⟨240, 1161000000, 10984192000000⟩, ⟨238, 106000000, 7046000000⟩,
   ⟨236, 4272000000, 6040347000000⟩, ⟨234, 3577000000, 10969965000000⟩, ⟨211, 3714000000, 65147620000000⟩,
   ⟨210, 754000000, 13521751000000⟩, ⟨207, 4228000000, 5650292000000⟩, ⟨202, 814000000, 170673000000⟩,
   ⟨201, 4629000000, 6037244000000⟩, ⟨200, 381000000, 6172870000000⟩, ⟨199, 3933000000, 6206810000000⟩,
   ⟨199, 5197000000, 6262300000000⟩, ⟨197, 1046000000, 18209330000000⟩, ⟨195, 1070000000, 5230807000000⟩,
   ⟨195, 4869000000, 36028000000⟩, ⟨194, 4313000000, 6244943000000⟩, ⟨192, 1229000000, 709933000000⟩,
   ⟨192, 5595000000, 6282096000000⟩, ⟨192, 602000000, 6284056000000⟩, ⟨189, 3744000000, 23878000000⟩,
   ⟨188, 1904000000, 15252000000⟩, ⟨188, 867000000, 22003915000000⟩, ⟨182, 3681000000, 15110466000000⟩,
   ⟨181, 491000000, 1484000000⟩, ⟨179, 3222000000, 39302097000000⟩, ⟨179, 1259000000, 12559038000000⟩]

/-- `lunar_python/util/ShouXingUtil.py` 57-245 `__XL0[578:920]`, by threes; places 0, 9, 9 -/
def XL0_1 : List (ℤ × ℤ × ℤ) :=
  [⟨62833196674749, 0, 0⟩, ⟨20605886, 2678234560, 6283075849990⟩, ⟨430343, 2635127000, 12566151700000⟩,
   ⟨42526, 1590470000, 3523120000⟩, ⟨11926, 5795570000, 26298320000⟩, ⟨10898, 2966180000, 1577343540000⟩,
   ⟨9348, 2592100000, 18849227500000⟩, ⟨7212, 1138500000, 529691000000⟩, ⟨6777, 1874700000, 398149000000⟩,
   ⟨6733, 4409200000, 5507553200000⟩, ⟨5903, 2888000000, 5223693900000⟩, ⟨5598, 2174700000, 155420400000⟩,
   ⟨4541, 398000000, 796298000000⟩, ⟨3637, 466200000, 775522600000⟩, ⟨2896, 2647100000, 7113500000⟩,
   ⟨2084, 5341400000, 980300000⟩, ⟨1910, 1846300000, 5486777800000⟩, ⟨1851, 4968600000, 213299100000⟩,
   ⟨1729, 2991200000, 6275962300000⟩, ⟨1623, 32200000, 2544314400000⟩, ⟨1583, 1430500000, 2146165400000⟩,
   ⟨1462, 1205300000, 10977078800000⟩, ⟨1246, 2834300000, 1748016400000⟩, ⟨1188, 3258000000, 5088628800000⟩,
   ⟨1181, 5273800000, 1194447000000⟩, ⟨1151, 2075000000, 4694003000000⟩, ⟨1064, 766100000, 553569400000⟩,
   ⟨997, 1303000000, 6286599000000⟩, ⟨972, 4239000000, 1349867000000⟩, ⟨945, 2700000000, 242729000000⟩,
   ⟨858, 5645000000, 951718000000⟩, ⟨758, 5301000000, 2352866000000⟩, ⟨639, 2650000000, 9437763000000⟩,
   ⟨610, 4666000000, 4690480000000⟩, ⟨583, 1766000000, 1059382000000⟩, ⟨531, 909000000, 3154687000000⟩,
   ⟨522, 5661000000, 71430696000000⟩, ⟨520, 1854000000, 801821000000⟩, ⟨504, 1425000000, 6438496000000⟩,
   ⟨433, 241000000, 6812767000000⟩, ⟨426, 774000000, 10447388000000⟩, ⟨413, 5240000000, 7084897000000⟩,
   ⟨374, 2001000000, 8031092000000⟩, ⟨356, 2429000000, 14143495000000⟩, ⟨350, 4800000000, 6279553000000⟩,
   ⟨337, 888000000, 12036461000000⟩, ⟨337, 3862000000, 1592596000000⟩, ⟨325, 3400000000, 7632943000000⟩,
   ⟨322, 616000000, 8429241000000⟩, ⟨318, 3188000000, 4705732000000⟩, ⟨297, 6070000000, 4292331000000⟩,
   ⟨295, 1431000000, 5746271000000⟩, ⟨290, 2325000000, 20355000000⟩, ⟨275, 935000000, 5760498000000⟩,
   ⟨270, 4804000000, 7234794000000⟩, ⟨253, 6223000000, 6836645000000⟩, ⟨228, 5003000000, 17789846000000⟩,
   ⟨225, 5672000000, 11499656000000⟩, ⟨215, 5202000000, 11513883000000⟩, ⟨208, 3955000000, 10213286000000⟩,
   ⟨208, 2268000000, 522577000000⟩, ⟨206, 2224000000, 5856478000000⟩, ⟨206, 2550000000, 25132303000000⟩,
   ⟨203, 910000000, 6256778000000⟩, ⟨189, 532000000, 3340612000000⟩, ⟨188, 4735000000, 83996847000000⟩,
   ⟨179, 1474000000, 4164312000000⟩, ⟨178, 3025000000, 5523000000⟩, ⟨177, 3026000000, 5753385000000⟩,
   ⟨159, 4637000000, 3286000000⟩, ⟨157, 6124000000, 5216580000000⟩, ⟨155, 3077000000, 6681225000000⟩,
   ⟨154, 4200000000, 13367973000000⟩, ⟨143, 1191000000, 3894182000000⟩, ⟨138, 3093000000, 135065000000⟩,
   ⟨136, 4245000000, 426598000000⟩, ⟨134, 5765000000, 6040347000000⟩, ⟨128, 3085000000, 5643179000000⟩,
   ⟨127, 2092000000, 6290189000000⟩, ⟨125, 3077000000, 11926254000000⟩, ⟨125, 3445000000, 536805000000⟩,
   ⟨114, 3244000000, 12168003000000⟩, ⟨112, 2318000000, 16730464000000⟩, ⟨111, 3901000000, 11506770000000⟩,
   ⟨111, 5320000000, 23878000000⟩, ⟨105, 3750000000, 7860419000000⟩, ⟨103, 2447000000, 1990745000000⟩,
   ⟨96, 820000000, 3880000000⟩, ⟨96, 4080000000, 6127660000000⟩, ⟨91, 5420000000, 206190000000⟩,
   ⟨91, 420000000, 7079370000000⟩, ⟨88, 5170000000, 11790630000000⟩, ⟨81, 340000000, 9917700000000⟩,
   ⟨80, 3890000000, 10973560000000⟩, ⟨78, 2400000000, 1589070000000⟩, ⟨78, 2580000000, 11371700000000⟩,
   ⟨77, 3980000000, 955600000000⟩, ⟨77, 3360000000, 36030000000⟩, ⟨76, 1300000000, 103090000000⟩,
   ⟨75, 5180000000, 10969970000000⟩, ⟨75, 4960000000, 6496370000000⟩, ⟨73, 5210000000, 38030000000⟩,
   ⟨72, 2650000000, 6309370000000⟩, ⟨70, 5610000000, 3738760000000⟩, ⟨69, 2600000000, 3496030000000⟩,
   ⟨69, 390000000, 15250000000⟩, ⟨69, 2780000000, 20780000000⟩, ⟨65, 1130000000, 7058600000000⟩,
   ⟨64, 4280000000, 28450000000⟩, ⟨61, 5630000000, 10984190000000⟩, ⟨60, 730000000, 419480000000⟩,
   ⟨60, 5280000000, 10575410000000⟩, ⟨58, 5550000000, 17298180000000⟩, ⟨58, 3190000000, 4732030000000⟩]

/-- `lunar_python/util/ShouXingUtil.py` 57-245 `__XL0[920:1100]`, by threes; places 0, 9, 9 -/
def XL0_2 : List (ℤ × ℤ × ℤ) :=
  [⟨5291887, 0, 0⟩, ⟨871984, 1072097000, 6283075850000⟩, ⟨30913, 867290000, 12566151700000⟩,
   ⟨2734, 53000000, 3523100000⟩, ⟨1633, 5188300000, 26298300000⟩, ⟨1575, 3684600000, 155420400000⟩,
   ⟨954, 757000000, 18849228000000⟩, ⟨894, 2057000000, 77713771000000⟩, ⟨695, 827000000, 775523000000⟩,
   ⟨506, 4663000000, 1577344000000⟩, ⟨406, 1031000000, 7114000000⟩, ⟨381, 3441000000, 5573143000000⟩,
   ⟨346, 5141000000, 796298000000⟩, ⟨317, 6053000000, 5507553000000⟩, ⟨302, 1192000000, 242729000000⟩,
   ⟨289, 6117000000, 529691000000⟩, ⟨271, 306000000, 398149000000⟩, ⟨254, 2280000000, 553569000000⟩,
   ⟨237, 4381000000, 5223694000000⟩, ⟨208, 3754000000, 980000000⟩, ⟨168, 902000000, 951718000000⟩,
   ⟨153, 5759000000, 1349867000000⟩, ⟨145, 4364000000, 1748016000000⟩, ⟨134, 3721000000, 1194447000000⟩,
   ⟨125, 2948000000, 6438496000000⟩, ⟨122, 2973000000, 2146165000000⟩, ⟨110, 1271000000, 161000686000000⟩,
   ⟨104, 604000000, 3154687000000⟩, ⟨100, 5986000000, 6286599000000⟩, ⟨92, 4800000000, 5088630000000⟩,
   ⟨89, 5230000000, 7084900000000⟩, ⟨83, 3310000000, 213300000000⟩, ⟨76, 3420000000, 5486780000000⟩,
   ⟨71, 6190000000, 4690480000000⟩, ⟨68, 3430000000, 4694000000000⟩, ⟨65, 1600000000, 2544310000000⟩,
   ⟨64, 1980000000, 801820000000⟩, ⟨61, 2480000000, 10977080000000⟩, ⟨50, 1440000000, 6836650000000⟩,
   ⟨49, 2340000000, 1592600000000⟩, ⟨46, 1310000000, 4292330000000⟩, ⟨46, 3810000000, 149854400000000⟩,
   ⟨43, 40000000, 7234790000000⟩, ⟨40, 4940000000, 7632940000000⟩, ⟨39, 1570000000, 71430700000000⟩,
   ⟨38, 3170000000, 6309370000000⟩, ⟨35, 990000000, 6040350000000⟩, ⟨35, 670000000, 1059380000000⟩,
   ⟨31, 3180000000, 2352870000000⟩, ⟨31, 3550000000, 8031090000000⟩, ⟨30, 1920000000, 10447390000000⟩,
   ⟨30, 2520000000, 6127660000000⟩, ⟨28, 4420000000, 9437760000000⟩, ⟨28, 2710000000, 3894180000000⟩,
   ⟨27, 670000000, 25132300000000⟩, ⟨26, 5270000000, 6812770000000⟩, ⟨25, 550000000, 6279550000000⟩,
   ⟨23, 1380000000, 4705730000000⟩, ⟨22, 640000000, 6256780000000⟩, ⟨20, 6070000000, 640880000000⟩]

/-- `lunar_python/util/ShouXingUtil.py` 57-245 `__XL0[1100:1124]`, by threes; places 0, 9, 9 -/
def XL0_3 : List (ℤ × ℤ × ℤ) :=
  [⟨28923, 5843840000, 6283075850000⟩, ⟨3496, 0, 0⟩, ⟨1682, 5487700000, 12566151700000⟩,
   ⟨296, 5196000000, 155420000000⟩, ⟨129, 4722000000, 3523000000⟩, ⟨71, 5300000000, 18849230000000⟩,
   ⟨64, 5970000000, 242730000000⟩, ⟨40, 3790000000, 553570000000⟩]

/-- `lunar_python/util/ShouXingUtil.py` 57-245 `__XL0[1124:1136]`, by threes; places 0, 9, 9 -/
def XL0_4 : List (ℤ × ℤ × ℤ) :=
  [⟨11408, 3141590000, 0⟩, ⟨772, 4134000000, 6283076000000⟩, ⟨77, 3840000000, 12566150000000⟩,
   ⟨42, 420000000, 155420000000⟩]

/-- `lunar_python/util/ShouXingUtil.py` 57-245 `__XL0[1136:1148]`, by threes; places 0, 9, 9 -/
def XL0_5 : List (ℤ × ℤ × ℤ) :=
  [⟨88, 3140000000, 0⟩, ⟨17, 2770000000, 6283080000000⟩, ⟨5, 2010000000, 155420000000⟩, ⟨3, 2210000000, 12566150000000⟩]

/-- `lunar_python/util/ShouXingUtil.py` 247-281 `__XL1[0]`, by sixes; places 7, 8, 9, 7, 4, 6 -/
def XL1_0 : List (ℤ × ℤ × ℤ × ℤ × ℤ × ℤ) :=
  [⟨226395860000, 78475822, 8328691424623, 15229241, 250719, -123598⟩,
   ⟨45864380000, 18739740, 7214062865360, -21847560, -188600, 82800⟩,
   ⟨23699140000, 254295200, 15542754289980, -6618320, 62120, -40800⟩,
   ⟨7690260000, 314031300, 16657382849250, 30458500, 501440, -247200⟩,
   ⟨6664180000, 152767100, 628301955210, -266400, 620, -5400⟩,
   ⟨4115960000, 482660700, 16866932315000, -12801200, -10700, -5900⟩,
   ⟨2116560000, 411502800, -1114628559300, -37076800, -439300, 206400⟩,
   ⟨2054360000, 23052300, 6585760910100, -21581200, -189200, 88200⟩,
   ⟨1919560000, 489850700, 23871445714600, 8610900, 312800, -164000⟩,
   ⟨1647290000, 258607800, 14914452334800, -6352000, 61500, -35000⟩,
   ⟨1473210000, 545530000, -7700389469400, -15496000, -250100, 118000⟩,
   ⟨1249880000, 48608000, 7771377145000, -3309000, 31100, -20000⟩,
   ⟨1093800000, 388323000, 8956993379800, 14963000, 251300, -129000⟩,
   ⟨551770000, 557033000, -1324178025000, 6183000, 73000, -35000⟩,
   ⟨451000000, 89898000, 25195623740000, 2428000, 240000, -129000⟩,
   ⟨395330000, 381213000, -8538240890000, 28030000, 261000, -118000⟩,
   ⟨384300000, 430115000, 22756817155000, -28466000, -126000, 42000⟩,
   ⟨361240000, 549587000, 24986074274000, 45688000, 752000, -371000⟩,
   ⟨307730000, 194559000, 14428125731000, -43695000, -377000, 166000⟩,
   ⟨283970000, 328586000, 7842364821000, -22114000, -188000, 77000⟩,
   ⟨243580000, 564142000, 16171056245000, -6885000, 63000, -46000⟩,
   ⟨185850000, 441371000, -557314280000, -18538000, -220000, 100000⟩,
   ⟨179540000, 358454000, 8399679100000, -3576000, 32000, -30000⟩,
   ⟨145300000, 494160000, 23243143759000, 8880000, 312000, -160000⟩,
   ⟨143800000, 97090000, 32200137139000, 23840000, 564000, -290000⟩,
   ⟨142510000, 576410000, -2301200000, 15230000, 251000, -120000⟩,
   ⟨138990000, 37350000, 31085508580000, -13240000, 124000, -80000⟩,
   ⟨131940000, 175950000, -9443319984000, -52310000, -690000, 330000⟩,
   ⟨96790000, 309970000, -16029080894000, -30720000, -501000, 240000⟩,
   ⟨93660000, 30160000, 24080995180000, -34650000, -199000, 80000⟩,
   ⟨86060000, 415820000, -1742930514000, -36810000, -440000, 210000⟩,
   ⟨84530000, 284160000, 16100068570000, 11920000, 282000, -140000⟩,
   ⟨80500000, 262920000, 14286150380000, -6090000, 61000, -30000⟩,
   ⟨76300000, 623880000, 17285684804000, 30190000, 502000, -250000⟩,
   ⟨74470000, 148450000, 1256603910000, -530000, 1000, -10000⟩,
   ⟨73710000, 27360000, 5957458955000, -21310000, -190000, 90000⟩,
   ⟨70630000, 567150000, 33757047000, -3080000, -36000, 20000⟩,
   ⟨63830000, 478430000, 7004513400000, 21410000, 324000, -160000⟩,
   ⟨57420000, 265720000, 32409686605000, -19420000, 50000, -50000⟩,
   ⟨43740000, 434430000, 22128515200000, -28200000, -130000, 50000⟩,
   ⟨39980000, 325450000, 33524315160000, 17660000, 490000, -250000⟩,
   ⟨32100000, 224430000, 14985440010000, -25160000, -160000, 60000⟩,
   ⟨29150000, 171380000, 24499747670000, 8340000, 310000, -170000⟩,
   ⟨27320000, 198870000, 13799823780000, -43430000, -380000, 170000⟩,
   ⟨25680000, 541220000, -7072087510000, -15760000, -250000, 110000⟩,
   ⟨25210000, 324270000, 8470666780000, -22380000, -190000, 70000⟩,
   ⟨24890000, 407190000, -486326600000, -37340000, -440000, 200000⟩,
   ⟨21460000, 561350000, -1952479980000, 6450000, 70000, -30000⟩,
   ⟨19780000, 272910000, 39414200000000, 1990000, 370000, -210000⟩,
   ⟨19340000, 156820000, 33314765700000, 60920000, 1000000, -500000⟩,
   ⟨18710000, 41660000, 30457206620000, -12970000, 120000, -100000⟩,
   ⟨17530000, 205820000, -8886005700000, -33800000, -470000, 200000⟩,
   ⟨14370000, 238600000, -695876070000, 5900000, 70000, 0⟩,
   ⟨13730000, 302600000, -209549470000, 43300000, 510000, -200000⟩,
   ⟨12620000, 594000000, 16728370520000, 11700000, 280000, -100000⟩,
   ⟨12240000, 617200000, 6656748590000, -40400000, -410000, 200000⟩,
   ⟨11870000, 587300000, 6099434310000, -58900000, -630000, 300000⟩,
   ⟨11770000, 101400000, 31571835180000, 24100000, 560000, -300000⟩,
   ⟨11620000, 384000000, 9585295340000, 14700000, 250000, -100000⟩,
   ⟨11430000, 563900000, 8364739840000, -21800000, -190000, 100000⟩,
   ⟨10780000, 122900000, 70987680000, -18800000, -220000, 100000⟩,
   ⟨10590000, 332600000, 40528828560000, 39100000, 810000, -400000⟩,
   ⟨9900000, 501300000, 40738378030000, -4200000, 300000, -200000⟩,
   ⟨9480000, 568700000, -17772011410000, -67500000, -940000, 500000⟩, ⟨8760000, 29800000, -352320000, 0, 0, 0⟩,
   ⟨8220000, 299400000, 393020970000, 0, 0, 0⟩, ⟨7880000, 183600000, 8326390220000, 30500000, 500000, -200000⟩,
   ⟨7520000, 498500000, 22614841800000, 9100000, 310000, -200000⟩, ⟨7400000, 287500000, 8330992620000, 0, 0, 0⟩,
   ⟨6690000, 74400000, -24357772320000, -46000000, -750000, 400000⟩,
   ⟨6440000, 131400000, 8393125770000, -21800000, -190000, 100000⟩, ⟨6390000, 588800000, 575338490000, 0, 0, 0⟩,
   ⟨6350000, 111600000, 23385119110000, -28700000, -130000, 0⟩,
   ⟨5840000, 519700000, 24428759990000, 27100000, 530000, -300000⟩,
   ⟨5830000, 351300000, -9095555170000, 9500000, 40000, 0⟩,
   ⟨5720000, 605900000, 29970880020000, -50300000, -320000, 100000⟩,
   ⟨5650000, 296000000, 328630000, 15200000, 250000, -100000⟩,
   ⟨5610000, 400100000, -17981560870000, -24300000, -430000, 200000⟩,
   ⟨5570000, 52900000, 7143075190000, -3000000, 30000, 0⟩,
   ⟨5460000, 231100000, 25614376230000, 45400000, 750000, -400000⟩,
   ⟨5360000, 422900000, 15752303760000, -49900000, -450000, 200000⟩,
   ⟨4930000, 331600000, -8294934400000, -18300000, -290000, 100000⟩,
   ⟨4910000, 174400000, 8362448500000, 12100000, 210000, -100000⟩,
   ⟨4780000, 180300000, -10071621900000, -52000000, -690000, 300000⟩,
   ⟨4540000, 85700000, 15333204800000, 36600000, 570000, -300000⟩,
   ⟨4450000, 207100000, 8311770700000, -21800000, -190000, 100000⟩,
   ⟨4260000, 34500000, 23452693200000, -34400000, -200000, 100000⟩,
   ⟨4200000, 494100000, 33733864600000, -25600000, -20000, 0⟩,
   ⟨4130000, 164200000, 17495234300000, -13100000, -10000, 0⟩,
   ⟨4040000, 145800000, 23314131400000, -9900000, 90000, -100000⟩,
   ⟨3950000, 213200000, 38299571400000, -35100000, -60000, 0⟩,
   ⟨3820000, 270000000, 31781384600000, -19200000, 50000, 0⟩,
   ⟨3750000, 482700000, 6376211400000, 21700000, 320000, -200000⟩,
   ⟨3610000, 386700000, 16833175300000, -9700000, 30000, 0⟩,
   ⟨3580000, 504400000, 15056427700000, -44000000, -380000, 200000⟩,
   ⟨3500000, 515700000, -8257703700000, -34000000, -470000, 200000⟩, ⟨3440000, 423300000, 157734400000, 0, 0, 0⟩,
   ⟨3400000, 267200000, 13657848400000, -5800000, 60000, 0⟩,
   ⟨3290000, 561000000, 41853006600000, 32900000, 740000, -400000⟩, ⟨3250000, 589500000, -39814900000, 0, 0, 0⟩,
   ⟨3090000, 438700000, 21500213200000, -27900000, -130000, 100000⟩, ⟨3020000, 127800000, 786041900000, 0, 0, 0⟩,
   ⟨3020000, 534100000, -24567321800000, -2700000, -240000, 100000⟩,
   ⟨3010000, 104500000, 5889884800000, -15700000, -120000, 0⟩,
   ⟨2940000, 420100000, -2371232500000, -36500000, -440000, 200000⟩,
   ⟨2930000, 370400000, 21642188600000, -65500000, -570000, 200000⟩,
   ⟨2900000, 406900000, 32828439100000, 23600000, 560000, -300000⟩,
   ⟨2890000, 347200000, 31713810500000, -13500000, 120000, -100000⟩,
   ⟨2850000, 540700000, -33781400000, 3100000, 40000, 0⟩,
   ⟨2830000, 599800000, -16920700000, -37100000, -440000, 200000⟩,
   ⟨2830000, 277200000, 38785898000000, 2300000, 370000, -200000⟩,
   ⟨2740000, 534300000, 15613742000000, -25400000, -160000, 100000⟩,
   ⟨2630000, 399700000, 25823925700000, 2200000, 240000, -100000⟩,
   ⟨2540000, 60000000, 24638309500000, -16100000, 20000, 0⟩,
   ⟨2530000, 134400000, 6447199100000, 2900000, 100000, -100000⟩,
   ⟨2500000, 88700000, 141975400000, -37600000, -440000, 200000⟩,
   ⟨2470000, 31700000, 5329157000000, -21000000, -190000, 100000⟩,
   ⟨2450000, 14100000, 36048400000, -37100000, -440000, 200000⟩,
   ⟨2310000, 228700000, 14357138100000, -24900000, -160000, 100000⟩, ⟨2270000, 515800000, 2629800000, 0, 0, 0⟩,
   ⟨2190000, 508500000, 47742891400000, 17200000, 630000, -300000⟩,
   ⟨2110000, 214500000, 6638724400000, -21800000, -190000, 100000⟩,
   ⟨2010000, 441500000, 39623749500000, -41300000, -140000, 0⟩, ⟨1940000, 209100000, 588492700000, 0, 0, 0⟩,
   ⟨1930000, 305700000, -15400778900000, -31000000, -500000, 0⟩,
   ⟨1860000, 559800000, 16799358200000, -7200000, 60000, 0⟩, ⟨1850000, 388600000, 1150677000000, 0, 0, 0⟩,
   ⟨1830000, 161900000, 7178014400000, 15200000, 250000, 0⟩, ⟨1810000, 263500000, 8328339100000, 15200000, 250000, 0⟩,
   ⟨1810000, 207700000, 8329043700000, 15200000, 250000, 0⟩, ⟨1790000, 321500000, -9652869400000, -9000000, -180000, 0⟩,
   ⟨1760000, 171600000, -8815018000000, -52600000, -690000, 0⟩, ⟨1750000, 567300000, 550755300000, 0, 0, 0⟩,
   ⟨1700000, 206000000, 31295058000000, -56000000, -390000, 0⟩, ⟨1670000, 123900000, 7211761700000, -7000000, 60000, 0⟩,
   ⟨1650000, 449900000, 14967415800000, -7000000, 60000, 0⟩, ⟨1640000, 359500000, 15540453100000, 9000000, 310000, 0⟩,
   ⟨1640000, 423700000, 522369400000, 0, 0, 0⟩, ⟨1630000, 463300000, 15545055500000, -22000000, -190000, 0⟩,
   ⟨1610000, 47800000, 6428020900000, -22000000, -190000, 0⟩,
   ⟨1580000, 203000000, 13171521800000, -43000000, -380000, 0⟩,
   ⟨1570000, 228000000, 7216364100000, -37000000, -440000, 0⟩, ⟨1540000, 565000000, 7935670500000, 15000000, 250000, 0⟩,
   ⟨1520000, 46000000, 29828904700000, -13000000, 120000, 0⟩, ⟨1510000, 119000000, -711300000, 0, 0, 0⟩,
   ⟨1500000, 142000000, 23942433400000, -10000000, 90000, 0⟩, ⟨1440000, 275000000, 7753352900000, 15000000, 250000, 0⟩,
   ⟨1370000, 208000000, 7213710500000, -22000000, -190000, 0⟩,
   ⟨1370000, 144000000, 7214415200000, -22000000, -190000, 0⟩,
   ⟨1360000, 446000000, -1185616200000, -18000000, -220000, 0⟩,
   ⟨1360000, 303000000, 8000104800000, -22000000, -190000, 0⟩, ⟨1340000, 283000000, 14756712400000, -7000000, 60000, 0⟩,
   ⟨1310000, 505000000, 6821041900000, -22000000, -190000, 0⟩,
   ⟨1280000, 599000000, -17214697100000, -49000000, -720000, 0⟩,
   ⟨1270000, 535000000, 8721712400000, 15000000, 250000, 0⟩, ⟨1260000, 449000000, 46628262900000, -20000000, 190000, 0⟩,
   ⟨1250000, 594000000, 7149628500000, 15000000, 250000, 0⟩, ⟨1240000, 109000000, 49067069500000, 11000000, 550000, 0⟩,
   ⟨1210000, 288000000, 15471766600000, 12000000, 280000, 0⟩,
   ⟨1110000, 392000000, 41643457100000, 76000000, 1250000, -1000000⟩,
   ⟨1100000, 196000000, 8904029900000, 15000000, 250000, 0⟩, ⟨1060000, 330000000, -18048900000, -22000000, -190000, 0⟩,
   ⟨1050000, 230000000, -4931000000, 15000000, 250000, 0⟩, ⟨1040000, 222000000, -6559000000, -19000000, -220000, 0⟩,
   ⟨1010000, 144000000, 1884905900000, -1000000, 0, 0⟩, ⟨1000000, 592000000, 5471132400000, -59000000, -630000, 0⟩,
   ⟨990000, 112000000, 15149733300000, -7000000, 60000, 0⟩, ⟨960000, 473000000, 15508997200000, -4000000, 100000, 0⟩,
   ⟨950000, 518000000, 7230983500000, 15000000, 250000, 0⟩, ⟨930000, 337000000, 39900526600000, 39000000, 810000, 0⟩,
   ⟨920000, 201000000, 25057061900000, 27000000, 530000, 0⟩, ⟨920000, 121000000, -79629800000, 0, 0, 0⟩,
   ⟨920000, 165000000, -26310252300000, -40000000, -680000, 0⟩,
   ⟨910000, 101000000, 42062556100000, -10000000, 230000, 0⟩,
   ⟨900000, 610000000, 29342578100000, -50000000, -320000, 0⟩, ⟨900000, 443000000, 15542402000000, -7000000, 60000, 0⟩,
   ⟨900000, 380000000, 15543106600000, -7000000, 60000, 0⟩, ⟨890000, 415000000, 6063385900000, -22000000, -190000, 0⟩,
   ⟨860000, 403000000, 52969100000, 0, 0, 0⟩, ⟨850000, 49000000, 47952440900000, -26000000, 110000, 0⟩,
   ⟨850000, 160000000, 7632815400000, 21000000, 320000, 0⟩, ⟨840000, 22000000, 14392077300000, -7000000, 60000, 0⟩,
   ⟨830000, 622000000, 6028446600000, -40000000, -410000, 0⟩, ⟨830000, 63000000, -7909938900000, 28000000, 260000, 0⟩,
   ⟨830000, 520000000, -77552300000, 0, 0, 0⟩, ⟨820000, 274000000, 8786146700000, -22000000, -190000, 0⟩,
   ⟨800000, 243000000, 9166542800000, -28000000, -260000, 0⟩, ⟨800000, 370000000, -25405173200000, 41000000, 270000, 0⟩,
   ⟨780000, 568000000, 48857520000000, 54000000, 1060000, -1000000⟩,
   ⟨770000, 185000000, 8315573500000, -22000000, -190000, 0⟩, ⟨750000, 546000000, -18191110300000, 19000000, 80000, 0⟩,
   ⟨750000, 141000000, -16238630400000, 13000000, 10000, 0⟩, ⟨740000, 506000000, 40110076100000, -4000000, 300000, 0⟩,
   ⟨720000, 210000000, 64434300000, -37000000, -440000, 0⟩, ⟨710000, 217000000, 37671269500000, -35000000, -60000, 0⟩,
   ⟨690000, 171000000, 16693431300000, -7000000, 60000, 0⟩,
   ⟨690000, 333000000, -26100702800000, -83000000, -1190000, 1000000⟩,
   ⟨680000, 109000000, 8329402800000, 15000000, 250000, 0⟩, ⟨680000, 362000000, 8327980100000, 15000000, 250000, 0⟩,
   ⟨680000, 241000000, 16833150900000, -10000000, 30000, 0⟩, ⟨670000, 340000000, 24709297100000, -35000000, -200000, 0⟩,
   ⟨670000, 165000000, 8346715600000, -3000000, 30000, 0⟩, ⟨660000, 261000000, 22547267700000, 15000000, 390000, 0⟩,
   ⟨660000, 350000000, 15576511300000, -10000000, 30000, 0⟩, ⟨650000, 576000000, 33037988600000, -20000000, 50000, 0⟩,
   ⟨650000, 458000000, 8322132500000, -3000000, 30000, 0⟩, ⟨650000, 620000000, 17913986800000, 30000000, 500000, 0⟩,
   ⟨650000, 150000000, 22685829500000, -10000000, 90000, 0⟩, ⟨650000, 237000000, 7180305800000, -19000000, -150000, 0⟩,
   ⟨640000, 106000000, 30943533200000, 24000000, 560000, 0⟩, ⟨640000, 189000000, 8288876500000, 15000000, 250000, 0⟩,
   ⟨640000, 470000000, 6033500000, 3000000, 40000, 0⟩, ⟨630000, 283000000, 8368506300000, 15000000, 250000, 0⟩,
   ⟨630000, 566000000, -2580781900000, 7000000, 70000, 0⟩, ⟨620000, 378000000, 7056328500000, -22000000, -190000, 0⟩,
   ⟨610000, 149000000, 8294910000000, 18000000, 290000, 0⟩, ⟨610000, 12000000, -10281171400000, -9000000, -180000, 0⟩,
   ⟨610000, 306000000, -8362472900000, -12000000, -210000, 0⟩, ⟨610000, 443000000, 8170957100000, 15000000, 250000, 0⟩,
   ⟨590000, 578000000, -13117900000, -37000000, -440000, 0⟩, ⟨590000, 597000000, 6625570200000, -22000000, -190000, 0⟩,
   ⟨580000, 501000000, -508000000, -3000000, 0, 0⟩, ⟨580000, 273000000, 7161093800000, -22000000, -190000, 0⟩,
   ⟨570000, 19000000, 7214062900000, -22000000, -190000, 0⟩, ⟨570000, 400000000, 22199502900000, -47000000, -350000, 0⟩,
   ⟨570000, 538000000, 8119142000000, 58000000, 760000, 0⟩, ⟨560000, 107000000, 7542649500000, 15000000, 250000, 0⟩,
   ⟨560000, 28000000, 8486425800000, 15000000, 250000, 0⟩, ⟨540000, 419000000, 16655081600000, 46000000, 750000, 0⟩,
   ⟨530000, 72000000, 7267032000000, -22000000, -190000, 0⟩, ⟨530000, 312000000, 12619200000, 6000000, 70000, 0⟩,
   ⟨520000, 299000000, -32896013000000, -18000000, -490000, 0⟩, ⟨520000, 346000000, 1097708000000, 0, 0, 0⟩,
   ⟨510000, 537000000, -6443786000000, -16000000, -250000, 0⟩,
   ⟨510000, 135000000, 7789401000000, -22000000, -190000, 0⟩, ⟨510000, 583000000, 40042502000000, 2000000, 380000, 0⟩,
   ⟨510000, 363000000, 9114733000000, 15000000, 250000, 0⟩, ⟨500000, 151000000, 8504484000000, -25000000, -220000, 0⟩,
   ⟨500000, 523000000, 16659684000000, 15000000, 250000, 0⟩, ⟨500000, 115000000, 7247820000000, -25000000, -230000, 0⟩,
   ⟨470000, 25000000, -1290421000000, 3000000, 0, 0⟩, ⟨470000, 467000000, -32686464000000, -61000000, -1000000, 0⟩,
   ⟨470000, 349000000, 548678000000, 0, 0, 0⟩, ⟨470000, 237000000, 6663308000000, -22000000, -190000, 0⟩,
   ⟨460000, 98000000, 1572084000000, 0, 0, 0⟩, ⟨460000, 204000000, 14954262000000, -7000000, 60000, 0⟩,
   ⟨460000, 372000000, 6691693000000, -22000000, -190000, 0⟩, ⟨450000, 619000000, -235287000000, 0, 0, 0⟩,
   ⟨440000, 296000000, 32967001000000, -1000000, 270000, 0⟩, ⟨440000, 382000000, -1671943000000, -56000000, -660000, 0⟩,
   ⟨430000, 582000000, 1179063000000, 0, 0, 0⟩, ⟨430000, 7000000, 34152617000000, 17000000, 490000, 0⟩,
   ⟨430000, 371000000, 6514773000000, -3000000, 0, 0⟩, ⟨430000, 562000000, 15732000000, -25000000, -230000, 0⟩,
   ⟨430000, 580000000, 8351233000000, -22000000, -190000, 0⟩, ⟨420000, 27000000, 7740199000000, 15000000, 250000, 0⟩,
   ⟨420000, 614000000, 15385020000000, -7000000, 60000, 0⟩, ⟨420000, 613000000, 7285051000000, -41000000, -410000, 0⟩,
   ⟨410000, 127000000, 32757451000000, 42000000, 780000, 0⟩, ⟨410000, 446000000, 8275722000000, 15000000, 250000, 0⟩,
   ⟨400000, 23000000, 8381661000000, 15000000, 250000, 0⟩, ⟨400000, 587000000, -766864000000, 25000000, 290000, 0⟩,
   ⟨400000, 166000000, 254431000000, 0, 0, 0⟩, ⟨400000, 40000000, 9027981000000, -4000000, 0, 0⟩,
   ⟨400000, 296000000, 7777936000000, 15000000, 250000, 0⟩, ⟨390000, 467000000, 33943068000000, 61000000, 1000000, 0⟩,
   ⟨390000, 352000000, 8326062000000, 15000000, 250000, 0⟩, ⟨390000, 375000000, 21013887000000, -65000000, -570000, 0⟩,
   ⟨390000, 560000000, 606978000000, 0, 0, 0⟩, ⟨390000, 119000000, 8331321000000, 15000000, 250000, 0⟩,
   ⟨390000, 284000000, 7211433000000, -22000000, -190000, 0⟩, ⟨380000, 67000000, 7216693000000, -22000000, -190000, 0⟩,
   ⟨380000, 622000000, 25161867000000, 6000000, 280000, 0⟩, ⟨380000, 440000000, 7806322000000, 15000000, 250000, 0⟩,
   ⟨380000, 416000000, 9179168000000, -22000000, -190000, 0⟩, ⟨370000, 473000000, 14991999000000, -7000000, 60000, 0⟩,
   ⟨360000, 35000000, 67514000000, -6000000, -70000, 0⟩, ⟨360000, 370000000, 25266611000000, -16000000, 0, 0⟩,
   ⟨360000, 539000000, 16328796000000, -7000000, 60000, 0⟩, ⟨350000, 144000000, 7174248000000, -22000000, -190000, 0⟩,
   ⟨350000, 500000000, 15684730000000, -44000000, -380000, 0⟩, ⟨350000, 39000000, -15419000000, -22000000, -190000, 0⟩,
   ⟨350000, 607000000, 15020385000000, -7000000, 60000, 0⟩, ⟨340000, 601000000, 7371797000000, -22000000, -190000, 0⟩,
   ⟨340000, 96000000, -16623626000000, -34000000, -540000, 0⟩, ⟨330000, 624000000, 9479368000000, 15000000, 250000, 0⟩,
   ⟨330000, 321000000, 23661896000000, 52000000, 820000, 0⟩, ⟨330000, 406000000, 8311418000000, -22000000, -190000, 0⟩,
   ⟨330000, 240000000, 1965105000000, 0, 0, 0⟩, ⟨330000, 517000000, 15489785000000, -7000000, 60000, 0⟩,
   ⟨330000, 503000000, 21986540000000, 9000000, 310000, 0⟩, ⟨330000, 410000000, 16691140000000, 27000000, 460000, 0⟩,
   ⟨330000, 513000000, 47114589000000, 17000000, 630000, 0⟩, ⟨330000, 445000000, 8917184000000, 15000000, 250000, 0⟩,
   ⟨330000, 423000000, 2078000000, 0, 0, 0⟩, ⟨320000, 233000000, 75251000000, 15000000, 250000, 0⟩,
   ⟨320000, 210000000, 7253878000000, -22000000, -190000, 0⟩, ⟨320000, 311000000, -224000000, 15000000, 250000, 0⟩,
   ⟨320000, 443000000, 16640462000000, -7000000, 60000, 0⟩, ⟨320000, 568000000, 8328363000000, 0, 0, 0⟩,
   ⟨310000, 532000000, 8329020000000, 30000000, 500000, 0⟩, ⟨310000, 370000000, 16118093000000, -7000000, 60000, 0⟩,
   ⟨300000, 367000000, 16721817000000, -7000000, 60000, 0⟩, ⟨300000, 527000000, -1881492000000, -12000000, -150000, 0⟩,
   ⟨300000, 572000000, 8157839000000, -22000000, -190000, 0⟩,
   ⟨290000, 573000000, -18400313000000, -67000000, -940000, 0⟩, ⟨290000, 276000000, 16000000000, -22000000, -190000, 0⟩,
   ⟨290000, 175000000, 8879447000000, 15000000, 250000, 0⟩, ⟨290000, 32000000, 8851061000000, 15000000, 250000, 0⟩,
   ⟨290000, 90000000, 14704903000000, 37000000, 570000, 0⟩, ⟨280000, 290000000, 15595723000000, -7000000, 60000, 0⟩,
   ⟨280000, 588000000, 16864631000000, 2000000, 240000, 0⟩, ⟨280000, 63000000, 16869234000000, -28000000, -260000, 0⟩,
   ⟨280000, 404000000, -18609863000000, -24000000, -430000, 0⟩,
   ⟨270000, 583000000, 6727736000000, -59000000, -630000, 0⟩, ⟨270000, 612000000, 418752000000, 43000000, 510000, 0⟩,
   ⟨270000, 14000000, 41157131000000, 39000000, 810000, 0⟩, ⟨260000, 380000000, 15542000000, 0, 0, 0⟩,
   ⟨260000, 168000000, 50181698000000, 48000000, 990000, -1000000⟩, ⟨260000, 32000000, 315469000000, 0, 0, 0⟩,
   ⟨250000, 567000000, 19188000000, 3000000, 0, 0⟩, ⟨250000, 316000000, 62133000000, -22000000, -190000, 0⟩,
   ⟨250000, 376000000, 15502939000000, -7000000, 60000, 0⟩, ⟨250000, 453000000, 45999961000000, -20000000, 190000, 0⟩,
   ⟨240000, 321000000, 837851000000, -44000000, -510000, 0⟩, ⟨240000, 282000000, 38157596000000, 3000000, 370000, 0⟩,
   ⟨240000, 521000000, 15540124000000, -7000000, 60000, 0⟩, ⟨240000, 26000000, 14218576000000, 0, 130000, 0⟩,
   ⟨240000, 301000000, 15545384000000, -7000000, 60000, 0⟩, ⟨240000, 116000000, -17424247000000, -6000000, -210000, 0⟩,
   ⟨230000, 234000000, -67574000000, 6000000, 70000, 0⟩, ⟨230000, 244000000, 18024000000, -19000000, -220000, 0⟩,
   ⟨230000, 370000000, 469400000000, 0, 0, 0⟩, ⟨230000, 72000000, 7136511000000, -22000000, -190000, 0⟩,
   ⟨230000, 450000000, 15582569000000, -7000000, 60000, 0⟩, ⟨230000, 280000000, -16586395000000, -49000000, -720000, 0⟩,
   ⟨230000, 151000000, 80182000000, 0, 0, 0⟩, ⟨230000, 109000000, 5261583000000, -15000000, -120000, 0⟩,
   ⟨230000, 56000000, 54956954000000, -5000000, 440000, 0⟩, ⟨230000, 401000000, 8550860000000, -22000000, -190000, 0⟩,
   ⟨230000, 446000000, 38995448000000, -41000000, -140000, 0⟩, ⟨230000, 382000000, 2358126000000, 0, 0, 0⟩,
   ⟨220000, 377000000, 32271125000000, 5000000, 340000, 0⟩, ⟨220000, 82000000, 15935775000000, -7000000, 60000, 0⟩,
   ⟨220000, 107000000, 24013421000000, -29000000, -130000, 0⟩, ⟨220000, 40000000, 8940078000000, -22000000, -190000, 0⟩,
   ⟨220000, 206000000, 15700489000000, -7000000, 60000, 0⟩, ⟨220000, 427000000, 15124002000000, -50000000, -450000, 0⟩,
   ⟨210000, 116000000, 56071583000000, 32000000, 880000, 0⟩, ⟨210000, 558000000, 9572189000000, -22000000, -190000, 0⟩,
   ⟨200000, 170000000, -17273000000, -37000000, -440000, 0⟩, ⟨200000, 305000000, 214617000000, 0, 0, 0⟩,
   ⟨200000, 441000000, 8391048000000, -22000000, -190000, 0⟩, ⟨200000, 595000000, 23869145000000, 24000000, 560000, 0⟩,
   ⟨200000, 42000000, 40947927000000, -47000000, -210000, 0⟩, ⟨190000, 139000000, 5818897000000, 3000000, 100000, 0⟩,
   ⟨190000, 71000000, 23873747000000, -7000000, 60000, 0⟩, ⟨190000, 281000000, 7291615000000, -22000000, -190000, 0⟩,
   ⟨190000, 509000000, 8428018000000, -22000000, -190000, 0⟩, ⟨190000, 414000000, 6518187000000, -16000000, -120000, 0⟩,
   ⟨190000, 385000000, 21330000000, 0, 0, 0⟩, ⟨180000, 66000000, 14445046000000, -7000000, 60000, 0⟩,
   ⟨180000, 165000000, 966000000, -40000000, -480000, 0⟩, ⟨180000, 564000000, -17143709000000, -68000000, -940000, 0⟩,
   ⟨180000, 601000000, 7736432000000, -22000000, -190000, 0⟩, ⟨180000, 274000000, 31153083000000, -19000000, 50000, 0⟩,
   ⟨180000, 458000000, 6116355000000, -22000000, -190000, 0⟩, ⟨180000, 228000000, 46401000000, 3000000, 0, 0⟩,
   ⟨180000, 380000000, 10213597000000, 14000000, 250000, 0⟩, ⟨180000, 284000000, 56281132000000, -11000000, 360000, 0⟩,
   ⟨180000, 353000000, 8249062000000, 15000000, 250000, 0⟩, ⟨170000, 443000000, 20871911000000, -30000000, -130000, 0⟩,
   ⟨170000, 444000000, 627596000000, 0, 0, 0⟩, ⟨170000, 185000000, 628308000000, 0, 0, 0⟩,
   ⟨170000, 119000000, 8408321000000, 20000000, 250000, 0⟩, ⟨170000, 195000000, 7214056000000, -20000000, -190000, 0⟩,
   ⟨170000, 157000000, 7214070000000, -20000000, -190000, 0⟩,
   ⟨170000, 165000000, 13870811000000, -60000000, -600000, 0⟩, ⟨170000, 30000000, 22542000000, -40000000, -440000, 0⟩,
   ⟨170000, 262000000, -119445000000, 0, 0, 0⟩, ⟨160000, 487000000, 5747909000000, 20000000, 320000, 0⟩,
   ⟨160000, 445000000, 14339108000000, -10000000, 60000, 0⟩, ⟨160000, 183000000, 41366680000000, 0, 300000, 0⟩,
   ⟨160000, 453000000, 16309618000000, -30000000, -230000, 0⟩, ⟨160000, 254000000, 15542754000000, -10000000, 60000, 0⟩,
   ⟨160000, 605000000, 1203646000000, 0, 0, 0⟩, ⟨150000, 520000000, 2751147000000, 0, 0, 0⟩,
   ⟨150000, 180000000, -10699924000000, -50000000, -690000, 0⟩,
   ⟨150000, 40000000, 22824391000000, -30000000, -200000, 0⟩,
   ⟨150000, 210000000, 30666756000000, -60000000, -390000, 0⟩,
   ⟨150000, 210000000, 6010417000000, -20000000, -190000, 0⟩,
   ⟨150000, 70000000, -23729470000000, -50000000, -750000, 0⟩, ⟨150000, 140000000, 14363691000000, -10000000, 60000, 0⟩,
   ⟨150000, 580000000, 16900689000000, -20000000, 0, 0⟩, ⟨150000, 520000000, 23800458000000, 30000000, 530000, 0⟩,
   ⟨150000, 530000000, 6035000000000, -20000000, -190000, 0⟩, ⟨150000, 120000000, 8251139000000, 20000000, 250000, 0⟩,
   ⟨150000, 360000000, -8860000000, 0, 0, 0⟩, ⟨150000, 80000000, 882739000000, 0, 0, 0⟩,
   ⟨150000, 300000000, 1021329000000, 0, 0, 0⟩, ⟨150000, 60000000, 23296107000000, 10000000, 310000, 0⟩,
   ⟨140000, 540000000, 7227181000000, 20000000, 250000, 0⟩, ⟨140000, 10000000, 7213352000000, -20000000, -190000, 0⟩,
   ⟨140000, 400000000, 15506706000000, 30000000, 500000, 0⟩, ⟨140000, 340000000, 7214774000000, -20000000, -190000, 0⟩,
   ⟨140000, 460000000, 6665385000000, -20000000, -190000, 0⟩, ⟨140000, 10000000, -8636000000, -20000000, -220000, 0⟩,
   ⟨140000, 310000000, 15465202000000, -10000000, 60000, 0⟩, ⟨140000, 490000000, 508863000000, 0, 0, 0⟩,
   ⟨140000, 350000000, 8406244000000, 20000000, 250000, 0⟩, ⟨140000, 130000000, 13313497000000, -80000000, -820000, 0⟩,
   ⟨140000, 280000000, 49276619000000, -30000000, 0, 0⟩, ⟨140000, 10000000, 30528194000000, -30000000, -100000, 0⟩,
   ⟨130000, 170000000, 25128050000000, 10000000, 310000, 0⟩, ⟨130000, 290000000, 14128405000000, -10000000, 60000, 0⟩,
   ⟨130000, 340000000, 57395761000000, 30000000, 800000, 0⟩, ⟨130000, 270000000, 13029546000000, -10000000, 60000, 0⟩,
   ⟨130000, 390000000, 7802556000000, -20000000, -190000, 0⟩, ⟨130000, 160000000, 8258802000000, -20000000, -190000, 0⟩,
   ⟨130000, 220000000, 8417709000000, -20000000, -190000, 0⟩, ⟨130000, 70000000, 9965210000000, -20000000, -190000, 0⟩,
   ⟨130000, 340000000, 50391247000000, 0, 480000, 0⟩, ⟨130000, 300000000, 7134433000000, -20000000, -190000, 0⟩,
   ⟨130000, 290000000, 30599182000000, -50000000, -310000, 0⟩, ⟨130000, 360000000, -9723857000000, 10000000, 0, 0⟩,
   ⟨130000, 480000000, 7607084000000, -20000000, -190000, 0⟩, ⟨120000, 80000000, 23837689000000, 10000000, 350000, 0⟩,
   ⟨120000, 360000000, 4409000000, -40000000, -440000, 0⟩, ⟨120000, 500000000, 16657031000000, 30000000, 500000, 0⟩,
   ⟨120000, 440000000, 16657735000000, 30000000, 500000, 0⟩, ⟨120000, 110000000, 15578803000000, -40000000, -380000, 0⟩,
   ⟨120000, 600000000, -11490000000, 0, 0, 0⟩, ⟨120000, 190000000, 8164398000000, 0, 0, 0⟩,
   ⟨120000, 240000000, 31852372000000, -40000000, -170000, 0⟩,
   ⟨120000, 240000000, 6607085000000, -20000000, -190000, 0⟩, ⟨120000, 420000000, 8359870000000, 0, 0, 0⟩,
   ⟨120000, 50000000, 5799713000000, -20000000, -190000, 0⟩, ⟨120000, 270000000, 7220622000000, 0, 0, 0⟩,
   ⟨120000, 430000000, -139720000000, 0, 0, 0⟩, ⟨120000, 230000000, 13728836000000, -20000000, -160000, 0⟩,
   ⟨110000, 360000000, 14912146000000, 10000000, 310000, 0⟩, ⟨110000, 470000000, 14916748000000, -20000000, -190000, 0⟩]

/-- `lunar_python/util/ShouXingUtil.py` 247-281 `__XL1[1]`, by sixes; places 7, 8, 9, 7, 4, 6 -/
def XL1_1 : List (ℤ × ℤ × ℤ × ℤ × ℤ × ℤ) :=
  [⟨16768000, 466926000, 628301955000, -266000, 1000, -5000⟩,
   ⟨5164200, 337210000, 6585760910000, -21580000, -189000, 90000⟩,
   ⟨4138300, 572770000, 14914452335000, -6350000, 62000, -40000⟩,
   ⟨3711500, 396950000, 7700389469000, 15500000, 250000, -120000⟩,
   ⟨2756000, 74160000, 8956993380000, 14960000, 251000, -130000⟩,
   ⟨2459900, 422530000, -2301200000, 15230000, 251000, -120000⟩,
   ⟨711800, 14430000, 7842364820000, -22110000, -190000, 80000⟩,
   ⟨612800, 249980000, 16171056250000, -6880000, 60000, 0⟩, ⟨451600, 44300000, 8399679100000, -3600000, 30000, 0⟩,
   ⟨404800, 577100000, 14286150380000, -6100000, 60000, 0⟩, ⟨374700, 462600000, 1256603910000, -500000, 0, 0⟩,
   ⟨370700, 341500000, 5957458950000, -21300000, -190000, 100000⟩,
   ⟨364900, 180000000, 23243143760000, 8900000, 310000, -200000⟩,
   ⟨243800, 4200000, 16029080890000, 30700000, 500000, -200000⟩,
   ⟨216500, 101700000, -1742930510000, -36800000, -440000, 200000⟩,
   ⟨192300, 309700000, 17285684800000, 30200000, 500000, -300000⟩,
   ⟨169200, 128000000, 328600000, 15200000, 250000, -100000⟩,
   ⟨136100, 29800000, 8326390200000, 30500000, 500000, -200000⟩,
   ⟨129300, 401300000, 7072087500000, 15800000, 250000, -100000⟩, ⟨127600, 441300000, 8330992600000, 0, 0, 0⟩,
   ⟨127000, 10100000, 8470666800000, -22400000, -190000, 100000⟩,
   ⟨109700, 120300000, 22128515200000, -28200000, -130000, 0⟩, ⟨108800, 254500000, 15542754300000, -6600000, 60000, 0⟩,
   ⟨83500, 19000000, 7214062900000, -21800000, -190000, 100000⟩,
   ⟨73400, 485500000, 24499747700000, 8300000, 310000, -200000⟩,
   ⟨68600, 513000000, 13799823800000, -43400000, -380000, 200000⟩,
   ⟨63100, 93000000, -486326600000, -37300000, -440000, 0⟩, ⟨58500, 69900000, 9585295300000, 15000000, 250000, 0⟩,
   ⟨56600, 407300000, 8328339100000, 15000000, 250000, 0⟩, ⟨56600, 63800000, 8329043700000, 15000000, 250000, 0⟩,
   ⟨53900, 247200000, -1952480000000, 6000000, 70000, 0⟩, ⟨50900, 288000000, -711300000, 0, 0, 0⟩,
   ⟨46900, 356000000, 30457206600000, -13000000, 120000, 0⟩, ⟨38700, 78000000, -352300000, 0, 0, 0⟩,
   ⟨37800, 184000000, 22614841800000, 9000000, 310000, 0⟩, ⟨36200, 553000000, -695876100000, 6000000, 70000, 0⟩,
   ⟨31700, 280000000, 16728370500000, 12000000, 280000, 0⟩, ⟨30300, 607000000, 157734400000, 0, 0, 0⟩,
   ⟨30000, 253000000, 33757000000, -3000000, -40000, 0⟩, ⟨29500, 416000000, 31571835200000, 24000000, 560000, 0⟩,
   ⟨28900, 598000000, 7211761700000, -7000000, 60000, 0⟩, ⟨28500, 206000000, 15540453100000, 9000000, 310000, 0⟩,
   ⟨28300, 265000000, 2629800000, 0, 0, 0⟩, ⟨28200, 617000000, 15545055500000, -22000000, -190000, 0⟩,
   ⟨27800, 123000000, -39814900000, 0, 0, 0⟩, ⟨27200, 382000000, 7216364100000, -37000000, -440000, 0⟩,
   ⟨27000, 437000000, 70987700000, -19000000, -220000, 0⟩, ⟨25600, 581000000, 13657848400000, -6000000, 60000, 0⟩,
   ⟨24400, 564000000, -223700000, 15000000, 250000, 0⟩, ⟨24000, 296000000, 8311770700000, -22000000, -190000, 0⟩,
   ⟨23900, 87000000, -33781400000, 3000000, 40000, 0⟩, ⟨21600, 231000000, 15999500000, -22000000, -190000, 0⟩,
   ⟨18600, 346000000, 5329157000000, -21000000, -190000, 0⟩, ⟨16900, 240000000, 24357772000000, 46000000, 750000, 0⟩,
   ⟨16100, 580000000, 8329403000000, 15000000, 250000, 0⟩, ⟨16100, 520000000, 8327980000000, 15000000, 250000, 0⟩,
   ⟨16000, 426000000, 23385119000000, -29000000, -130000, 0⟩, ⟨15600, 126000000, 550755000000, 0, 0, 0⟩,
   ⟨15500, 125000000, 21500213000000, -28000000, -130000, 0⟩, ⟨15200, 60000000, -16921000000, -37000000, -440000, 0⟩,
   ⟨15000, 271000000, -79630000000, 0, 0, 0⟩, ⟨15000, 529000000, 15542000000, 0, 0, 0⟩,
   ⟨14800, 106000000, -2371232000000, -37000000, -440000, 0⟩, ⟨14100, 77000000, 8328691000000, 15000000, 250000, 0⟩,
   ⟨14100, 367000000, 7143075000000, -3000000, 0, 0⟩, ⟨13800, 545000000, 25614376000000, 45000000, 750000, 0⟩,
   ⟨12900, 490000000, 23871446000000, 9000000, 310000, 0⟩, ⟨12600, 403000000, 141975000000, -38000000, -440000, 0⟩,
   ⟨12400, 601000000, 522369000000, 0, 0, 0⟩, ⟨12000, 494000000, -10071622000000, -52000000, -690000, 0⟩,
   ⟨11800, 507000000, -15419000000, -22000000, -190000, 0⟩, ⟨10700, 349000000, 23452693000000, -34000000, -200000, 0⟩,
   ⟨10400, 478000000, 17495234000000, -13000000, 0, 0⟩, ⟨10300, 144000000, -18049000000, -22000000, -190000, 0⟩,
   ⟨10200, 563000000, 15542402000000, -7000000, 60000, 0⟩, ⟨10200, 259000000, 15543107000000, -7000000, 60000, 0⟩,
   ⟨10000, 411000000, -6559000000, -19000000, -220000, 0⟩, ⟨9700, 8000000, 15400779000000, 31000000, 500000, 0⟩,
   ⟨9600, 584000000, 31781385000000, -19000000, 50000, 0⟩, ⟨9400, 108000000, 8328363000000, 0, 0, 0⟩,
   ⟨9400, 246000000, 16799358000000, -7000000, 60000, 0⟩, ⟨9400, 169000000, 6376211000000, 22000000, 320000, 0⟩,
   ⟨9300, 364000000, 8329020000000, 30000000, 500000, 0⟩, ⟨9300, 265000000, 16655082000000, 46000000, 750000, 0⟩,
   ⟨9000, 190000000, 15056428000000, -44000000, -380000, 0⟩, ⟨8900, 159000000, 52969000000, 0, 0, 0⟩,
   ⟨8800, 202000000, -8257704000000, -34000000, -470000, 0⟩, ⟨8800, 302000000, 7213711000000, -22000000, -190000, 0⟩,
   ⟨8700, 50000000, 7214415000000, -22000000, -190000, 0⟩, ⟨8700, 49000000, 16659684000000, 15000000, 250000, 0⟩,
   ⟨8200, 564000000, -4931000000, 15000000, 250000, 0⟩, ⟨7900, 517000000, 13171522000000, -43000000, -380000, 0⟩,
   ⟨7600, 360000000, 29828905000000, -13000000, 120000, 0⟩, ⟨7600, 408000000, 24567322000000, 3000000, 240000, 0⟩,
   ⟨7600, 458000000, 1884906000000, -1000000, 0, 0⟩, ⟨7300, 33000000, 31713811000000, -14000000, 120000, 0⟩,
   ⟨7300, 93000000, 32828439000000, 24000000, 560000, 0⟩, ⟨7100, 591000000, 38785898000000, 2000000, 370000, 0⟩,
   ⟨6900, 220000000, 15613742000000, -25000000, -160000, 0⟩, ⟨6600, 387000000, 15732000000, -25000000, -230000, 0⟩,
   ⟨6600, 86000000, 25823926000000, 2000000, 240000, 0⟩, ⟨6500, 252000000, 8170957000000, 15000000, 250000, 0⟩,
   ⟨6300, 18000000, 8322132000000, -3000000, 0, 0⟩, ⟨6000, 584000000, 8326062000000, 15000000, 250000, 0⟩,
   ⟨6000, 515000000, 8331321000000, 15000000, 250000, 0⟩, ⟨6000, 218000000, 8486426000000, 15000000, 250000, 0⟩,
   ⟨5800, 230000000, -1731000000, -40000000, -440000, 0⟩, ⟨5800, 543000000, 14357138000000, -20000000, -160000, 0⟩,
   ⟨5700, 309000000, 8294910000000, 20000000, 290000, 0⟩, ⟨5700, 467000000, -8362473000000, -10000000, -210000, 0⟩,
   ⟨5600, 415000000, 16833151000000, -10000000, 0, 0⟩, ⟨5400, 193000000, 7056329000000, -20000000, -190000, 0⟩,
   ⟨5400, 527000000, 8315574000000, -20000000, -190000, 0⟩, ⟨5200, 560000000, 8311418000000, -20000000, -190000, 0⟩,
   ⟨5200, 270000000, -77552000000, 0, 0, 0⟩, ⟨5100, 430000000, 7230984000000, 20000000, 250000, 0⟩,
   ⟨5000, 40000000, -508000000, 0, 0, 0⟩, ⟨4900, 540000000, 7211433000000, -20000000, -190000, 0⟩,
   ⟨4900, 440000000, 7216693000000, -20000000, -190000, 0⟩, ⟨4900, 430000000, 16864631000000, 0, 240000, 0⟩,
   ⟨4900, 220000000, 16869234000000, -30000000, -260000, 0⟩, ⟨4700, 610000000, 627596000000, 0, 0, 0⟩,
   ⟨4700, 500000000, 12619000000, 10000000, 70000, 0⟩, ⟨4500, 490000000, -8815018000000, -50000000, -690000, 0⟩,
   ⟨4400, 160000000, 62133000000, -20000000, -190000, 0⟩, ⟨4200, 290000000, -13118000000, -40000000, -440000, 0⟩,
   ⟨4200, 410000000, -119445000000, 0, 0, 0⟩, ⟨4100, 430000000, 22756817000000, -30000000, -130000, 0⟩,
   ⟨4100, 360000000, 8288877000000, 20000000, 250000, 0⟩, ⟨4000, 50000000, 6663308000000, -20000000, -190000, 0⟩,
   ⟨4000, 110000000, 8368506000000, 20000000, 250000, 0⟩, ⟨3900, 410000000, 6443786000000, 20000000, 250000, 0⟩,
   ⟨3900, 310000000, 16657383000000, 30000000, 500000, 0⟩, ⟨3800, 10000000, 16657031000000, 30000000, 500000, 0⟩,
   ⟨3800, 300000000, 16657735000000, 30000000, 500000, 0⟩, ⟨3800, 460000000, 23942433000000, -10000000, 90000, 0⟩,
   ⟨3700, 430000000, 15385020000000, -10000000, 60000, 0⟩, ⟨3700, 500000000, 548678000000, 0, 0, 0⟩,
   ⟨3600, 180000000, 7213352000000, -20000000, -190000, 0⟩, ⟨3600, 170000000, 7214774000000, -20000000, -190000, 0⟩,
   ⟨3500, 110000000, 7777936000000, 20000000, 250000, 0⟩, ⟨3500, 160000000, -8860000000, 0, 0, 0⟩,
   ⟨3500, 440000000, 23869145000000, 20000000, 560000, 0⟩, ⟨3500, 200000000, 6691693000000, -20000000, -190000, 0⟩,
   ⟨3400, 130000000, -1185616000000, -20000000, -220000, 0⟩, ⟨3400, 220000000, 23873747000000, -10000000, 60000, 0⟩,
   ⟨3300, 200000000, -235287000000, 0, 0, 0⟩, ⟨3300, 310000000, 17913987000000, 30000000, 500000, 0⟩,
   ⟨3300, 100000000, 8351233000000, -20000000, -190000, 0⟩]

/-- `lunar_python/util/ShouXingUtil.py` 247-281 `__XL1[2]`, by sixes; places 7, 8, 9, 7, 4, 6 -/
def XL1_2 : List (ℤ × ℤ × ℤ × ℤ × ℤ × ℤ) :=
  [⟨48700, 466930000, 628301960000, -270000, 0, -10000⟩, ⟨22800, 267460000, -2301200000, 15230000, 250000, -120000⟩,
   ⟨15000, 337200000, 6585760910000, -21600000, -190000, 100000⟩,
   ⟨12000, 572800000, 14914452330000, -6400000, 60000, 0⟩, ⟨10800, 396900000, 7700389470000, 15500000, 250000, -100000⟩,
   ⟨8000, 74200000, 8956993380000, 15000000, 250000, -100000⟩, ⟨2540, 600200000, 328600000, 15200000, 250000, -100000⟩,
   ⟨2100, 14400000, 7842364800000, -22100000, -190000, 0⟩, ⟨1800, 250000000, 16171056200000, -7000000, 60000, 0⟩,
   ⟨1300, 44000000, 8399679100000, -4000000, 30000, 0⟩, ⟨1260, 503000000, 8326390200000, 30000000, 500000, 0⟩,
   ⟨1200, 577000000, 14286150400000, -6000000, 60000, 0⟩, ⟨1180, 596000000, 8330992600000, 0, 0, 0⟩,
   ⟨1100, 180000000, 23243143800000, 9000000, 310000, 0⟩, ⟨1100, 342000000, 5957459000000, -21000000, -190000, 0⟩,
   ⟨1100, 463000000, 1256603900000, -1000000, 0, 0⟩, ⟨990, 470000000, -711300000, 0, 0, 0⟩,
   ⟨700, 4000000, 16029080900000, 31000000, 500000, 0⟩, ⟨700, 514000000, 8328339100000, 15000000, 250000, 0⟩,
   ⟨700, 585000000, 8329043700000, 15000000, 250000, 0⟩, ⟨600, 102000000, -1742930500000, -37000000, -440000, 0⟩,
   ⟨600, 310000000, 17285684800000, 30000000, 500000, 0⟩, ⟨540, 569000000, -352000000, 0, 0, 0⟩,
   ⟨430, 52000000, 15542000000, 0, 0, 0⟩, ⟨410, 203000000, 2630000000, 0, 0, 0⟩,
   ⟨400, 10000000, 8470667000000, -22000000, -190000, 0⟩, ⟨400, 401000000, 7072088000000, 16000000, 250000, 0⟩,
   ⟨360, 293000000, -8860000000, -3000000, 0, 0⟩, ⟨300, 120000000, 22128515000000, -28000000, -130000, 0⟩,
   ⟨300, 254000000, 15542754000000, -7000000, 60000, 0⟩, ⟨270, 443000000, 7211762000000, -7000000, 60000, 0⟩,
   ⟨260, 51000000, 15540453000000, 9000000, 310000, 0⟩, ⟨260, 144000000, 15545055000000, -22000000, -190000, 0⟩,
   ⟨250, 537000000, 7216364000000, -37000000, -440000, 0⟩]

/-- `lunar_python/util/ShouXingUtil.py` 247-281 `__XL1[3]`, by sixes; places 7, 8, 9, 7, 4, 6 -/
def XL1_3 : List (ℤ × ℤ × ℤ × ℤ × ℤ × ℤ) :=
  [⟨120, 104100000, -2301200000, 15200000, 250000, -100000⟩, ⟨17, 31000000, -711000000, 0, 0, 0⟩]

/-- `lunar_python/util/ShouXingUtil.py` 319-356 `__QI_KB` without its last number, by twos; places 6, 9 -/
def QI_KB : List (ℤ × ℤ) :=
  [⟨1640650479938, 15218425000⟩, ⟨1642476703182, 15218749960⟩, ⟨1683430515601, 15218750011⟩,
   ⟨1752157640664, 15218749978⟩, ⟨1807675003759, 15218620279⟩, ⟨1883627765182, 15218612292⟩,
   ⟨1907369128100, 15218449176⟩, ⟨1936603140413, 15218425000⟩, ⟨1939145524180, 15218466998⟩,
   ⟨1947180798300, 15218524844⟩, ⟨1964362041824, 15218533526⟩, ⟨1987372340971, 15218513908⟩,
   ⟨1999653819126, 15218530782⟩, ⟨2007445469786, 15218535181⟩, ⟨2021324917146, 15218526248⟩,
   ⟨2047257232342, 15218519654⟩, ⟨2070282898213, 15218425000⟩, ⟨2073204872850, 15218515221⟩,
   ⟨2080144500926, 15218530782⟩, ⟨2086703688963, 15218523776⟩, ⟨2110033182763, 15218425000⟩,
   ⟨2111190300888, 15218425000⟩, ⟨2113731271005, 15218515671⟩, ⟨2120670840263, 15218425000⟩,
   ⟨2123973309063, 15218425000⟩, ⟨2125068997336, 15218477932⟩, ⟨2136026312633, 15218472436⟩,
   ⟨2156099495538, 15218425000⟩, ⟨2159021324663, 15218425000⟩, ⟨2162308575254, 15218461742⟩,
   ⟨2178485706538, 15218425000⟩, ⟨2178759662849, 15218445786⟩, ⟨2185334020800, 15218425000⟩,
   ⟨2187525481425, 15218425000⟩, ⟨2188621191481, 15218437494⟩]

/-- `lunar_python/util/ShouXingUtil.py` 355: the last number of `__QI_KB`; 2 places -/
def QI_KB_END : ℤ := 232214776

/-- `lunar_python/util/ShouXingUtil.py` 359-359 `__SHUO_KB` without its last number, by twos; places 6, 8 -/
def SHUO_KB : List (ℤ × ℤ) :=
  [⟨1457698231017, 2953067166⟩, ⟨1546082512234, 2953085106⟩, ⟨1640640735300, 2953060000⟩, ⟨1642472151543, 2953085439⟩,
   ⟨1683430509300, 2953086148⟩, ⟨1752148041079, 2953085097⟩, ⟨1807665420323, 2953059851⟩, ⟨1883618114100, 2953060000⟩,
   ⟨1907360704700, 2953060000⟩, ⟨1936596224900, 2953060000⟩, ⟨1939135675300, 2953060000⟩]

/-- `lunar_python/util/ShouXingUtil.py` 359: the last number of `__SHUO_KB`; 2 places -/
def SHUO_KB_END : ℤ := 194716800

/-- `lunar_python/util/ShouXingUtil.py` 580: the coded text of `__SB` -/
def SB_CODE : String := "EqoFscDcrFpmEsF2DfFideFelFpFfFfFiaipqti1ksttikptikqckstekqttgkqttgkqteksttikptikq2fjstgjqttjkqttgkqtekstfkptikq2tijstgjiFkirFsAeACoFsiDaDiADc1AFbBfgdfikijFifegF1FhaikgFag1E2btaieeibggiffdeigFfqDfaiBkF1kEaikhkigeidhhdiegcFfakF1ggkidbiaedksaFffckekidhhdhdikcikiakicjF1deedFhFccgicdekgiFbiaikcfi1kbFibefgEgFdcFkFeFkdcfkF1kfkcickEiFkDacFiEfbiaejcFfffkhkdgkaiei1ehigikhdFikfckF1dhhdikcfgjikhfjicjicgiehdikcikggcifgiejF1jkieFhegikggcikFegiegkfjebhigikggcikdgkaFkijcfkcikfkcifikiggkaeeigefkcdfcfkhkdgkegieidhijcFfakhfgeidieidiegikhfkfckfcjbdehdikggikgkfkicjicjF1dbidikFiggcifgiejkiegkigcdiegfggcikdbgfgefjF1kfegikggcikdgFkeeijcfkcikfkekcikdgkabhkFikaffcfkhkdgkegbiaekfkiakicjhfgqdq2fkiakgkfkhfkfcjiekgFebicggbedF1jikejbbbiakgbgkacgiejkijjgigfiakggfggcibFifjefjF1kfekdgjcibFeFkijcfkfhkfkeaieigekgbhkfikidfcjeaibgekgdkiffiffkiakF1jhbakgdki1dj1ikfkicjicjieeFkgdkicggkighdF1jfgkgfgbdkicggfggkidFkiekgijkeigfiskiggfaidheigF1jekijcikickiggkidhhdbgcfkFikikhkigeidieFikggikhkffaffijhidhhakgdkhkijF1kiakF1kfheakgdkifiggkigicjiejkieedikgdfcggkigieeiejfgkgkigbgikicggkiaideeijkefjeijikhkiggkiaidheigcikaikffikijgkiahi1hhdikgjfifaakekighie1hiaikggikhkffakicjhiahaikggikhkijF1kfejfeFhidikggiffiggkigicjiekgieeigikggiffiggkidheigkgfjkeigiegikifiggkidhedeijcfkFikikhkiggkidhh1ehigcikaffkhkiggkidhh1hhigikekfiFkFikcidhh1hitcikggikhkfkicjicghiediaikggikhkijbjfejfeFhaikggifikiggkigiejkikgkgieeigikggiffiggkigieeigekijcijikggifikiggkideedeijkefkfckikhkiggkidhh1ehijcikaffkhkiggkidhh1hhigikhkikFikfckcidhh1hiaikgjikhfjicjicgiehdikcikggifikigiejfejkieFhegikggifikiggfghigkfjeijkhigikggifikiggkigieeijcijcikfksikifikiggkidehdeijcfdckikhkiggkhghh1ehijikifffffkhsFngErD1pAfBoDd1BlEtFqA2AqoEpDqElAEsEeB2BmADlDkqBtC1FnEpDqnEmFsFsAFnllBbFmDsDiCtDmAB2BmtCgpEplCpAEiBiEoFqFtEqsDcCnFtADnFlEgdkEgmEtEsCtDmADqFtAFrAtEcCqAE1BoFqC1F1DrFtBmFtAC2ACnFaoCgADcADcCcFfoFtDlAFgmFqBq2bpEoAEmkqnEeCtAE1bAEqgDfFfCrgEcBrACfAAABqAAB1AAClEnFeCtCgAADqDoBmtAAACbFiAAADsEtBqAB2FsDqpFqEmFsCeDtFlCeDtoEpClEqAAFrAFoCgFmFsFqEnAEcCqFeCtFtEnAEeFtAAEkFnErAABbFkADnAAeCtFeAfBoAEpFtAABtFqAApDcCGJ"

/-- `lunar_python/util/ShouXingUtil.py` 614: the coded text of `__QB` -/
def QB_CODE : String := "FrcFs22AFsckF2tsDtFqEtF1posFdFgiFseFtmelpsEfhkF2anmelpFlF1ikrotcnEqEq2FfqmcDsrFor22FgFrcgDscFs22FgEeFtE2sfFs22sCoEsaF2tsD1FpeE2eFsssEciFsFnmelpFcFhkF2tcnEqEpFgkrotcnEqrEtFermcDsrE222FgBmcmr22DaEfnaF222sD1FpeForeF2tssEfiFpEoeFssD1iFstEqFppDgFstcnEqEpFg11FscnEqrAoAF2ClAEsDmDtCtBaDlAFbAEpAAAAAD2FgBiBqoBbnBaBoAAAAAAAEgDqAdBqAFrBaBoACdAAf1AACgAAAeBbCamDgEifAE2AABa1C1BgFdiAAACoCeE1ADiEifDaAEqAAFe1AcFbcAAAAAF1iFaAAACpACmFmAAAAAAAACrDaAAADG0"

end ShouXing
