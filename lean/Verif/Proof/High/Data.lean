import Verif.Proof.High.Check

/-! # Tables of days, generated by `tools/high.py` -/

namespace High

/-- solar terms of the years about 2020 -/
def sun0 : List Row := [
  ⟨1720774769633, 365242315, 84602⟩, ⟨1720790232073, 365242166, 85465⟩, ⟨1720805837131, 365242012, 85986⟩,
  ⟨1720821554536, 365241866, 86170⟩, ⟨1720837354967, 365241736, 86048⟩, ⟨1720853194617, 365241633, 85804⟩,
  ⟨1720869028767, 365241565, 85559⟩, ⟨1720884817894, 365241535, 85398⟩, ⟨1720900516034, 365241548, 85388⟩,
  ⟨1720916093685, 365241601, 85630⟩, ⟨1720931524330, 365241691, 85969⟩, ⟨1720946796966, 365241810, 86210⟩,
  ⟨1720961905943, 365241951, 86158⟩, ⟨1720976864384, 365242102, 85778⟩, ⟨1720991690606, 365242253, 85091⟩,
  ⟨1721006409943, 365242395, 84113⟩, ⟨1721021059981, 365242517, 83020⟩, ⟨1721035677121, 365242612, 82020⟩,
  ⟨1721050299001, 365242675, 81280⟩, ⟨1721064964738, 365242702, 80952⟩, ⟨1721079711053, 365242691, 81148⟩,
  ⟨1721094568382, 365242643, 81874⟩, ⟨1721109563047, 365242560, 83002⟩, ⟨1721124709366, 365242448, 84192⟩]

/-- solar terms of the years about 2105 -/
def sun1 : List Row := [
  ⟨1720774669262, 365242365, 54304⟩, ⟨1720790129640, 365242217, 54992⟩, ⟨1720805732667, 365242064, 55554⟩,
  ⟨1720821452084, 365241917, 55958⟩, ⟨1720837256686, 365241785, 56217⟩, ⟨1720853100441, 365241680, 56346⟩,
  ⟨1720868942819, 365241608, 56386⟩, ⟨1720884738176, 365241575, 56370⟩, ⟨1720900446633, 365241583, 56312⟩,
  ⟨1720916032557, 365241632, 56241⟩, ⟨1720931469353, 365241719, 56117⟩, ⟨1720946748238, 365241835, 55880⟩,
  ⟨1720961861306, 365241974, 55503⟩, ⟨1720976821842, 365242124, 54995⟩, ⟨1720991646005, 365242276, 54344⟩,
  ⟨1721006363238, 365242419, 53639⟩, ⟨1721021009175, 365242543, 52921⟩, ⟨1721035620162, 365242641, 52308⟩,
  ⟨1721050233769, 365242708, 51891⟩, ⟨1721064893341, 365242738, 51705⟩, ⟨1721079631413, 365242731, 51817⟩,
  ⟨1721094480478, 365242687, 52216⟩, ⟨1721109466909, 365242608, 52829⟩, ⟨1721124609124, 365242498, 53550⟩]

/-- solar terms of the years about 2430 -/
def sun2 : List Row := [
  ⟨1720774651331, 365242373, 109515⟩, ⟨1720790098019, 365242231, 112775⟩, ⟨1720805696405, 365242080, 114485⟩,
  ⟨1720821422504, 365241930, 114330⟩, ⟨1720837240779, 365241792, 112580⟩, ⟨1720853109365, 365241676, 109657⟩,
  ⟨1720868981167, 365241591, 106197⟩, ⟨1720884810506, 365241543, 103055⟩, ⟨1720900552977, 365241536, 101408⟩,
  ⟨1720916175349, 365241569, 101733⟩, ⟨1720931643677, 365241642, 106552⟩, ⟨1720946947723, 365241747, 111098⟩,
  ⟨1720962078836, 365241878, 114723⟩, ⟨1720977048581, 365242024, 116264⟩, ⟨1720991875059, 365242175, 115583⟩,
  ⟨1721006585501, 365242321, 113335⟩, ⟨1721021213289, 365242453, 109365⟩, ⟨1721035801728, 365242561, 104472⟩,
  ⟨1721050387984, 365242640, 99445⟩, ⟨1721065015962, 365242684, 94089⟩, ⟨1721079722341, 365242691, 91855⟩,
  ⟨1721094539585, 365242661, 92459⟩, ⟨1721109496517, 365242595, 97844⟩, ⟨1721124609192, 365242498, 103487⟩]

/-- solar terms of the years about 3252 -/
def sun3 : List Row := [
  ⟨1720774636108, 365242379, 203964⟩, ⟨1720790028256, 365242256, 213592⟩, ⟨1720805594452, 365242116, 219483⟩,
  ⟨1720821317103, 365241967, 222900⟩, ⟨1720837160257, 365241820, 223014⟩, ⟨1720853082306, 365241685, 220455⟩,
  ⟨1720869033127, 365241572, 214990⟩, ⟨1720884958447, 365241490, 207826⟩, ⟨1720900811360, 365241444, 200254⟩,
  ⟨1720916544835, 365241438, 195121⟩, ⟨1720932124026, 365241472, 197389⟩, ⟨1720947522399, 365241544, 208874⟩,
  ⟨1720962727470, 365241649, 219070⟩, ⟨1720977746161, 365241778, 226362⟩, ⟨1720992593343, 365241922, 229246⟩,
  ⟨1721007299190, 365242070, 226991⟩, ⟨1721021893036, 365242214, 221881⟩, ⟨1721036425582, 365242342, 214931⟩,
  ⟨1721050935286, 365242448, 205146⟩, ⟨1721065472914, 365242524, 194635⟩, ⟨1721080077100, 365242567, 184472⟩,
  ⟨1721094792077, 365242573, 177993⟩, ⟨1721109649596, 365242542, 180703⟩, ⟨1721124673612, 365242476, 192540⟩]

/-- solar terms of the years about 4292 -/
def sun4 : List Row := [
  ⟨1720774757005, 365242348, 204431⟩, ⟨1720790016324, 365242260, 215823⟩, ⟨1720805487124, 365242145, 224942⟩,
  ⟨1720821152089, 365242011, 231049⟩, ⟨1720836982352, 365241867, 234728⟩, ⟨1720852940836, 365241722, 235372⟩,
  ⟨1720868973257, 365241587, 234190⟩, ⟨1720885025525, 365241471, 229415⟩, ⟨1720901036102, 365241383, 222513⟩,
  ⟨1720916950464, 365241329, 214894⟩, ⟨1720932714623, 365241314, 207968⟩, ⟨1720948290441, 365241339, 209789⟩,
  ⟨1720963658190, 365241401, 220773⟩, ⟨1720978806127, 365241496, 230677⟩, ⟨1720993741215, 365241617, 237644⟩,
  ⟨1721008486453, 365241755, 240314⟩, ⟨1721023077556, 365241900, 238068⟩, ⟨1721037558912, 365242042, 231973⟩,
  ⟨1721051978888, 365242172, 226312⟩, ⟨1721066393155, 365242281, 217533⟩, ⟨1721080850460, 365242363, 207541⟩,
  ⟨1721095403904, 365242412, 197407⟩, ⟨1721110092062, 365242426, 190499⟩, ⟨1721124945794, 365242405, 193217⟩]

/-- solar terms of the years about 5332 -/
def sun5 : List Row := [
  ⟨1720775146356, 365242268, 207633⟩, ⟨1720790207610, 365242221, 218834⟩, ⟨1720805504568, 365242142, 229856⟩,
  ⟨1720821039132, 365242035, 239014⟩, ⟨1720836781103, 365241909, 245321⟩, ⟨1720852709489, 365241770, 248763⟩,
  ⟨1720868774174, 365241628, 250090⟩, ⟨1720884916732, 365241493, 250130⟩, ⟨1720901070517, 365241375, 246281⟩,
  ⟨1720917166768, 365241283, 239905⟩, ⟨1720933152012, 365241222, 231900⟩, ⟨1720948963356, 365241198, 224032⟩,
  ⟨1720964557457, 365241213, 224372⟩, ⟨1720979912985, 365241265, 234727⟩, ⟨1720995017047, 365241351, 244026⟩,
  ⟨1721009888653, 365241463, 250539⟩, ⟨1721024548405, 365241594, 253056⟩, ⟨1721039040900, 365241734, 250803⟩,
  ⟨1721053413788, 365241874, 244608⟩, ⟨1721067728174, 365242004, 239110⟩, ⟨1721082041796, 365242116, 231414⟩,
  ⟨1721096418457, 365242202, 222026⟩, ⟨1721110905195, 365242258, 212431⟩, ⟨1721125546637, 365242281, 205134⟩]

/-- solar terms of the years about 6372 -/
def sun6 : List Row := [
  ⟨1720775911630, 365242138, 223082⟩, ⟨1720790721067, 365242134, 224764⟩, ⟨1720805771420, 365242097, 235760⟩,
  ⟨1720821089487, 365242027, 246359⟩, ⟨1720836660420, 365241930, 255438⟩, ⟨1720852470786, 365241811, 261977⟩,
  ⟨1720868481729, 365241678, 265487⟩, ⟨1720884640659, 365241540, 267682⟩, ⟨1720900880649, 365241407, 268792⟩,
  ⟨1720917139509, 365241287, 266083⟩, ⟨1720933328536, 365241191, 259837⟩, ⟨1720949391099, 365241124, 251731⟩,
  ⟨1720965259816, 365241092, 242964⟩, ⟨1720980890586, 365241097, 241615⟩, ⟨1720996252214, 365241139, 250722⟩,
  ⟨1721011341505, 365241214, 259552⟩, ⟨1721026159913, 365241318, 265659⟩, ⟨1721040753495, 365241441, 267581⟩,
  ⟨1721055156723, 365241576, 265057⟩, ⟨1721069437602, 365241712, 259200⟩, ⟨1721083646580, 365241842, 254225⟩,
  ⟨1721097866833, 365241955, 247146⟩, ⟨1721112149448, 365242046, 238269⟩, ⟨1721126563001, 365242108, 230380⟩]

/-- solar terms of the years about 7412 -/
def sun7 : List Row := [
  ⟨1720777114405, 365241964, 251655⟩, ⟨1720791641831, 365242001, 243561⟩, ⟨1720806402192, 365242006, 244234⟩,
  ⟨1720821438019, 365241977, 255211⟩, ⟨1720836753418, 365241917, 265993⟩, ⟨1720852342128, 365241830, 274875⟩,
  ⟨1720868200834, 365241719, 281563⟩, ⟨1720884275928, 365241593, 284964⟩, ⟨1720900514309, 365241460, 287855⟩,
  ⟨1720916847879, 365241329, 290330⟩, ⟨1720933200795, 365241209, 288499⟩, ⟨1720949489916, 365241109, 282977⟩,
  ⟨1720965633283, 365241037, 274836⟩, ⟨1720981573967, 365240997, 265245⟩, ⟨1720997252435, 365240993, 262895⟩,
  ⟨1721012638460, 365241025, 270336⟩, ⟨1721027725986, 365241090, 277596⟩, ⟨1721042527826, 365241183, 282946⟩,
  ⟨1721057070007, 365241298, 284605⟩, ⟨1721071400410, 365241427, 281457⟩, ⟨1721085596820, 365241559, 275722⟩,
  ⟨1721099715057, 365241687, 271750⟩, ⟨1721113832914, 365241802, 265070⟩, ⟨1721128026946, 365241896, 257015⟩]

/-- solar terms of the years about 8452 -/
def sun8 : List Row := [
  ⟨1720778782342, 365241754, 281605⟩, ⟨1720793024860, 365241827, 276394⟩, ⟨1720807476227, 365241871, 267684⟩,
  ⟨1720822179426, 365241884, 266534⟩, ⟨1720837169597, 365241865, 277629⟩, ⟨1720852464015, 365241815, 288266⟩,
  ⟨1720868060552, 365241737, 297152⟩, ⟨1720883944649, 365241635, 303935⟩, ⟨1720900062619, 365241517, 307198⟩,
  ⟨1720916371254, 365241389, 311123⟩, ⟨1720932786369, 365241261, 315079⟩, ⟨1720949224795, 365241142, 314289⟩,
  ⟨1720965604671, 365241040, 309406⟩, ⟨1720981846336, 365240962, 301203⟩, ⟨1720997865309, 365240915, 291118⟩,
  ⟨1721013607957, 365240902, 287015⟩, ⟨1721029036722, 365240924, 295633⟩, ⟨1721044140771, 365240979, 300431⟩,
  ⟨1721058929628, 365241063, 303403⟩, ⟨1721073443389, 365241169, 304093⟩, ⟨1721087728667, 365241290, 300444⟩,
  ⟨1721101847784, 365241418, 294863⟩, ⟨1721115887366, 365241543, 292040⟩, ⟨1721129924139, 365241657, 285999⟩]

/-- solar terms of the years about 9492 -/
def sun9 : List Row := [
  ⟨1720780838028, 365241525, 315498⟩, ⟨1720794856982, 365241623, 311480⟩, ⟨1720809012836, 365241700, 304972⟩,
  ⟨1720823384735, 365241750, 295417⟩, ⟨1720838016253, 365241771, 292614⟩, ⟨1720852951891, 365241761, 303222⟩,
  ⟨1720868207104, 365241721, 313800⟩, ⟨1720883785795, 365241653, 322568⟩, ⟨1720899669397, 365241561, 329317⟩,
  ⟨1720915815553, 365241451, 332687⟩, ⟨1720932175992, 365241329, 337550⟩, ⟨1720948657760, 365241205, 343033⟩,
  ⟨1720965179802, 365241087, 343498⟩, ⟨1720981644632, 365240984, 339315⟩, ⟨1720997977008, 365240902, 331269⟩,
  ⟨1721014077722, 365240849, 320618⟩, ⟨1721029891733, 365240828, 316438⟩, ⟨1721045381692, 365240840, 324055⟩,
  ⟨1721060530058, 365240884, 330620⟩, ⟨1721075331648, 365240958, 332041⟩, ⟨1721089833382, 365241055, 329175⟩,
  ⟨1721104088184, 365241168, 322959⟩, ⟨1721118155797, 365241290, 316984⟩, ⟨1721132122041, 365241412, 317176⟩]

/-- new moons about month 0 -/
def moon0 : Row := ⟨2422020343988, 29530586, 1425615⟩

/-- new moons about month 1236 -/
def moon1 : Row := ⟨2422020367123, 29530574, 1450338⟩

/-- new moons about month 3710 -/
def moon2 : Row := ⟨2422020344254, 29530587, 1432247⟩

/-- new moons about month 12368 -/
def moon3 : Row := ⟨2422020372788, 29530584, 1465817⟩

/-- new moons about month 24737 -/
def moon4 : Row := ⟨2422020434856, 29530581, 1484702⟩

/-- new moons about month 37105 -/
def moon5 : Row := ⟨2422020529129, 29530578, 1510390⟩

/-- new moons about month 49474 -/
def moon6 : Row := ⟨2422020706091, 29530574, 1537947⟩

/-- new moons about month 61842 -/
def moon7 : Row := ⟨2422020877544, 29530571, 1568744⟩

/-- new moons about month 74211 -/
def moon8 : Row := ⟨2422021082352, 29530568, 1608701⟩

/-- new moons about month 86579 -/
def moon9 : Row := ⟨2422021321655, 29530565, 1655606⟩

/-- new moons about month 98948 -/
def moon10 : Row := ⟨2422021596981, 29530562, 1711186⟩

/-- the years 1961 to 2039 -/
def rows0 : Rows := ⟨⟨1721050299001, 365242675, 81280⟩, ⟨1721079711053, 365242691, 81148⟩, ⟨1721109563047, 365242560, 83002⟩,
  ⟨2422020343988, 29530586, 1425615⟩, 500, 1500,
  [2033],
  []⟩

/-- exceptional years -/
def exc0 : List Exc := [
  (1966, [(580, 2439147), (581, 2439177)], []), (1977, [(715, 2443134)], []),
  (1985, [(814, 2446057)], [(0, 2446057)]), (1996, [(950, 2450074)], []),
  (2004, [(1050, 2453027), (1051, 2453056)], []), (2015, [(1185, 2457014)], []),
  (2023, [(1285, 2459967), (1286, 2459996)], []), (2034, [(1420, 2463954), (1421, 2463983)], [])]

/-- the exceptional years of 1961 to 2039 -/
def excs0 : List Exc := exc0

/-- the years 2040 to 2080 -/
def rows1 : Rows := ⟨⟨1721050299001, 365242675, 81280⟩, ⟨1721079711053, 365242691, 81148⟩, ⟨1721109563047, 365242560, 83002⟩,
  ⟨2422020367123, 29530574, 1450338⟩, 986, 3486,
  [],
  []⟩

/-- exceptional years -/
def exc1 : List Exc := [
  (2042, [(1520, 2466907), (1521, 2466936)], []), (2053, [(1655, 2470893)], []), (2061, [(1756, 2473876)], []),
  (2072, [(1890, 2477832)], []), (2080, [(1990, 2480786), (1991, 2480816)], [])]

/-- the exceptional years of 2040 to 2080 -/
def excs1 : List Exc := exc1

/-- the years 2081 to 2128 -/
def rows2 : Rows := ⟨⟨1721050233769, 365242708, 51891⟩, ⟨1721079631413, 365242731, 51817⟩, ⟨1721109466909, 365242608, 52829⟩,
  ⟨2422020367123, 29530574, 1450338⟩, 986, 3486,
  [],
  []⟩

/-- exceptional years -/
def exc2 : List Exc := [
  (2091, [(2125, 2484772)], []), (2099, [(2225, 2487725), (2226, 2487755)], []), (2110, [(2360, 2491712)], []),
  (2118, [(2461, 2494694)], []), (2121, [], [(0, 2495730)])]

/-- the exceptional years of 2081 to 2128 -/
def excs2 : List Exc := exc2

/-- the years 2129 to 2199 -/
def rows3 : Rows := ⟨⟨1721050387984, 365242640, 99445⟩, ⟨1721079722341, 365242691, 91855⟩, ⟨1721109496517, 365242595, 97844⟩,
  ⟨2422020367123, 29530574, 1450338⟩, 986, 3486,
  [2128, 2147],
  []⟩

/-- exceptional years -/
def exc3 : List Exc := [
  (2129, [(2595, 2498652), (2596, 2498681)], [(0, 2498651)]), (2137, [(2695, 2501605)], [(4, 2501632)]),
  (2148, [(2830, 2505592), (2831, 2505621)], [(2, 2505621)]), (2156, [], [(2, 2508542)]),
  (2167, [(3065, 2512531)], []), (2175, [(3166, 2515514)], []), (2178, [(3201, 2516547)], []),
  (2186, [(3301, 2519501), (3302, 2519530)], [])]

/-- exceptional years -/
def exc4 : List Exc := [
  (2194, [(3400, 2522424)], [])]

/-- the exceptional years of 2129 to 2199 -/
def excs3 : List Exc := exc3 ++ exc4

/-- the years 2200 to 2541 -/
def rows4 : Rows := ⟨⟨1721050387984, 365242640, 99445⟩, ⟨1721079722341, 365242691, 91855⟩, ⟨1721109496517, 365242595, 97844⟩,
  ⟨2422020344254, 29530587, 1432247⟩, 1710, 7710,
  [2242],
  []⟩

/-- exceptional years -/
def exc5 : List Exc := [
  (2205, [(3535, 2526410)], []), (2216, [], [(0, 2530428)]), (2224, [(3770, 2533350)], [(0, 2533350)]),
  (2232, [], [(4, 2536330)]), (2235, [(3906, 2537366)], []),
  (2243, [(4005, 2540290), (4006, 2540319)], [(2, 2540319)]), (2251, [(4105, 2543243)], []),
  (2262, [(4241, 2547259), (4242, 2547289)], []), (2273, [(4376, 2551246)], []),
  (2281, [(4476, 2554199), (4477, 2554229)], [])]

/-- exceptional years -/
def exc6 : List Exc := [
  (2292, [(4611, 2558185)], []), (2300, [(4711, 2561139), (4712, 2561168)], []), (2311, [(4846, 2565125)], []),
  (2319, [(4945, 2568048)], [(0, 2568048)]), (2330, [(5081, 2572064)], []),
  (2338, [(5181, 2575018), (5182, 2575047)], []), (2349, [(5316, 2579004)], []),
  (2357, [(5416, 2581957), (5417, 2581987)], []), (2368, [(5551, 2585944)], [])]

/-- exceptional years -/
def exc7 : List Exc := [
  (2376, [(5651, 2588897), (5652, 2588926)], [(4, 2588925)]), (2387, [(5786, 2592884)], []),
  (2395, [(5886, 2595837), (5887, 2595866)], []), (2406, [(6021, 2599824)], []),
  (2414, [(6121, 2602777), (6122, 2602806)], []), (2425, [(6256, 2606763)], []),
  (2433, [(6356, 2609717), (6357, 2609746)], []), (2444, [(6491, 2613702)], [])]

/-- exceptional years -/
def exc8 : List Exc := [
  (2452, [(6592, 2616686)], []), (2463, [(6726, 2620642)], []), (2471, [(6826, 2623595)], [(4, 2623623)]),
  (2482, [(6961, 2627582)], []), (2490, [(7061, 2630535), (7062, 2630565)], []), (2501, [(7196, 2634522)], []),
  (2509, [(7297, 2637504)], []), (2512, [(7332, 2638538)], []), (2520, [(7432, 2641492), (7433, 2641521)], []),
  (2528, [(7531, 2644415)], [])]

/-- exceptional years -/
def exc9 : List Exc := [
  (2539, [(7667, 2648431), (7668, 2648461)], [(2, 2648430)])]

/-- the exceptional years of 2200 to 2541 -/
def excs4 : List Exc := exc5 ++ exc6 ++ exc7 ++ exc8 ++ exc9

/-- the years 2542 to 2731 -/
def rows5 : Rows := ⟨⟨1721050387984, 365242640, 99445⟩, ⟨1721079722341, 365242691, 91855⟩, ⟨1721109496517, 365242595, 97844⟩,
  ⟨2422020372788, 29530584, 1465817⟩, 7168, 19568,
  [2614, 2728],
  []⟩

/-- exceptional years -/
def exc10 : List Exc := [
  (2547, [(7767, 2651384)], []), (2558, [(7901, 2655341)], [(0, 2655341)]), (2566, [], [(4, 2658321)]),
  (2569, [(8037, 2659357)], []), (2577, [(8136, 2662280)], []), (2585, [(8236, 2665234)], []),
  (2596, [(8371, 2669220)], []), (2607, [(8507, 2673237)], []), (2615, [(8606, 2676160), (8607, 2676189)], []),
  (2626, [(8742, 2680177)], []), (2634, [(8842, 2683129), (8843, 2683159)], [(2, 2683128)])]

/-- exceptional years -/
def exc11 : List Exc := [
  (2642, [], [(2, 2686050)]), (2653, [(9077, 2690069), (9078, 2690099)], []), (2664, [(9212, 2694055)], []),
  (2672, [(9312, 2697009), (9313, 2697039)], []), (2683, [(9447, 2700995)], []),
  (2691, [(9547, 2703948), (9548, 2703978)], []), (2702, [(9682, 2707935)], []),
  (2710, [(9782, 2710888), (9783, 2710917)], [(4, 2710916)])]

/-- exceptional years -/
def exc12 : List Exc := [
  (2721, [(9917, 2714875)], []), (2729, [(10016, 2717798), (10017, 2717827)], [(2, 2717827)])]

/-- the exceptional years of 2542 to 2731 -/
def excs5 : List Exc := exc10 ++ exc11 ++ exc12

/-- the years 2732 to 3500 -/
def rows6 : Rows := ⟨⟨1721050935286, 365242448, 205146⟩, ⟨1721080077100, 365242567, 184472⟩, ⟨1721109649596, 365242542, 180703⟩,
  ⟨2422020372788, 29530584, 1465817⟩, 7168, 19568,
  [2910, 3062, 3244, 3339],
  [3358, 3472]⟩

/-- exceptional years -/
def exc13 : List Exc := [
  (2740, [(10152, 2721815)], []), (2748, [(10252, 2724767), (10253, 2724797)], []), (2759, [(10387, 2728754)], []),
  (2767, [(10487, 2731707), (10488, 2731737)], []), (2778, [(10622, 2735694)], []),
  (2786, [(10722, 2738647), (10723, 2738677)], []), (2797, [(10857, 2742633)], []),
  (2805, [(10957, 2745587)], [(4, 2745614)]), (2816, [(11092, 2749573)], [])]

/-- exceptional years -/
def exc14 : List Exc := [
  (2824, [(11192, 2752526), (11193, 2752556)], []), (2835, [(11327, 2756512)], []),
  (2843, [(11427, 2759465), (11428, 2759495)], []), (2854, [(11562, 2763452)], []), (2862, [(11662, 2766405)], []),
  (2873, [(11797, 2770392)], []), (2881, [(11898, 2773375)], [(2, 2773343)]), (2884, [], [(0, 2774410)]),
  (2892, [(12032, 2777332)], [(0, 2777332)]), (2900, [(12132, 2780285), (12133, 2780315)], [])]

/-- exceptional years -/
def exc15 : List Exc := [
  (2911, [(12267, 2784272), (12268, 2784301)], []), (2919, [(12367, 2787225)], []), (2930, [(12502, 2791211)], []),
  (2938, [(12603, 2794194)], []), (2941, [(12638, 2795227)], []), (2949, [(12737, 2798150)], []),
  (2957, [], [(4, 2801131)]), (2960, [(12873, 2802167)], []), (2968, [(12972, 2805090)], []),
  (2976, [], [(2, 2808041)]), (2979, [], [(0, 2809108)]), (2987, [(13207, 2812030)], [(0, 2812030)])]

/-- exceptional years -/
def exc16 : List Exc := [
  (2995, [(13308, 2815013)], []), (2998, [(13343, 2816047)], []), (3006, [(13443, 2819000), (13444, 2819029)], []),
  (3017, [(13578, 2822986)], []), (3025, [(13678, 2825940), (13679, 2825969)], []), (3036, [(13813, 2829926)], []),
  (3044, [(13913, 2832879), (13914, 2832909)], []), (3052, [], [(4, 2835829)]), (3055, [(14048, 2836865)], []),
  (3063, [(14147, 2839789), (14148, 2839818)], [(2, 2839818)])]

/-- exceptional years -/
def exc17 : List Exc := [
  (3074, [(14283, 2843805)], []), (3082, [(14382, 2846728)], [(0, 2846728)]), (3093, [(14518, 2850745)], []),
  (3101, [(14618, 2853698), (14619, 2853727)], []), (3112, [(14753, 2857685)], []),
  (3120, [(14853, 2860638), (14854, 2860667)], []), (3131, [(14988, 2864625)], [(0, 2864625)]),
  (3139, [(15088, 2867578), (15089, 2867607)], [])]

/-- exceptional years -/
def exc18 : List Exc := [
  (3150, [(15223, 2871564)], []), (3158, [(15323, 2874517), (15324, 2874547)], []), (3169, [(15458, 2878503)], []),
  (3177, [(15558, 2881457), (15559, 2881487)], []), (3188, [(15693, 2885443)], []),
  (3196, [(15793, 2888396), (15794, 2888426)], []), (3207, [(15928, 2892383)], []),
  (3215, [(16029, 2895365)], [(2, 2895334)]), (3218, [], [(0, 2896401)])]

/-- exceptional years -/
def exc19 : List Exc := [
  (3226, [(16163, 2899323)], [(0, 2899323)]), (3234, [(16263, 2902275), (16264, 2902305)], []),
  (3245, [(16398, 2906263), (16399, 2906292)], []), (3253, [(16498, 2909215)], []), (3264, [(16633, 2913202)], []),
  (3272, [(16734, 2916185)], []), (3275, [(16769, 2917218)], []),
  (3283, [(16869, 2920172), (16870, 2920201)], [(4, 2920200)])]

/-- exceptional years -/
def exc20 : List Exc := [
  (3291, [(16968, 2923095)], [(4, 2923122)]), (3302, [(17103, 2927081)], []), (3310, [], [(2, 2930032)]),
  (3313, [], [(0, 2931099)]), (3321, [(17338, 2934021)], [(0, 2934021)]), (3329, [(17439, 2937004)], []),
  (3332, [(17474, 2938037)], []), (3340, [(17573, 2940961), (17574, 2940990)], []), (3348, [(17673, 2943913)], []),
  (3359, [(17808, 2947901), (17809, 2947930), (17810, 2947959)], [(2, 2947929)])]

/-- exceptional years -/
def exc21 : List Exc := [
  (3370, [(17944, 2951917)], []), (3378, [(18044, 2954870), (18045, 2954900)], []), (3386, [], [(4, 2957820)]),
  (3389, [(18179, 2958856)], []), (3397, [(18279, 2961810), (18280, 2961839)], []), (3405, [(18378, 2964733)], []),
  (3408, [(18414, 2965796)], []), (3416, [(18513, 2968719)], [(0, 2968719)]), (3427, [(18649, 2972735)], []),
  (3435, [(18749, 2975689), (18750, 2975718)], [])]

/-- exceptional years -/
def exc22 : List Exc := [
  (3446, [(18884, 2979675)], []), (3454, [(18983, 2982598)], []), (3465, [(19119, 2986615)], []),
  (3473, [(19218, 2989538), (19219, 2989568), (19220, 2989597)], [(0, 2989537), (4, 2989597)]),
  (3484, [(19354, 2993555)], []), (3492, [(19454, 2996508), (19455, 2996537)], [])]

/-- the exceptional years of 2732 to 3500 -/
def excs6 : List Exc := exc13 ++ exc14 ++ exc15 ++ exc16 ++ exc17 ++ exc18 ++ exc19 ++ exc20 ++ exc21 ++ exc22

/-- the years 3501 to 3771 -/
def rows7 : Rows := ⟨⟨1721050935286, 365242448, 205146⟩, ⟨1721080077100, 365242567, 184472⟩, ⟨1721109649596, 365242542, 180703⟩,
  ⟨2422020434856, 29530581, 1484702⟩, 19537, 31937,
  [3616, 3711, 3730],
  []⟩

/-- exceptional years -/
def exc23 : List Exc := [
  (3503, [(19589, 3000495)], []), (3511, [(19689, 3003448), (19690, 3003477)], []), (3522, [(19824, 3007434)], []),
  (3530, [(19924, 3010388), (19925, 3010417)], []), (3541, [(20059, 3014373)], []),
  (3549, [(20159, 3017327), (20160, 3017357)], []), (3552, [], [(0, 3018392)]), (3560, [(20294, 3021313)], []),
  (3568, [(20394, 3024266), (20395, 3024296)], [])]

/-- exceptional years -/
def exc24 : List Exc := [
  (3579, [(20529, 3028253)], []), (3587, [(20629, 3031206), (20630, 3031235)], []), (3598, [(20764, 3035193)], []),
  (3606, [(20864, 3038146), (20865, 3038175)], []), (3609, [(20900, 3039209)], []),
  (3617, [(20999, 3042133), (21000, 3042162)], [(0, 3042132)]), (3625, [(21099, 3045086)], [(4, 3045113)]),
  (3636, [(21234, 3049072)], [])]

/-- exceptional years -/
def exc25 : List Exc := [
  (3644, [(21335, 3052055)], [(2, 3052023)]), (3647, [], [(0, 3053090)]), (3655, [(21469, 3056012)], [(0, 3056012)]),
  (3663, [(21570, 3058995)], []), (3666, [(21605, 3060028)], []), (3674, [(21704, 3062951)], []),
  (3682, [(21804, 3065905)], []), (3693, [(21939, 3069891)], []), (3701, [(22040, 3072874)], [(2, 3072842)]),
  (3704, [(22075, 3073908)], []), (3712, [(22174, 3076831), (22175, 3076860)], [(0, 3076830)])]

/-- exceptional years -/
def exc26 : List Exc := [
  (3720, [], [(4, 3079811)]), (3723, [(22310, 3080847)], []),
  (3731, [(22409, 3083771), (22410, 3083800)], [(2, 3083800)]), (3739, [(22509, 3086724)], []),
  (3742, [], [(0, 3087788)]), (3750, [(22645, 3090740), (22646, 3090770)], []), (3761, [(22780, 3094726)], []),
  (3769, [(22880, 3097680), (22881, 3097710)], [])]

/-- the exceptional years of 3501 to 3771 -/
def excs7 : List Exc := exc23 ++ exc24 ++ exc25 ++ exc26

/-- the years 3772 to 4500 -/
def rows8 : Rows := ⟨⟨1721051978888, 365242172, 226312⟩, ⟨1721080850460, 365242363, 207541⟩, ⟨1721110092062, 365242426, 190499⟩,
  ⟨2422020434856, 29530581, 1484702⟩, 19537, 31937,
  [3825, 4007, 4159, 4197, 4322, 4341, 4379, 4417],
  [3806, 3988]⟩

/-- exceptional years -/
def exc27 : List Exc := [
  (3780, [(23015, 3101666)], []), (3788, [(23115, 3104619), (23116, 3104649)], [(2, 3104618)]),
  (3796, [], [(2, 3107540)]), (3799, [(23250, 3108605)], []),
  (3807, [(23349, 3111529), (23350, 3111559), (23351, 3111588)], [(0, 3111528), (4, 3111588)]),
  (3818, [(23485, 3115545)], []), (3826, [(23584, 3118469), (23585, 3118498)], [(2, 3118498)])]

/-- exceptional years -/
def exc28 : List Exc := [
  (3837, [(23720, 3122485)], []), (3845, [(23820, 3125438), (23821, 3125468)], []), (3856, [(23955, 3129425)], []),
  (3864, [(24055, 3132378), (24056, 3132408)], []), (3875, [(24190, 3136365)], []),
  (3883, [(24290, 3139318), (24291, 3139348)], []), (3894, [(24425, 3143304)], []),
  (3902, [(24525, 3146258), (24526, 3146287)], [])]

/-- exceptional years -/
def exc29 : List Exc := [
  (3913, [(24660, 3150244)], []), (3921, [(24760, 3153197), (24761, 3153227)], []), (3932, [(24895, 3157183)], []),
  (3940, [(24995, 3160136), (24996, 3160166)], []), (3951, [(25130, 3164123)], []),
  (3959, [(25230, 3167076)], [(4, 3167104)]), (3970, [(25365, 3171063)], []),
  (3978, [(25466, 3174045)], [(2, 3174014)]), (3981, [], [(0, 3175081)]),
  (3989, [(25600, 3178003), (25601, 3178033), (25602, 3178062)], [(0, 3178002), (4, 3178062)])]

/-- exceptional years -/
def exc30 : List Exc := [
  (3997, [(25700, 3180956), (25701, 3180985)], []), (4008, [(25835, 3184943), (25836, 3184972)], []),
  (4016, [(25935, 3187896)], []), (4027, [(26070, 3191882)], [(0, 3191882)]), (4035, [(26171, 3194865)], []),
  (4038, [(26206, 3195898)], []), (4046, [(26305, 3198821)], []), (4054, [(26405, 3201775)], [(4, 3201802)]),
  (4057, [(26441, 3202838)], [])]

/-- exceptional years -/
def exc31 : List Exc := [
  (4065, [(26540, 3205761)], []), (4073, [], [(2, 3208712)]), (4076, [], [(0, 3209779)]),
  (4084, [(26775, 3212701)], [(0, 3212701)]), (4092, [(26876, 3215683)], []), (4095, [(26911, 3216718)], []),
  (4103, [(27011, 3219671), (27012, 3219700)], []), (4114, [(27146, 3223657)], []),
  (4122, [(27246, 3226610), (27247, 3226640)], [(2, 3226609)]), (4130, [], [(2, 3229531)]),
  (4133, [(27381, 3230597)], [])]

/-- exceptional years -/
def exc32 : List Exc := [
  (4141, [(27481, 3233550), (27482, 3233580)], []), (4149, [], [(4, 3236500)]), (4152, [(27616, 3237536)], []),
  (4160, [(27715, 3240460), (27716, 3240489)], [(2, 3240489)]), (4171, [(27851, 3244476)], []),
  (4179, [(27950, 3247399)], [(0, 3247399)]), (4190, [(28086, 3251416)], []),
  (4198, [(28185, 3254339), (28186, 3254368)], []), (4209, [(28321, 3258356)], [])]

/-- exceptional years -/
def exc33 : List Exc := [
  (4217, [(28421, 3261308), (28422, 3261338)], [(2, 3261307)]), (4228, [(28556, 3265295)], []),
  (4236, [(28656, 3268248), (28657, 3268278)], []), (4247, [(28791, 3272235)], []),
  (4255, [(28891, 3275188), (28892, 3275218)], []), (4258, [], [(0, 3276253)]), (4266, [(29026, 3279174)], []),
  (4274, [(29126, 3282128), (29127, 3282158)], [])]

/-- exceptional years -/
def exc34 : List Exc := [
  (4285, [(29261, 3286114)], []), (4293, [(29361, 3289067), (29362, 3289097)], []), (4304, [(29496, 3293054)], []),
  (4312, [(29597, 3296036)], [(2, 3296005)]), (4315, [(29632, 3297070)], []),
  (4323, [(29731, 3299994), (29732, 3300023)], [(0, 3299993)]), (4331, [(29831, 3302946), (29832, 3302976)], []),
  (4342, [(29966, 3306934), (29967, 3306963)], [(2, 3306963)])]

/-- exceptional years -/
def exc35 : List Exc := [
  (4350, [(30066, 3309886), (30067, 3309916)], []), (4353, [], [(0, 3310951)]),
  (4361, [(30201, 3313873)], [(0, 3313873)]), (4369, [(30302, 3316856)], []), (4372, [(30337, 3317889)], []),
  (4380, [(30436, 3320813), (30437, 3320842)], []), (4388, [(30536, 3323766)], [(4, 3323793)]),
  (4399, [(30671, 3327752)], []), (4407, [(30772, 3330735)], [(2, 3330703)])]

/-- exceptional years -/
def exc36 : List Exc := [
  (4410, [(30807, 3331768)], []), (4418, [(30906, 3334692), (30907, 3334721)], [(0, 3334691)]),
  (4426, [(31007, 3337675)], []), (4429, [(31042, 3338708)], []), (4437, [(31141, 3341631)], []),
  (4445, [(31241, 3344584)], []), (4448, [], [(0, 3345649)]), (4456, [(31376, 3348571)], [(0, 3348571)]),
  (4467, [(31512, 3352588)], []), (4475, [(31612, 3355541), (31613, 3355570)], [(4, 3355569)])]

/-- exceptional years -/
def exc37 : List Exc := [
  (4483, [], [(4, 3358491)]), (4486, [(31747, 3359527)], []), (4494, [(31847, 3362481), (31848, 3362510)], [])]

/-- the exceptional years of 3772 to 4500 -/
def excs8 : List Exc := exc27 ++ exc28 ++ exc29 ++ exc30 ++ exc31 ++ exc32 ++ exc33 ++ exc34 ++ exc35 ++ exc36 ++ exc37

/-- the years 4501 to 4811 -/
def rows9 : Rows := ⟨⟨1721051978888, 365242172, 226312⟩, ⟨1721080850460, 365242363, 207541⟩, ⟨1721110092062, 365242426, 190499⟩,
  ⟨2422020529129, 29530578, 1510390⟩, 31905, 44305,
  [4531, 4599, 4694, 4713, 4789, 4808],
  [4751]⟩

/-- exceptional years -/
def exc38 : List Exc := [
  (4502, [], [(2, 3365401)]), (4505, [(31982, 3366467)], []), (4513, [(32082, 3369420), (32083, 3369450)], []),
  (4524, [(32217, 3373406)], []), (4532, [(32316, 3376330), (32317, 3376359)], []), (4543, [(32452, 3380346)], []),
  (4551, [(32551, 3383269)], [(0, 3383269)]), (4562, [(32687, 3387286)], []),
  (4570, [(32787, 3390239), (32788, 3390268)], [(4, 3390267)])]

/-- exceptional years -/
def exc39 : List Exc := [
  (4581, [(32922, 3394226)], []), (4589, [(33022, 3397179), (33023, 3397208)], []),
  (4600, [(33157, 3401166), (33158, 3401195)], [(0, 3401165)]), (4608, [(33257, 3404119), (33258, 3404148)], []),
  (4619, [(33392, 3408105)], []), (4627, [(33492, 3411058), (33493, 3411088)], []), (4638, [(33627, 3415044)], []),
  (4646, [(33727, 3417998), (33728, 3418028)], [])]

/-- exceptional years -/
def exc40 : List Exc := [
  (4657, [(33862, 3421984)], []), (4665, [(33962, 3424937)], [(4, 3424965)]), (4676, [(34097, 3428924)], []),
  (4684, [(34197, 3431877), (34198, 3431906)], []), (4687, [], [(0, 3432942)]),
  (4695, [(34332, 3435864), (34333, 3435893)], [(0, 3435863)]), (4703, [(34432, 3438817), (34433, 3438846)], []),
  (4706, [(34468, 3439880)], []), (4714, [(34567, 3442804), (34568, 3442833)], [])]

/-- exceptional years -/
def exc41 : List Exc := [
  (4722, [(34667, 3445757)], [(4, 3445784)]), (4733, [(34802, 3449743)], [(0, 3449743)]),
  (4741, [(34903, 3452726)], [(2, 3452694)]), (4744, [(34938, 3453759)], []),
  (4752, [(35037, 3456683), (35038, 3456713), (35039, 3456742)], [(0, 3456682), (4, 3456742)]),
  (4760, [(35137, 3459636), (35138, 3459666)], []), (4763, [(35173, 3460698)], [])]

/-- exceptional years -/
def exc42 : List Exc := [
  (4771, [(35272, 3463622)], []), (4779, [(35372, 3466576)], []), (4782, [], [(0, 3467640)]),
  (4790, [(35507, 3470562), (35508, 3470591)], [(0, 3470561)]), (4798, [(35608, 3473545)], []),
  (4801, [(35643, 3474578)], []), (4809, [(35742, 3477502), (35743, 3477531)], [])]

/-- the exceptional years of 4501 to 4811 -/
def excs9 : List Exc := exc38 ++ exc39 ++ exc40 ++ exc41 ++ exc42

/-- the years 4812 to 5500 -/
def rows10 : Rows := ⟨⟨1721053413788, 365241874, 244608⟩, ⟨1721082041796, 365242116, 231414⟩, ⟨1721110905195, 365242258, 212431⟩,
  ⟨2422020529129, 29530578, 1510390⟩, 31905, 44305,
  [4971, 5085, 5104, 5161, 5180, 5199, 5294, 5305, 5476],
  [4941, 5066, 5123, 5275, 5343, 5438, 5457, 5495]⟩

/-- exceptional years -/
def exc43 : List Exc := [
  (4817, [(35842, 3480455)], [(4, 3480482)]), (4820, [(35878, 3481518)], []),
  (4828, [(35978, 3484471), (35979, 3484501)], [(2, 3484470)]), (4836, [], [(2, 3487392)]),
  (4839, [(36113, 3488458)], []), (4847, [(36213, 3491411), (36214, 3491441)], []), (4855, [(36313, 3494364)], []),
  (4858, [(36348, 3495397)], []), (4866, [(36448, 3498351), (36449, 3498380)], [])]

/-- exceptional years -/
def exc44 : List Exc := [
  (4877, [(36583, 3502337)], []), (4885, [(36683, 3505290), (36684, 3505320)], [(2, 3505289)]),
  (4896, [(36818, 3509276)], []), (4904, [(36918, 3512230), (36919, 3512259)], [(4, 3512258)]),
  (4912, [], [(4, 3515180)]), (4915, [(37053, 3516216)], []),
  (4923, [(37153, 3519169), (37154, 3519199)], [(2, 3519168)]), (4934, [(37288, 3523156)], [])]

/-- exceptional years -/
def exc45 : List Exc := [
  (4942, [(37387, 3526080), (37388, 3526109), (37389, 3526138)], [(4, 3526138)]), (4953, [(37523, 3530096)], []),
  (4961, [(37623, 3533049), (37624, 3533078)], []), (4964, [], [(0, 3534114)]),
  (4972, [(37758, 3537036), (37759, 3537065)], [(0, 3537035)]), (4980, [(37858, 3539989), (37859, 3540018)], []),
  (4991, [(37993, 3543975)], [])]

/-- exceptional years -/
def exc46 : List Exc := [
  (4999, [(38093, 3546929), (38094, 3546958)], []), (5010, [(38228, 3550914)], []),
  (5018, [(38329, 3553898)], [(2, 3553866)]), (5021, [(38364, 3554931)], []), (5029, [(38463, 3557854)], []),
  (5037, [(38563, 3560807), (38564, 3560837)], []), (5048, [(38698, 3564794)], []),
  (5056, [(38798, 3567747), (38799, 3567777)], []), (5059, [], [(0, 3568812)])]

/-- exceptional years -/
def exc47 : List Exc := [
  (5067, [(38933, 3571734), (38934, 3571764), (38935, 3571793)], [(0, 3571733), (2, 3571763)]),
  (5075, [(39034, 3574716)], [(2, 3574685)]), (5078, [(39069, 3575750)], []),
  (5086, [(39168, 3578674), (39169, 3578703)], []), (5094, [(39268, 3581627)], [(4, 3581654)]),
  (5105, [(39403, 3585614), (39404, 3585643)], [(2, 3585643)])]

/-- exceptional years -/
def exc48 : List Exc := [
  (5113, [(39504, 3588596)], [(2, 3588564)]), (5116, [(39539, 3589629)], []),
  (5124, [(39638, 3592553), (39639, 3592583), (39640, 3592612)], [(0, 3592552)]), (5132, [(39739, 3595536)], []),
  (5135, [(39774, 3596569)], []), (5143, [(39873, 3599492)], []), (5151, [(39973, 3602446)], []),
  (5154, [], [(0, 3603510)]), (5162, [(40108, 3606432), (40109, 3606461)], [(0, 3606431)])]

/-- exceptional years -/
def exc49 : List Exc := [
  (5170, [], [(2, 3609383)]), (5173, [(40244, 3610449)], []), (5181, [(40343, 3613372), (40344, 3613401)], []),
  (5189, [], [(4, 3616352)]), (5192, [(40479, 3617389)], [(0, 3617389)]),
  (5200, [(40578, 3620312), (40579, 3620341)], [(2, 3620341)]), (5208, [], [(2, 3623262)]),
  (5211, [(40714, 3624328)], []), (5219, [(40814, 3627281), (40815, 3627311)], []), (5230, [(40949, 3631267)], [])]

/-- exceptional years -/
def exc50 : List Exc := [
  (5238, [(41049, 3634221), (41050, 3634251)], []), (5246, [], [(4, 3637171)]), (5249, [(41184, 3638207)], []),
  (5257, [(41284, 3641160), (41285, 3641190)], [(2, 3641159)]), (5265, [], [(2, 3644081)]),
  (5268, [(41419, 3645147)], []), (5276, [(41518, 3648070), (41519, 3648100), (41520, 3648129)], [(4, 3648129)]),
  (5287, [(41654, 3652086)], [])]

/-- exceptional years -/
def exc51 : List Exc := [
  (5295, [(41753, 3655010), (41754, 3655039)], [(2, 3655039)]),
  (5306, [(41889, 3659027), (41890, 3659056)], [(0, 3659026)]), (5314, [(41989, 3661979), (41990, 3662009)], []),
  (5325, [(42124, 3665966)], []), (5333, [(42224, 3668919), (42225, 3668949)], []), (5336, [], [(0, 3669984)]),
  (5344, [(42359, 3672906), (42360, 3672936), (42361, 3672965)], [(0, 3672905), (2, 3672935)])]

/-- exceptional years -/
def exc52 : List Exc := [
  (5352, [(42459, 3675859), (42460, 3675889)], []), (5363, [(42594, 3679845)], []),
  (5371, [(42694, 3682799), (42695, 3682828)], []), (5382, [(42829, 3686785)], [(0, 3686785)]),
  (5390, [(42929, 3689738), (42930, 3689768)], []), (5393, [(42965, 3690801)], []), (5401, [(43064, 3693724)], []),
  (5409, [(43164, 3696677), (43165, 3696707)], [])]

/-- exceptional years -/
def exc53 : List Exc := [
  (5412, [(43200, 3697741)], []), (5420, [(43299, 3700664)], []), (5428, [(43399, 3703617)], [(4, 3703645)]),
  (5431, [], [(0, 3704682)]),
  (5439, [(43534, 3707604), (43535, 3707634), (43536, 3707663)], [(0, 3707603), (2, 3707633)]),
  (5447, [(43635, 3710587)], [(2, 3710555)]), (5450, [(43670, 3711621)], []),
  (5458, [(43769, 3714544), (43770, 3714574), (43771, 3714603)], [(4, 3714603)])]

/-- exceptional years -/
def exc54 : List Exc := [
  (5466, [(43869, 3717497), (43870, 3717527)], []), (5469, [(43905, 3718560)], []),
  (5477, [(44004, 3721484), (44005, 3721513)], [(2, 3721513)]), (5485, [(44104, 3724437)], []),
  (5488, [(44140, 3725499)], []), (5496, [(44239, 3728423), (44240, 3728453), (44241, 3728482)], [])]

/-- the exceptional years of 4812 to 5500 -/
def excs10 : List Exc := exc43 ++ exc44 ++ exc45 ++ exc46 ++ exc47 ++ exc48 ++ exc49 ++ exc50 ++ exc51 ++ exc52 ++ exc53 ++ exc54

/-- the years 5501 to 5851 -/
def rows11 : Rows := ⟨⟨1721053413788, 365241874, 244608⟩, ⟨1721082041796, 365242116, 231414⟩, ⟨1721110905195, 365242258, 212431⟩,
  ⟨2422020706091, 29530574, 1537947⟩, 44274, 56674,
  [5677, 5696, 5772, 5791, 5848],
  [5533, 5552, 5715, 5810, 5829]⟩

/-- exceptional years -/
def exc55 : List Exc := [
  (5504, [(44340, 3731406)], []), (5507, [(44375, 3732439)], []), (5515, [(44474, 3735362)], []),
  (5523, [(44574, 3738316)], [(4, 3738343)]), (5526, [(44610, 3739379)], []),
  (5534, [(44709, 3742302), (44710, 3742332), (44711, 3742361)], [(0, 3742301), (2, 3742331)]),
  (5542, [], [(2, 3745253)]), (5545, [(44845, 3746319)], []),
  (5553, [(44944, 3749242), (44945, 3749272), (44946, 3749301)], [(4, 3749301)])]

/-- exceptional years -/
def exc56 : List Exc := [
  (5561, [(45045, 3752224)], []), (5564, [(45080, 3753259)], [(0, 3753259)]),
  (5572, [(45180, 3756212), (45181, 3756241)], []), (5583, [(45315, 3760198)], []),
  (5591, [(45415, 3763152), (45416, 3763181)], []), (5602, [(45550, 3767138)], []),
  (5610, [(45650, 3770091), (45651, 3770121)], []), (5613, [], [(0, 3771156)]), (5618, [], [(4, 3773041)]),
  (5621, [(45785, 3774077)], [])]

/-- exceptional years -/
def exc57 : List Exc := [
  (5629, [(45885, 3777030), (45886, 3777060)], [(2, 3777029)]), (5640, [(46020, 3781017)], []),
  (5648, [(46120, 3783970), (46121, 3784000)], []), (5651, [], [(0, 3785035)]),
  (5659, [(46255, 3787957)], [(0, 3787957)]), (5667, [(46355, 3790910), (46356, 3790939)], []),
  (5670, [(46391, 3791973)], []), (5678, [(46490, 3794897), (46491, 3794926)], [(0, 3794896)])]

/-- exceptional years -/
def exc58 : List Exc := [
  (5686, [(46590, 3797849), (46591, 3797879)], []), (5697, [(46725, 3801837), (46726, 3801866)], []),
  (5705, [(46825, 3804789), (46826, 3804819)], []), (5708, [], [(0, 3805854)]),
  (5716, [(46960, 3808776), (46961, 3808806), (46962, 3808835)], [(0, 3808775), (2, 3808805)]),
  (5724, [(47060, 3811729), (47061, 3811759)], [])]

/-- exceptional years -/
def exc59 : List Exc := [
  (5727, [(47096, 3812792)], []), (5735, [(47195, 3815715)], []), (5743, [(47295, 3818669), (47296, 3818699)], []),
  (5746, [], [(0, 3819733)]), (5754, [(47430, 3822655)], [(0, 3822655)]),
  (5762, [(47530, 3825608), (47531, 3825638)], []), (5765, [(47566, 3826671)], []),
  (5773, [(47665, 3829595), (47666, 3829624)], []), (5781, [(47766, 3832577)], [])]

/-- exceptional years -/
def exc60 : List Exc := [
  (5784, [(47801, 3833611)], []), (5792, [(47900, 3836535), (47901, 3836564)], []),
  (5800, [(48000, 3839487)], [(4, 3839515)]), (5803, [(48036, 3840551)], []),
  (5811, [(48135, 3843475), (48136, 3843504), (48137, 3843533)], [(2, 3843503)]),
  (5819, [(48236, 3846457)], [(2, 3846425)]), (5822, [(48271, 3847491)], []),
  (5830, [(48370, 3850414), (48371, 3850444), (48372, 3850473)], [])]

/-- exceptional years -/
def exc61 : List Exc := [
  (5838, [(48471, 3853397)], []), (5841, [(48506, 3854430)], []),
  (5849, [(48605, 3857354), (48606, 3857383)], [(2, 3857383)])]

/-- the exceptional years of 5501 to 5851 -/
def excs11 : List Exc := exc55 ++ exc56 ++ exc57 ++ exc58 ++ exc59 ++ exc60 ++ exc61

/-- the years 5852 to 6500 -/
def rows12 : Rows := ⟨⟨1721055156723, 365241576, 265057⟩, ⟨1721083646580, 365241842, 254225⟩, ⟨1721112149448, 365242046, 238269⟩,
  ⟨2422020706091, 29530574, 1537947⟩, 44274, 56674,
  [5886, 6049, 6068, 6144, 6163, 6258, 6402, 6440, 6497],
  [5905, 5924, 6421]⟩

/-- exceptional years -/
def exc62 : List Exc := [
  (5857, [(48705, 3860307)], [(4, 3860334)]), (5860, [(48741, 3861369)], []),
  (5868, [(48841, 3864323), (48842, 3864353)], [(2, 3864322)]), (5876, [(48941, 3867276)], []),
  (5879, [(48976, 3868309)], []), (5887, [(49075, 3871233), (49076, 3871262)], []), (5895, [], [(4, 3874213)]),
  (5898, [(49211, 3875249)], []),
  (5906, [(49310, 3878172), (49311, 3878202), (49312, 3878231)], [(0, 3878171), (2, 3878201)])]

/-- exceptional years -/
def exc63 : List Exc := [
  (5914, [], [(2, 3881123)]), (5917, [(49446, 3882189)], []),
  (5925, [(49545, 3885112), (49546, 3885142), (49547, 3885171)], []), (5928, [], [(0, 3886207)]),
  (5936, [(49681, 3889129)], [(0, 3889129)]), (5944, [(49781, 3892082), (49782, 3892111)], [(4, 3892110)]),
  (5952, [], [(4, 3895032)]), (5955, [(49916, 3896068)], []), (5963, [(50016, 3899022), (50017, 3899051)], [])]

/-- exceptional years -/
def exc64 : List Exc := [
  (5974, [(50151, 3903008)], []), (5982, [(50251, 3905961), (50252, 3905991)], []), (5985, [(50287, 3907024)], []),
  (5993, [(50386, 3909947)], []), (6001, [(50486, 3912900), (50487, 3912930)], [(2, 3912899)]),
  (6012, [(50621, 3916887)], []), (6020, [(50721, 3919840), (50722, 3919870)], []), (6023, [], [(0, 3920905)]),
  (6031, [(50856, 3923827)], [(0, 3923827)])]

/-- exceptional years -/
def exc65 : List Exc := [
  (6039, [(50956, 3926780), (50957, 3926809)], [(4, 3926808)]), (6042, [(50992, 3927843)], []),
  (6050, [(51091, 3930767), (51092, 3930796)], []), (6058, [(51191, 3933720), (51192, 3933749)], []),
  (6069, [(51326, 3937707), (51327, 3937736)], []), (6077, [(51426, 3940660), (51427, 3940689)], []),
  (6080, [(51462, 3941722)], [])]

/-- exceptional years -/
def exc66 : List Exc := [
  (6088, [(51562, 3944676), (51563, 3944706)], [(2, 3944675)]), (6096, [(51662, 3947629)], [(2, 3947597)]),
  (6099, [(51697, 3948662)], []), (6107, [(51796, 3951585)], []), (6115, [(51896, 3954539), (51897, 3954569)], []),
  (6118, [(51932, 3955602)], []), (6126, [(52031, 3958525)], [(0, 3958525)]),
  (6134, [(52131, 3961478)], [(4, 3961506)])]

/-- exceptional years -/
def exc67 : List Exc := [
  (6137, [(52167, 3962542)], []), (6145, [(52266, 3965465), (52267, 3965494)], []), (6153, [(52367, 3968447)], []),
  (6156, [(52402, 3969482)], []), (6164, [(52501, 3972405), (52502, 3972434)], []),
  (6172, [(52601, 3975358), (52602, 3975387)], []), (6175, [(52637, 3976421)], []),
  (6183, [(52737, 3979374), (52738, 3979404)], [(2, 3979373)])]

/-- exceptional years -/
def exc68 : List Exc := [
  (6191, [], [(2, 3982295)]), (6194, [(52872, 3983361)], []), (6202, [(52972, 3986314), (52973, 3986344)], []),
  (6210, [(53072, 3989267)], []), (6213, [(53107, 3990300)], []),
  (6221, [(53207, 3993254), (53208, 3993283)], [(4, 3993282)]), (6229, [(53306, 3996177)], [(4, 3996204)]),
  (6232, [(53342, 3997240)], []), (6240, [(53442, 4000193), (53443, 4000223)], [])]

/-- exceptional years -/
def exc69 : List Exc := [
  (6251, [(53577, 4004179)], []), (6259, [(53676, 4007103), (53677, 4007132)], []), (6267, [(53777, 4010086)], []),
  (6270, [(53812, 4011119)], []), (6278, [(53912, 4014072), (53913, 4014102)], [(2, 4014071)]),
  (6289, [(54047, 4018059)], []), (6297, [(54147, 4021012), (54148, 4021042)], []), (6300, [], [(0, 4022077)]),
  (6308, [(54282, 4024999)], [(0, 4024999)])]

/-- exceptional years -/
def exc70 : List Exc := [
  (6316, [(54382, 4027952), (54383, 4027982)], []), (6319, [(54418, 4029015)], []), (6324, [], [(4, 4030902)]),
  (6327, [(54517, 4031938)], []), (6335, [(54617, 4034892), (54618, 4034921)], []),
  (6346, [(54752, 4038878)], [(0, 4038878)]), (6354, [(54852, 4041831), (54853, 4041861)], []),
  (6357, [(54888, 4042894)], []), (6365, [(54987, 4045817)], [])]

/-- exceptional years -/
def exc71 : List Exc := [
  (6373, [(55087, 4048771), (55088, 4048800)], []), (6376, [(55123, 4049834)], []), (6384, [(55222, 4052757)], []),
  (6392, [(55322, 4055710), (55323, 4055740)], []), (6395, [], [(0, 4056775)]),
  (6403, [(55457, 4059697), (55458, 4059727)], [(0, 4059696), (2, 4059727)]),
  (6411, [(55557, 4062650), (55558, 4062679)], [(4, 4062678)])]

/-- exceptional years -/
def exc72 : List Exc := [
  (6414, [(55593, 4063714)], []), (6422, [(55692, 4066637), (55693, 4066667), (55694, 4066696)], [(2, 4066666)]),
  (6430, [(55792, 4069590), (55793, 4069619)], []), (6433, [(55828, 4070653)], []),
  (6441, [(55927, 4073577), (55928, 4073606)], []), (6449, [(56027, 4076530), (56028, 4076559)], []),
  (6452, [(56063, 4077592)], [])]

/-- exceptional years -/
def exc73 : List Exc := [
  (6460, [(56163, 4080546), (56164, 4080576)], [(2, 4080545), (4, 4080575)]),
  (6468, [(56263, 4083499)], [(2, 4083467)]), (6471, [(56298, 4084532)], []), (6479, [(56397, 4087455)], []),
  (6487, [(56498, 4090439)], []), (6490, [(56533, 4091472)], []),
  (6498, [(56632, 4094395), (56633, 4094425)], [(0, 4094394), (2, 4094425)])]

/-- the exceptional years of 5852 to 6500 -/
def excs12 : List Exc := exc62 ++ exc63 ++ exc64 ++ exc65 ++ exc66 ++ exc67 ++ exc68 ++ exc69 ++ exc70 ++ exc71 ++ exc72 ++ exc73

/-- the years 6501 to 6891 -/
def rows13 : Rows := ⟨⟨1721055156723, 365241576, 265057⟩, ⟨1721083646580, 365241842, 254225⟩, ⟨1721112149448, 365242046, 238269⟩,
  ⟨2422020877544, 29530571, 1568744⟩, 56642, 69042,
  [6516, 6630, 6641, 6660, 6679, 6736, 6774, 6850, 6869],
  [6535, 6793, 6812, 6888]⟩

/-- exceptional years -/
def exc74 : List Exc := [
  (6506, [(56732, 4097348)], [(4, 4097376)]), (6509, [(56768, 4098412)], []),
  (6517, [(56867, 4101335), (56868, 4101364)], []), (6520, [], [(0, 4102430)]), (6525, [(56968, 4104317)], []),
  (6528, [(57003, 4105352)], [(0, 4105352)]),
  (6536, [(57102, 4108275), (57103, 4108305), (57104, 4108334)], [(4, 4108334)]), (6544, [(57203, 4111257)], [])]

/-- exceptional years -/
def exc75 : List Exc := [
  (6547, [(57238, 4112291)], []), (6555, [(57338, 4115244), (57339, 4115274)], [(2, 4115243)]),
  (6563, [], [(2, 4118165)]), (6566, [(57473, 4119231)], []), (6574, [(57573, 4122184), (57574, 4122214)], []),
  (6577, [(57609, 4123246)], []), (6582, [(57673, 4125137)], []), (6585, [(57708, 4126170)], []),
  (6593, [(57808, 4129124), (57809, 4129153)], [(4, 4129152)])]

/-- exceptional years -/
def exc76 : List Exc := [
  (6601, [], [(4, 4132074)]), (6604, [(57943, 4133110)], []), (6612, [(58043, 4136063), (58044, 4136093)], []),
  (6615, [], [(0, 4137128)]), (6623, [(58178, 4140050)], [(0, 4140050)]),
  (6631, [(58277, 4142973), (58278, 4143002)], []), (6634, [(58314, 4144066)], []), (6639, [(58378, 4145956)], []),
  (6642, [(58413, 4146990), (58414, 4147019)], []), (6650, [(58513, 4149942), (58514, 4149972)], [(2, 4149941)])]

/-- exceptional years -/
def exc77 : List Exc := [
  (6661, [(58648, 4153930), (58649, 4153959)], []), (6669, [(58748, 4156882), (58749, 4156912)], []),
  (6672, [(58784, 4157945)], []), (6680, [(58883, 4160869), (58884, 4160899)], [(0, 4160868), (2, 4160899)]),
  (6688, [(58983, 4163822), (58984, 4163852)], []), (6691, [(59019, 4164885)], []), (6699, [(59118, 4167808)], [])]

/-- exceptional years -/
def exc78 : List Exc := [
  (6707, [(59218, 4170762), (59219, 4170792)], []), (6710, [], [(0, 4171826)]),
  (6718, [(59353, 4174748)], [(0, 4174748)]), (6726, [(59453, 4177701), (59454, 4177731)], []),
  (6729, [(59489, 4178764)], []), (6737, [(59588, 4181688), (59589, 4181717)], []),
  (6745, [(59689, 4184670)], [(2, 4184639)]), (6748, [(59724, 4185704)], []),
  (6756, [(59823, 4188627)], [(0, 4188627)])]

/-- exceptional years -/
def exc79 : List Exc := [
  (6764, [(59923, 4191580), (59924, 4191610)], []), (6767, [(59959, 4192644)], []),
  (6775, [(60058, 4195567), (60059, 4195597)], [(0, 4195566), (2, 4195597)]),
  (6783, [(60158, 4198520), (60159, 4198550)], []), (6786, [(60194, 4199584)], []),
  (6794, [(60293, 4202507), (60294, 4202537), (60295, 4202566)], [])]

/-- exceptional years -/
def exc80 : List Exc := [
  (6802, [(60394, 4205490)], []), (6805, [(60429, 4206523)], []),
  (6813, [(60528, 4209447), (60529, 4209477), (60530, 4209506)], [(4, 4209506)]),
  (6821, [(60628, 4212400), (60629, 4212430)], []), (6824, [(60664, 4213462)], []),
  (6832, [(60764, 4216416), (60765, 4216446)], [(2, 4216415), (4, 4216445)]),
  (6840, [(60864, 4219369)], [(2, 4219337)])]

/-- exceptional years -/
def exc81 : List Exc := [
  (6843, [(60899, 4220402)], []), (6851, [(60998, 4223326), (60999, 4223355)], []), (6859, [(61099, 4226309)], []),
  (6862, [(61134, 4227342)], []), (6870, [(61233, 4230265), (61234, 4230295)], [(0, 4230264), (2, 4230295)]),
  (6878, [(61333, 4233218)], [(4, 4233246)]), (6881, [(61369, 4234282)], []),
  (6889, [(61468, 4237205), (61469, 4237235), (61470, 4237264)], [])]

/-- the exceptional years of 6501 to 6891 -/
def excs13 : List Exc := exc74 ++ exc75 ++ exc76 ++ exc77 ++ exc78 ++ exc79 ++ exc80 ++ exc81

/-- the years 6892 to 7500 -/
def rows14 : Rows := ⟨⟨1721057070007, 365241298, 284605⟩, ⟨1721085596820, 365241559, 275722⟩, ⟨1721113832914, 365241802, 265070⟩,
  ⟨2422020877544, 29530571, 1568744⟩, 56642, 69042,
  [6899, 6918, 6994, 7013, 7032, 7051, 7070, 7089, 7108, 7127, 7146, 7222, 7271, 7290, 7309, 7366, 7385, 7404, 7442, 7461, 7480, 7491, 7499],
  [6907, 7002, 7184, 7260, 7279, 7374]⟩

/-- exceptional years -/
def exc82 : List Exc := [
  (6892, [], [(0, 4238300)]), (6900, [(61604, 4241222), (61605, 4241251)], [(0, 4241221)]),
  (6908, [(61704, 4244175), (61705, 4244204)], [(0, 4244143), (4, 4244204)]), (6916, [(61804, 4247127)], []),
  (6919, [(61839, 4248162), (61840, 4248191)], []), (6927, [(61939, 4251115), (61940, 4251144)], [(4, 4251143)]),
  (6930, [], [(0, 4252179)])]

/-- exceptional years -/
def exc83 : List Exc := [
  (6935, [], [(2, 4254035)]), (6938, [(62074, 4255101)], [(0, 4255101)]),
  (6946, [(62174, 4258054), (62175, 4258084)], []), (6949, [(62210, 4259117)], []), (6957, [(62309, 4262040)], []),
  (6965, [(62409, 4264994), (62410, 4265023)], [(4, 4265022)]), (6973, [], [(4, 4267944)]),
  (6976, [(62544, 4268980)], []), (6984, [(62644, 4271933), (62645, 4271963)], [])]

/-- exceptional years -/
def exc84 : List Exc := [
  (6987, [(62680, 4272997)], []), (6995, [(62779, 4275920), (62780, 4275949)], [(0, 4275919)]),
  (7003, [(62879, 4278873), (62880, 4278902)], [(0, 4278841), (4, 4278902)]), (7006, [(62915, 4279936)], []),
  (7014, [(63014, 4282860), (63015, 4282889)], []), (7022, [(63114, 4285813), (63115, 4285842)], [(4, 4285841)])]

/-- exceptional years -/
def exc85 : List Exc := [
  (7025, [(63150, 4286876)], []), (7033, [(63249, 4289800), (63250, 4289829)], []),
  (7041, [(63349, 4292753), (63350, 4292782)], []), (7044, [(63385, 4293815)], []),
  (7052, [(63484, 4296739), (63485, 4296769)], [(2, 4296769)]), (7060, [(63585, 4299722)], [(2, 4299690)]),
  (7063, [(63620, 4300755)], []), (7071, [(63719, 4303679), (63720, 4303708)], [])]

/-- exceptional years -/
def exc86 : List Exc := [
  (7079, [(63819, 4306632), (63820, 4306662)], []), (7082, [(63855, 4307694)], []),
  (7090, [(63954, 4310618), (63955, 4310648)], [(0, 4310617), (2, 4310648)]),
  (7098, [(64054, 4313571), (64055, 4313601)], []), (7101, [(64090, 4314634)], []),
  (7109, [(64189, 4317558), (64190, 4317587)], []), (7117, [(64290, 4320540)], [(2, 4320509), (4, 4320539)])]

/-- exceptional years -/
def exc87 : List Exc := [
  (7120, [(64325, 4321574)], []), (7128, [(64424, 4324498), (64425, 4324527)], []),
  (7136, [(64524, 4327450), (64525, 4327480)], []), (7139, [(64560, 4328514)], []),
  (7147, [(64659, 4331438), (64660, 4331467)], [(2, 4331467)]), (7155, [], [(2, 4334388), (4, 4334418)]),
  (7158, [(64795, 4335454)], [(0, 4335454)]), (7166, [(64895, 4338407), (64896, 4338437)], [])]

/-- exceptional years -/
def exc88 : List Exc := [
  (7174, [(64995, 4341360)], []), (7177, [(65030, 4342393)], []),
  (7185, [(65129, 4345317), (65130, 4345347), (65131, 4345376)], [(4, 4345376)]),
  (7193, [(65229, 4348270), (65230, 4348300)], []), (7196, [(65265, 4349333)], []),
  (7204, [(65365, 4352286), (65366, 4352316)], [(2, 4352285), (4, 4352315)]), (7207, [], [(0, 4353351)])]

/-- exceptional years -/
def exc89 : List Exc := [
  (7215, [(65500, 4356272)], []), (7223, [(65600, 4359225)], [(0, 4359194)]), (7226, [(65636, 4360289)], []),
  (7231, [(65700, 4362179)], []), (7234, [(65735, 4363212)], []),
  (7242, [(65835, 4366165), (65836, 4366195)], [(2, 4366164), (4, 4366194)]), (7245, [], [(0, 4367230)]),
  (7250, [], [(2, 4369086), (4, 4369116)]), (7253, [(65970, 4370152)], [(0, 4370152)]),
  (7261, [(66069, 4373076), (66070, 4373105), (66071, 4373134)], [])]

/-- exceptional years -/
def exc90 : List Exc := [
  (7264, [(66106, 4374168)], []), (7272, [(66205, 4377092), (66206, 4377122)], [(0, 4377091), (2, 4377122)]),
  (7280, [(66305, 4380045), (66306, 4380074)], [(0, 4380013), (4, 4380074)]), (7283, [(66341, 4381108)], []),
  (7288, [(66405, 4382998)], []), (7291, [(66440, 4384032), (66441, 4384061)], []),
  (7299, [(66540, 4386985), (66541, 4387014)], [(4, 4387013)])]

/-- exceptional years -/
def exc91 : List Exc := [
  (7302, [], [(0, 4388049)]), (7310, [(66675, 4390971), (66676, 4391001)], [(0, 4390970)]),
  (7318, [(66775, 4393924), (66776, 4393954)], []), (7321, [(66811, 4394987)], []), (7329, [(66910, 4397910)], []),
  (7337, [(67010, 4400864), (67011, 4400893)], [(4, 4400892)]), (7340, [(67046, 4401927)], []),
  (7345, [], [(4, 4403814)]), (7348, [(67145, 4404850)], [(0, 4404850)])]

/-- exceptional years -/
def exc92 : List Exc := [
  (7356, [(67245, 4407803), (67246, 4407833)], []), (7359, [(67281, 4408867)], []),
  (7367, [(67380, 4411790), (67381, 4411819)], []), (7375, [(67480, 4414743), (67481, 4414772)], [(4, 4414772)]),
  (7378, [(67516, 4415807)], []), (7386, [(67615, 4418730), (67616, 4418759)], []),
  (7394, [(67715, 4421683), (67716, 4421712)], [])]

/-- exceptional years -/
def exc93 : List Exc := [
  (7397, [(67751, 4422746)], []), (7405, [(67850, 4425670), (67851, 4425699)], []),
  (7413, [(67950, 4428623), (67951, 4428652)], []), (7416, [(67986, 4429686)], []),
  (7424, [(68086, 4432639), (68087, 4432669)], [(2, 4432638), (4, 4432668)]), (7427, [], [(0, 4433704)]),
  (7432, [(68186, 4435592)], [(2, 4435560)]), (7435, [(68221, 4436625)], [])]

/-- exceptional years -/
def exc94 : List Exc := [
  (7443, [(68320, 4439549), (68321, 4439578)], []), (7451, [(68420, 4442502), (68421, 4442532)], []),
  (7454, [(68456, 4443565)], []), (7462, [(68555, 4446488), (68556, 4446518)], [(2, 4446518)]),
  (7470, [(68655, 4449441), (68656, 4449471)], []), (7473, [(68691, 4450505)], []),
  (7481, [(68790, 4453428), (68791, 4453457)], [])]

/-- exceptional years -/
def exc95 : List Exc := [
  (7484, [(68827, 4454521)], []), (7489, [(68891, 4456411)], []),
  (7492, [(68926, 4457445), (68927, 4457474)], [(0, 4457444)]), (7500, [(69025, 4460368), (69026, 4460397)], [])]

/-- the exceptional years of 6892 to 7500 -/
def excs14 : List Exc := exc82 ++ exc83 ++ exc84 ++ exc85 ++ exc86 ++ exc87 ++ exc88 ++ exc89 ++ exc90 ++ exc91 ++ exc92 ++ exc93 ++ exc94 ++ exc95

/-- the years 7501 to 7931 -/
def rows15 : Rows := ⟨⟨1721057070007, 365241298, 284605⟩, ⟨1721085596820, 365241559, 275722⟩, ⟨1721113832914, 365241802, 265070⟩,
  ⟨2422021082352, 29530568, 1608701⟩, 69011, 81411,
  [7594, 7624, 7643, 7662, 7681, 7719, 7738, 7814, 7863, 7882, 7901],
  [7556, 7746, 7757, 7776, 7833, 7852, 7871]⟩

/-- exceptional years -/
def exc96 : List Exc := [
  (7508, [(69125, 4463321), (69126, 4463350)], []), (7511, [(69161, 4464384)], []),
  (7519, [(69261, 4467337), (69262, 4467367)], [(2, 4467336), (4, 4467366)]), (7522, [], [(0, 4468402)]),
  (7527, [], [(2, 4470258), (4, 4470288)]), (7530, [(69396, 4471324)], [(0, 4471324)]),
  (7538, [(69496, 4474277), (69497, 4474307)], []), (7541, [(69532, 4475340)], [])]

/-- exceptional years -/
def exc97 : List Exc := [
  (7546, [(69596, 4477230)], []), (7549, [(69631, 4478263)], []),
  (7557, [(69730, 4481187), (69731, 4481217), (69732, 4481246)], [(4, 4481246)]), (7560, [], [(0, 4482281)]),
  (7565, [(69831, 4484170)], []), (7568, [(69866, 4485203)], [(0, 4485203)]),
  (7576, [(69966, 4488156), (69967, 4488186)], []), (7579, [(70002, 4489219)], []), (7587, [(70101, 4492142)], [])]

/-- exceptional years -/
def exc98 : List Exc := [
  (7595, [(70201, 4495095)], [(0, 4495064), (2, 4495095)]), (7598, [(70237, 4496159)], []),
  (7603, [(70301, 4498049)], []), (7606, [(70336, 4499082)], []),
  (7614, [(70436, 4502035), (70437, 4502065)], [(2, 4502034), (4, 4502064)]), (7617, [], [(0, 4503100)]),
  (7622, [], [(4, 4504986)]), (7625, [(70571, 4506022), (70572, 4506052)], [(0, 4506021)]),
  (7633, [(70671, 4508975), (70672, 4509005)], [])]

/-- exceptional years -/
def exc99 : List Exc := [
  (7636, [(70707, 4510039)], []), (7644, [(70806, 4512962), (70807, 4512992)], [(2, 4512992)]),
  (7652, [(70906, 4515915), (70907, 4515945)], []), (7655, [(70942, 4516978)], []), (7660, [(71006, 4518868)], []),
  (7663, [(71041, 4519902), (71042, 4519931)], []), (7671, [(71141, 4522855), (71142, 4522885)], []),
  (7674, [(71177, 4523917)], [])]

/-- exceptional years -/
def exc100 : List Exc := [
  (7682, [(71276, 4526841), (71277, 4526871)], [(0, 4526840), (2, 4526871)]),
  (7690, [(71376, 4529794), (71377, 4529824)], []), (7693, [(71412, 4530857)], []), (7701, [(71511, 4533780)], []),
  (7709, [(71611, 4536734), (71612, 4536764)], []), (7712, [(71647, 4537797)], []),
  (7720, [(71746, 4540720), (71747, 4540750)], [(0, 4540719)])]

/-- exceptional years -/
def exc101 : List Exc := [
  (7728, [(71846, 4543673), (71847, 4543703)], []), (7731, [(71882, 4544737)], []),
  (7739, [(71981, 4547660), (71982, 4547690)], [(2, 4547690)]), (7742, [], [(0, 4548755)]),
  (7747, [(72082, 4550642)], [(2, 4550611), (4, 4550642)]), (7750, [(72117, 4551677)], [(0, 4551677)]),
  (7758, [(72216, 4554600), (72217, 4554630), (72218, 4554659)], [])]

/-- exceptional years -/
def exc102 : List Exc := [
  (7766, [(72317, 4557582)], []), (7769, [(72352, 4558616)], []),
  (7777, [(72451, 4561540), (72452, 4561570), (72453, 4561599)], []),
  (7785, [(72551, 4564493), (72552, 4564522)], []), (7788, [(72587, 4565556)], []),
  (7796, [(72687, 4568509), (72688, 4568539)], [(2, 4568508), (4, 4568538)]), (7799, [(72723, 4569572)], [])]

/-- exceptional years -/
def exc103 : List Exc := [
  (7804, [(72787, 4571462)], []), (7807, [(72822, 4572495)], []), (7815, [(72922, 4575448)], [(0, 4575417)]),
  (7823, [(73022, 4578402)], []), (7826, [(73057, 4579435)], []),
  (7834, [(73156, 4582358), (73157, 4582388), (73158, 4582417)], [(2, 4582387)]), (7837, [], [(0, 4583453)]),
  (7842, [(73257, 4585341)], [(2, 4585309)]), (7845, [(73292, 4586375)], [(0, 4586375)])]

/-- exceptional years -/
def exc104 : List Exc := [
  (7853, [(73392, 4589328), (73393, 4589357)], [(0, 4589296)]), (7856, [(73428, 4590391)], []),
  (7861, [(73492, 4592281)], []), (7864, [(73527, 4593315), (73528, 4593344)], []),
  (7872, [(73627, 4596268), (73628, 4596297)], []), (7880, [(73727, 4599220)], []),
  (7883, [(73762, 4600255), (73763, 4600284)], []), (7891, [(73862, 4603208), (73863, 4603237)], [(4, 4603236)])]

/-- exceptional years -/
def exc105 : List Exc := [
  (7894, [(73898, 4604270)], []), (7899, [], [(4, 4606158)]),
  (7902, [(73997, 4607194), (73998, 4607224)], [(0, 4607193)]), (7910, [(74097, 4610147), (74098, 4610177)], []),
  (7913, [(74133, 4611210)], []), (7921, [(74232, 4614133)], []), (7929, [(74332, 4617087), (74333, 4617117)], [])]

/-- the exceptional years of 7501 to 7931 -/
def excs15 : List Exc := exc96 ++ exc97 ++ exc98 ++ exc99 ++ exc100 ++ exc101 ++ exc102 ++ exc103 ++ exc104 ++ exc105

/-- the years 7932 to 8500 -/
def rows16 : Rows := ⟨⟨1721058929628, 365241063, 303403⟩, ⟨1721087728667, 365241290, 300444⟩, ⟨1721115887366, 365241543, 292040⟩,
  ⟨2422021082352, 29530568, 1608701⟩, 69011, 81411,
  [7939, 7958, 7977, 7996, 8034, 8053, 8072, 8091, 8121, 8159, 8186, 8216, 8235, 8254, 8273, 8311, 8330, 8341, 8349, 8368, 8444, 8463, 8474, 8493],
  [7966, 8015, 8110, 8129, 8148, 8224, 8243, 8338, 8406, 8425, 8482]⟩

/-- exceptional years -/
def exc106 : List Exc := [
  (7932, [], [(0, 4618151)]), (7937, [], [(4, 4620037)]),
  (7940, [(74467, 4621073), (74468, 4621102)], [(0, 4621072)]), (7948, [(74567, 4624026), (74568, 4624056)], []),
  (7951, [(74603, 4625089)], []), (7959, [(74702, 4628013), (74703, 4628042)], []),
  (7967, [(74802, 4630966), (74803, 4630995)], [(4, 4630995)]), (7970, [(74838, 4632029)], [])]

/-- exceptional years -/
def exc107 : List Exc := [
  (7978, [(74937, 4634953), (74938, 4634982)], []), (7986, [(75037, 4637905), (75038, 4637935)], [(4, 4637934)]),
  (7989, [(75073, 4638969)], []), (7994, [], [(4, 4640856)]), (7997, [(75172, 4641893), (75173, 4641922)], []),
  (8005, [(75272, 4644845), (75273, 4644875)], []), (8008, [(75308, 4645909)], []),
  (8016, [(75407, 4648832), (75408, 4648862), (75409, 4648891)], [(2, 4648861)])]

/-- exceptional years -/
def exc108 : List Exc := [
  (8024, [(75508, 4651815)], [(2, 4651783)]), (8027, [(75543, 4652848)], []),
  (8035, [(75642, 4655772), (75643, 4655801)], []), (8043, [(75742, 4658725), (75743, 4658755)], []),
  (8046, [(75778, 4659787)], []), (8054, [(75877, 4662711), (75878, 4662741)], [(2, 4662741)]),
  (8057, [], [(0, 4663806)]), (8062, [(75978, 4665694)], [(2, 4665662)])]

/-- exceptional years -/
def exc109 : List Exc := [
  (8065, [(76013, 4666727)], []), (8073, [(76112, 4669651), (76113, 4669680)], []), (8081, [(76213, 4672634)], []),
  (8084, [(76248, 4673667)], []), (8092, [(76347, 4676591), (76348, 4676620)], [(2, 4676620)]),
  (8100, [(76447, 4679543), (76448, 4679573)], []), (8103, [(76483, 4680607)], [(0, 4680607)]),
  (8111, [(76582, 4683531), (76583, 4683560), (76584, 4683589)], [(2, 4683559)])]

/-- exceptional years -/
def exc110 : List Exc := [
  (8114, [(76619, 4684623)], []), (8119, [], [(2, 4686481), (4, 4686511)]),
  (8122, [(76718, 4687547), (76719, 4687576)], [(0, 4687546)]),
  (8130, [(76818, 4690500), (76819, 4690529)], [(0, 4690468)]), (8138, [(76918, 4693453)], []),
  (8141, [(76953, 4694486)], []), (8149, [(77052, 4697410), (77053, 4697440), (77054, 4697469)], [(4, 4697469)])]

/-- exceptional years -/
def exc111 : List Exc := [
  (8152, [], [(0, 4698504)]), (8157, [(77153, 4700393)], [(2, 4700360)]),
  (8160, [(77188, 4701426), (77189, 4701455)], [(0, 4701425)]),
  (8168, [(77288, 4704379), (77289, 4704409)], [(4, 4704408)]), (8171, [(77324, 4705442)], []),
  (8176, [], [(4, 4707330)]), (8179, [(77423, 4708365)], []), (8187, [(77523, 4711318)], [(2, 4711318)]),
  (8190, [(77559, 4712382)], [])]

/-- exceptional years -/
def exc112 : List Exc := [
  (8195, [(77623, 4714272)], []), (8198, [(77658, 4715305)], [(0, 4715305)]),
  (8206, [(77758, 4718258), (77759, 4718288)], [(2, 4718257), (4, 4718287)]), (8209, [(77794, 4719322)], []),
  (8214, [], [(4, 4721209)]), (8217, [(77893, 4722245), (77894, 4722274)], [(0, 4722244)]),
  (8225, [(77993, 4725198), (77994, 4725227)], []), (8228, [(78029, 4726262)], [])]

/-- exceptional years -/
def exc113 : List Exc := [
  (8236, [(78128, 4729185), (78129, 4729214)], []), (8244, [(78228, 4732138), (78229, 4732167)], [(4, 4732167)]),
  (8247, [(78264, 4733201)], []), (8252, [(78328, 4735090)], []), (8255, [(78363, 4736125), (78364, 4736154)], []),
  (8263, [(78463, 4739078), (78464, 4739107)], [(4, 4739106)]), (8266, [(78499, 4740140)], [])]

/-- exceptional years -/
def exc114 : List Exc := [
  (8274, [(78598, 4743064), (78599, 4743094)], [(2, 4743094)]), (8282, [(78698, 4746017), (78699, 4746047)], []),
  (8285, [(78734, 4747080)], []), (8293, [(78833, 4750003)], [(0, 4750003)]),
  (8301, [(78933, 4752957), (78934, 4752987)], []), (8304, [(78969, 4754020)], []), (8309, [], [(4, 4755907)]),
  (8312, [(79068, 4756943), (79069, 4756973)], [])]

/-- exceptional years -/
def exc115 : List Exc := [
  (8320, [(79168, 4759896), (79169, 4759926)], []), (8323, [(79204, 4760960)], [(0, 4760960)]),
  (8331, [(79303, 4763883), (79304, 4763912)], []), (8339, [(79404, 4766865)], [(2, 4766834), (4, 4766865)]),
  (8342, [(79439, 4767900), (79440, 4767929)], [(0, 4767899)]), (8350, [(79538, 4770823), (79539, 4770852)], [])]

/-- exceptional years -/
def exc116 : List Exc := [
  (8358, [(79638, 4773776), (79639, 4773805)], []), (8361, [(79674, 4774839)], []),
  (8369, [(79773, 4777763), (79774, 4777792)], [(2, 4777792)]), (8372, [], [(0, 4778857)]),
  (8377, [(79873, 4780716), (79874, 4780745)], []), (8380, [(79909, 4781779)], [(0, 4781779)]),
  (8388, [(80009, 4784732), (80010, 4784762)], [(4, 4784761)])]

/-- exceptional years -/
def exc117 : List Exc := [
  (8391, [(80045, 4785794)], []), (8396, [(80109, 4787685)], []), (8399, [(80144, 4788718)], []),
  (8407, [(80243, 4791642), (80244, 4791672), (80245, 4791701)], []), (8410, [], [(0, 4792736)]),
  (8415, [(80343, 4794595), (80344, 4794625)], []), (8418, [(80379, 4795658)], [(0, 4795658)]),
  (8426, [(80478, 4798581), (80479, 4798611), (80480, 4798641)], [(2, 4798610), (4, 4798641)])]

/-- exceptional years -/
def exc118 : List Exc := [
  (8429, [(80515, 4799674)], []), (8434, [(80579, 4801564)], [(2, 4801532)]), (8437, [(80614, 4802597)], []),
  (8445, [(80714, 4805550)], [(0, 4805519)]), (8448, [(80750, 4806614)], []), (8453, [(80814, 4808504)], []),
  (8456, [(80849, 4809537)], []), (8464, [(80948, 4812461), (80949, 4812490)], [(2, 4812490)]),
  (8467, [], [(0, 4813555)]), (8472, [(81049, 4815443)], [(2, 4815411)])]

/-- exceptional years -/
def exc119 : List Exc := [
  (8475, [(81084, 4816477), (81085, 4816507)], [(0, 4816476)]),
  (8483, [(81184, 4819430), (81185, 4819459)], [(0, 4819398)]), (8486, [(81220, 4820493)], []),
  (8491, [], [(4, 4822381)]), (8494, [(81319, 4823417), (81320, 4823447)], [(2, 4823447)])]

/-- the exceptional years of 7932 to 8500 -/
def excs16 : List Exc := exc106 ++ exc107 ++ exc108 ++ exc109 ++ exc110 ++ exc111 ++ exc112 ++ exc113 ++ exc114 ++ exc115 ++ exc116 ++ exc117 ++ exc118 ++ exc119

/-- the years 8501 to 8971 -/
def rows17 : Rows := ⟨⟨1721058929628, 365241063, 303403⟩, ⟨1721087728667, 365241290, 300444⟩, ⟨1721115887366, 365241543, 292040⟩,
  ⟨2422021321655, 29530565, 1655606⟩, 81379, 93779,
  [8531, 8569, 8588, 8626, 8664, 8683, 8694, 8702, 8713, 8721, 8751, 8789, 8808, 8816, 8827, 8846, 8884, 8903, 8922, 8941],
  [8501, 8520, 8558, 8596, 8607, 8615, 8645, 8740, 8778, 8835, 8865, 8930, 8960]⟩

/-- exceptional years -/
def exc120 : List Exc := [
  (8502, [(81419, 4826370), (81420, 4826399)], []), (8505, [(81455, 4827433)], []), (8510, [(81519, 4829323)], []),
  (8513, [(81554, 4830356)], [(0, 4830356)]),
  (8521, [(81653, 4833280), (81654, 4833310), (81655, 4833339)], [(4, 4833339)]), (8524, [(81690, 4834372)], []),
  (8529, [(81754, 4836263)], []), (8532, [(81789, 4837296), (81790, 4837325)], [])]

/-- exceptional years -/
def exc121 : List Exc := [
  (8540, [(81889, 4840249), (81890, 4840279)], []), (8543, [(81925, 4841312)], []),
  (8551, [(82024, 4844235)], [(0, 4844235)]), (8559, [(82124, 4847189), (82125, 4847218)], [(4, 4847218)]),
  (8562, [(82160, 4848252)], []), (8567, [(82224, 4850142)], []),
  (8570, [(82259, 4851175), (82260, 4851205)], [(0, 4851174)]),
  (8578, [(82359, 4854128), (82360, 4854158)], [(4, 4854157)])]

/-- exceptional years -/
def exc122 : List Exc := [
  (8581, [(82395, 4855192)], []), (8586, [], [(4, 4857079)]),
  (8589, [(82494, 4858115), (82495, 4858145)], [(2, 4858145)]), (8592, [], [(0, 4859210)]),
  (8597, [(82594, 4861068), (82595, 4861097)], []), (8600, [(82630, 4862132)], [(0, 4862132)]),
  (8608, [(82729, 4865055), (82730, 4865085), (82731, 4865114)], [(2, 4865084)]),
  (8616, [(82829, 4868008), (82830, 4868037)], [(4, 4868037)])]

/-- exceptional years -/
def exc123 : List Exc := [
  (8619, [(82865, 4869071)], []), (8624, [], [(4, 4870958)]), (8627, [(82964, 4871995), (82965, 4872024)], []),
  (8630, [], [(0, 4873089)]), (8635, [(83064, 4874948), (83065, 4874977)], []), (8638, [(83100, 4876010)], []),
  (8646, [(83199, 4878934), (83200, 4878964), (83201, 4878994)], [(2, 4878963), (4, 4878994)]),
  (8649, [(83236, 4880027)], [])]

/-- exceptional years -/
def exc124 : List Exc := [
  (8654, [(83300, 4881917)], [(2, 4881885)]), (8657, [(83335, 4882950)], []),
  (8665, [(83434, 4885874), (83435, 4885903)], []), (8673, [(83534, 4888827), (83535, 4888857)], []),
  (8676, [(83570, 4889890)], []), (8681, [], [(4, 4891777)]),
  (8684, [(83669, 4892813), (83670, 4892843)], [(2, 4892843)]), (8687, [], [(0, 4893908)]),
  (8692, [(83769, 4895766), (83770, 4895796)], [])]

/-- exceptional years -/
def exc125 : List Exc := [
  (8695, [(83805, 4896830), (83806, 4896859)], [(0, 4896829)]), (8703, [(83905, 4899782)], [(0, 4899751)]),
  (8706, [(83941, 4900846)], []), (8711, [(84005, 4902735)], [(4, 4902734)]),
  (8714, [(84040, 4903770), (84041, 4903799)], []), (8722, [(84139, 4906693), (84140, 4906722)], [(2, 4906722)]),
  (8725, [], [(0, 4907787)]), (8730, [(84239, 4909646), (84240, 4909675)], [])]

/-- exceptional years -/
def exc126 : List Exc := [
  (8733, [(84275, 4910709)], [(0, 4910709)]),
  (8741, [(84374, 4913633), (84375, 4913662), (84376, 4913692)], [(2, 4913661), (4, 4913692)]),
  (8744, [(84411, 4914725)], []), (8749, [(84475, 4916615)], [(2, 4916583)]),
  (8752, [(84510, 4917649), (84511, 4917678)], [(0, 4917648)]),
  (8760, [(84610, 4920602), (84611, 4920632)], [(4, 4920631)])]

/-- exceptional years -/
def exc127 : List Exc := [
  (8763, [(84646, 4921665)], []), (8768, [(84710, 4923555)], []), (8771, [(84745, 4924588)], [(0, 4924588)]),
  (8779, [(84844, 4927512), (84845, 4927542), (84846, 4927571)], []), (8782, [(84881, 4928604)], []),
  (8787, [(84945, 4930495)], [(2, 4930462)]), (8790, [(84980, 4931528), (84981, 4931557)], [(0, 4931527)]),
  (8798, [(85080, 4934481), (85081, 4934511)], [(4, 4934510)])]

/-- exceptional years -/
def exc128 : List Exc := [
  (8801, [(85116, 4935544)], []), (8806, [], [(4, 4937432)]), (8809, [(85215, 4938468), (85216, 4938497)], []),
  (8817, [(85315, 4941420)], [(2, 4941420)]), (8820, [(85351, 4942484)], []), (8825, [(85415, 4944374)], []),
  (8828, [(85450, 4945408), (85451, 4945437)], []),
  (8836, [(85550, 4948360), (85551, 4948390)], [(0, 4948328), (2, 4948359), (4, 4948390)])]

/-- exceptional years -/
def exc129 : List Exc := [
  (8839, [(85586, 4949424)], []), (8844, [(85650, 4951313)], []), (8847, [(85685, 4952348), (85686, 4952377)], []),
  (8855, [(85785, 4955300), (85786, 4955330)], [(4, 4955329)]), (8858, [(85821, 4956363)], []),
  (8866, [(85920, 4959287), (85921, 4959317), (85922, 4959346)], [(2, 4959316)]),
  (8874, [(86020, 4962240), (86021, 4962270)], [])]

/-- exceptional years -/
def exc130 : List Exc := [
  (8877, [(86056, 4963303)], []), (8882, [(86120, 4965193)], []),
  (8885, [(86155, 4966226), (86156, 4966256)], [(0, 4966225)]),
  (8893, [(86255, 4969180), (86256, 4969209)], [(4, 4969208)]), (8896, [(86291, 4970242)], []),
  (8901, [], [(4, 4972130)]), (8904, [(86390, 4973166), (86391, 4973195)], []), (8907, [], [(0, 4974261)]),
  (8912, [(86490, 4976119), (86491, 4976149)], [])]

/-- exceptional years -/
def exc131 : List Exc := [
  (8915, [(86526, 4977182)], []), (8923, [(86625, 4980106), (86626, 4980135)], []),
  (8931, [(86725, 4983059), (86726, 4983088)], [(4, 4983088)]), (8934, [(86761, 4984122)], []),
  (8939, [(86825, 4986012)], []), (8942, [(86860, 4987045), (86861, 4987075)], []), (8945, [], [(0, 4988140)]),
  (8950, [(86960, 4989998), (86961, 4990028)], [])]

/-- exceptional years -/
def exc132 : List Exc := [
  (8953, [(86996, 4991062)], [(0, 4991062)]),
  (8961, [(87095, 4993985), (87096, 4994015), (87097, 4994044)], [(2, 4994014)]), (8964, [(87132, 4995078)], []),
  (8969, [(87196, 4996968)], [(2, 4996936)])]

/-- the exceptional years of 8501 to 8971 -/
def excs17 : List Exc := exc120 ++ exc121 ++ exc122 ++ exc123 ++ exc124 ++ exc125 ++ exc126 ++ exc127 ++ exc128 ++ exc129 ++ exc130 ++ exc131 ++ exc132

/-- the years 8972 to 9500 -/
def rows18 : Rows := ⟨⟨1721060530058, 365240884, 330620⟩, ⟨1721089833382, 365241055, 329175⟩, ⟨1721118155797, 365241290, 316984⟩,
  ⟨2422021321655, 29530565, 1655606⟩, 81379, 93779,
  [8971, 9036, 9066, 9085, 9104, 9123, 9142, 9161, 9180, 9199, 9218, 9256, 9294, 9313, 9324, 9343, 9362, 9381, 9419, 9438, 9476],
  [8979, 8998, 9017, 9055, 9074, 9093, 9112, 9150, 9188, 9237, 9275, 9332, 9351, 9370, 9408, 9427, 9446, 9457, 9465, 9495]⟩

/-- exceptional years -/
def exc133 : List Exc := [
  (8972, [(87231, 4998002), (87232, 4998031)], [(0, 4998001)]),
  (8980, [(87330, 5000925), (87331, 5000955), (87332, 5000984)], []),
  (8988, [(87430, 5003878), (87431, 5003908)], []), (8991, [(87466, 5004941)], [(0, 5004941)]),
  (8999, [(87565, 5007865), (87566, 5007895), (87567, 5007924)], [])]

/-- exceptional years -/
def exc134 : List Exc := [
  (9002, [(87602, 5008957)], []), (9007, [(87666, 5010848)], [(2, 5010815)]), (9010, [(87701, 5011880)], []),
  (9018, [(87801, 5014834), (87802, 5014864)], [(0, 5014802), (4, 5014864)]), (9021, [(87837, 5015897)], []),
  (9026, [(87901, 5017787)], []), (9029, [(87936, 5018820)], []),
  (9037, [(88035, 5021744), (88036, 5021773)], [(2, 5021773)])]

/-- exceptional years -/
def exc135 : List Exc := [
  (9040, [], [(0, 5022838)]), (9045, [(88136, 5024727)], []), (9048, [(88171, 5025760)], [(0, 5025760)]),
  (9056, [(88271, 5028713), (88272, 5028742)], [(0, 5028681), (2, 5028712)]), (9059, [(88307, 5029777)], []),
  (9064, [(88371, 5031666)], [(2, 5031634)]), (9067, [(88406, 5032700), (88407, 5032729)], []),
  (9075, [(88506, 5035653), (88507, 5035682)], [])]

/-- exceptional years -/
def exc136 : List Exc := [
  (9078, [(88542, 5036716)], []), (9083, [(88606, 5038606)], []), (9086, [(88641, 5039640), (88642, 5039669)], []),
  (9094, [(88741, 5042593), (88742, 5042622)], []), (9097, [(88777, 5043656)], []), (9102, [(88841, 5045545)], []),
  (9105, [(88876, 5046580), (88877, 5046609)], []),
  (9113, [(88976, 5049533), (88977, 5049562)], [(0, 5049500), (4, 5049562)])]

/-- exceptional years -/
def exc137 : List Exc := [
  (9116, [(89012, 5050595)], []), (9121, [], [(4, 5052483)]),
  (9124, [(89111, 5053519), (89112, 5053549)], [(2, 5053549)]), (9132, [(89211, 5056472), (89212, 5056502)], []),
  (9135, [(89247, 5057535)], []), (9140, [(89311, 5059425)], []),
  (9143, [(89346, 5060458), (89347, 5060488)], [(0, 5060457)]),
  (9151, [(89446, 5063412), (89447, 5063441)], [(4, 5063441)])]

/-- exceptional years -/
def exc138 : List Exc := [
  (9154, [(89482, 5064475)], []), (9159, [(89546, 5066365)], []), (9162, [(89581, 5067398), (89582, 5067427)], []),
  (9165, [], [(0, 5068493)]), (9170, [(89681, 5070351), (89682, 5070381)], [(4, 5070380)]),
  (9173, [(89717, 5071415)], [(0, 5071415)]), (9178, [], [(4, 5073302)]),
  (9181, [(89816, 5074338), (89817, 5074367)], []), (9189, [(89916, 5077291), (89917, 5077320)], [])]

/-- exceptional years -/
def exc139 : List Exc := [
  (9192, [(89952, 5078354)], []), (9200, [(90051, 5081278), (90052, 5081307)], []),
  (9208, [(90151, 5084230), (90152, 5084260)], [(4, 5084259)]), (9211, [(90187, 5085294)], [(0, 5085294)]),
  (9216, [], [(4, 5087181)]), (9219, [(90286, 5088218), (90287, 5088247)], [(2, 5088247)]),
  (9222, [(90323, 5089310)], []), (9227, [(90386, 5091171), (90387, 5091200)], [])]

/-- exceptional years -/
def exc140 : List Exc := [
  (9230, [(90422, 5092233)], []), (9238, [(90521, 5095157), (90522, 5095187), (90523, 5095216)], [(2, 5095186)]),
  (9246, [(90621, 5098110), (90622, 5098140)], []), (9249, [(90657, 5099173)], []),
  (9257, [(90756, 5102097), (90757, 5102126)], [(2, 5102126)]), (9260, [], [(0, 5103191)]),
  (9265, [(90856, 5105050), (90857, 5105080)], [])]

/-- exceptional years -/
def exc141 : List Exc := [
  (9268, [(90892, 5106112)], []), (9276, [(90992, 5109066), (90993, 5109095)], [(0, 5109034), (2, 5109065)]),
  (9279, [(91028, 5110129)], []), (9284, [(91092, 5112019)], [(2, 5111987)]), (9287, [(91127, 5113052)], []),
  (9295, [(91226, 5115976), (91227, 5116005)], []), (9298, [], [(0, 5117070)]),
  (9303, [(91327, 5118958)], [(4, 5118957)]), (9306, [(91362, 5119992)], [(0, 5119992)])]

/-- exceptional years -/
def exc142 : List Exc := [
  (9314, [(91461, 5122916), (91462, 5122945)], [(2, 5122945)]), (9317, [(91498, 5124009)], []),
  (9322, [(91562, 5125898)], [(2, 5125866)]), (9325, [(91597, 5126932), (91598, 5126962)], [(0, 5126931)]),
  (9333, [(91697, 5129885), (91698, 5129914)], [(0, 5129853)]), (9336, [(91733, 5130948)], []),
  (9341, [(91797, 5132838)], [])]

/-- exceptional years -/
def exc143 : List Exc := [
  (9344, [(91832, 5133872), (91833, 5133901)], []), (9352, [(91932, 5136825), (91933, 5136854)], []),
  (9355, [], [(0, 5137889)]), (9360, [(92032, 5139778)], []),
  (9363, [(92067, 5140811), (92068, 5140841)], [(0, 5140810)]),
  (9371, [(92167, 5143765), (92168, 5143794)], [(0, 5143732), (4, 5143794)]), (9374, [(92203, 5144827)], [])]

/-- exceptional years -/
def exc144 : List Exc := [
  (9379, [(92267, 5146718)], [(2, 5146685)]), (9382, [(92302, 5147751), (92303, 5147780)], []),
  (9390, [(92402, 5150704), (92403, 5150734)], [(4, 5150733)]), (9393, [(92438, 5151767)], []),
  (9398, [(92502, 5153657)], []), (9401, [(92537, 5154690)], [(0, 5154690)]),
  (9409, [(92637, 5157643), (92638, 5157673)], [(2, 5157642)])]

/-- exceptional years -/
def exc145 : List Exc := [
  (9412, [(92673, 5158707)], []), (9417, [(92737, 5160597)], []), (9420, [(92772, 5161630), (92773, 5161660)], []),
  (9428, [(92872, 5164583), (92873, 5164612)], []), (9431, [(92908, 5165647)], [(0, 5165647)]),
  (9436, [], [(4, 5167534)]), (9439, [(93007, 5168570), (93008, 5168600)], [(2, 5168600)]),
  (9447, [(93107, 5171523), (93108, 5171552)], [])]

/-- exceptional years -/
def exc146 : List Exc := [
  (9450, [(93143, 5172586)], []), (9458, [(93242, 5175510), (93243, 5175540)], [(2, 5175539), (4, 5175570)]),
  (9466, [(93342, 5178463), (93343, 5178492)], [(4, 5178492)]), (9469, [(93378, 5179526)], []),
  (9474, [(93442, 5181416)], []), (9477, [(93477, 5182450), (93478, 5182479)], [(2, 5182479)]),
  (9480, [], [(0, 5183544)]), (9485, [(93577, 5185403), (93578, 5185432)], [(4, 5185431)])]

/-- exceptional years -/
def exc147 : List Exc := [
  (9488, [(93613, 5186465)], []), (9493, [], [(4, 5188353)]),
  (9496, [(93712, 5189389), (93713, 5189419), (93714, 5189448)], [(2, 5189418)])]

/-- the exceptional years of 8972 to 9500 -/
def excs18 : List Exc := exc133 ++ exc134 ++ exc135 ++ exc136 ++ exc137 ++ exc138 ++ exc139 ++ exc140 ++ exc141 ++ exc142 ++ exc143 ++ exc144 ++ exc145 ++ exc146 ++ exc147

/-- the years 9501 to 9998 -/
def rows19 : Rows := ⟨⟨1721060530058, 365240884, 330620⟩, ⟨1721089833382, 365241055, 329175⟩, ⟨1721118155797, 365241290, 316984⟩,
  ⟨2422021596981, 29530562, 1711186⟩, 93748, 100000,
  [9514, 9533, 9544, 9552, 9563, 9571, 9582, 9601, 9639, 9658, 9666, 9677, 9696, 9734, 9753, 9772, 9791, 9802, 9821, 9886, 9897, 9916, 9935, 9954, 9973, 9992],
  [9560, 9590, 9628, 9647, 9685, 9715, 9742, 9780, 9810, 9818, 9829, 9848, 9867, 9905, 9924, 9943, 9962]⟩

/-- exceptional years -/
def exc148 : List Exc := [
  (9504, [(93812, 5192342), (93813, 5192372)], []), (9507, [(93848, 5193405)], []),
  (9515, [(93947, 5196328), (93948, 5196358)], []), (9518, [], [(0, 5197423)]),
  (9523, [(94047, 5199282), (94048, 5199311)], [(4, 5199310)]), (9526, [(94083, 5200345)], [(0, 5200345)]),
  (9531, [], [(4, 5202232)]), (9534, [(94182, 5203268), (94183, 5203297)], [])]

/-- exceptional years -/
def exc149 : List Exc := [
  (9537, [(94219, 5204361)], []), (9542, [(94283, 5206251)], [(2, 5206219)]),
  (9545, [(94318, 5207285), (94319, 5207314)], [(0, 5207284)]), (9553, [(94417, 5210208), (94418, 5210237)], []),
  (9556, [(94454, 5211301)], []), (9561, [(94518, 5213190)], [(4, 5213190)]),
  (9564, [(94553, 5214225), (94554, 5214254)], []), (9572, [(94652, 5217148), (94653, 5217177)], [(2, 5217177)])]

/-- exceptional years -/
def exc150 : List Exc := [
  (9575, [(94689, 5218240)], []), (9580, [(94752, 5220101), (94753, 5220130)], [(4, 5220129)]),
  (9583, [(94788, 5221164), (94789, 5221194)], [(0, 5221163)]),
  (9591, [(94888, 5224117), (94889, 5224147)], [(0, 5224085), (2, 5224116)]), (9594, [(94924, 5225180)], []),
  (9599, [(94988, 5227070)], [(2, 5227038)]), (9602, [(95023, 5228104), (95024, 5228133)], [])]

/-- exceptional years -/
def exc151 : List Exc := [
  (9610, [(95123, 5231057), (95124, 5231087)], [(4, 5231086)]), (9613, [(95159, 5232119)], []),
  (9618, [(95223, 5234010)], []), (9621, [(95258, 5235043)], [(0, 5235043)]),
  (9629, [(95358, 5237996), (95359, 5238026)], [(0, 5237964), (2, 5237995)]), (9632, [(95394, 5239059)], []),
  (9637, [(95458, 5240950)], [(2, 5240917)]), (9640, [(95493, 5241983), (95494, 5242012)], [])]

/-- exceptional years -/
def exc152 : List Exc := [
  (9648, [(95593, 5244936), (95594, 5244965)], []), (9651, [(95629, 5245999)], []), (9656, [(95693, 5247889)], []),
  (9659, [(95728, 5248923), (95729, 5248952)], []), (9667, [(95828, 5251875)], [(2, 5251875)]),
  (9670, [(95864, 5252939)], []), (9675, [(95928, 5254828)], []), (9678, [(95963, 5255863), (95964, 5255892)], []),
  (9686, [(96063, 5258815), (96064, 5258845)], [(0, 5258783), (2, 5258814), (4, 5258845)])]

/-- exceptional years -/
def exc153 : List Exc := [
  (9689, [(96099, 5259879)], []), (9694, [(96163, 5261768)], []), (9697, [(96198, 5262802), (96199, 5262832)], []),
  (9705, [(96298, 5265755), (96299, 5265785)], [(4, 5265784)]), (9708, [(96334, 5266818)], []),
  (9713, [], [(4, 5268706)]), (9716, [(96433, 5269742), (96434, 5269772), (96435, 5269801)], [(2, 5269771)]),
  (9724, [(96533, 5272695), (96534, 5272725)], [])]

/-- exceptional years -/
def exc154 : List Exc := [
  (9727, [(96569, 5273758)], []), (9732, [(96633, 5275648)], []), (9735, [(96668, 5276681), (96669, 5276711)], []),
  (9738, [], [(0, 5277776)]), (9743, [(96768, 5279635), (96769, 5279664)], [(4, 5279664)]),
  (9746, [(96804, 5280697)], []), (9751, [], [(4, 5282585)]), (9754, [(96903, 5283621), (96904, 5283650)], []),
  (9762, [(97003, 5286574), (97004, 5286604)], [])]

/-- exceptional years -/
def exc155 : List Exc := [
  (9765, [(97039, 5287637)], []), (9773, [(97138, 5290560), (97139, 5290590)], [(0, 5290559)]),
  (9781, [(97238, 5293513), (97239, 5293543)], [(4, 5293543)]), (9784, [(97274, 5294577)], []),
  (9789, [(97338, 5296467)], []), (9792, [(97373, 5297500), (97374, 5297530)], [(2, 5297530)]),
  (9795, [(97410, 5298593)], []), (9800, [(97473, 5300453), (97474, 5300483)], [(4, 5300482)])]

/-- exceptional years -/
def exc156 : List Exc := [
  (9803, [(97509, 5301517), (97510, 5301546)], [(0, 5301516)]), (9808, [], [(4, 5303404)]),
  (9811, [(97608, 5304440), (97609, 5304470), (97610, 5304499)], [(2, 5304469)]), (9814, [(97645, 5305533)], []),
  (9819, [(97709, 5307422)], [(2, 5307391)]), (9822, [(97744, 5308457), (97745, 5308486)], []),
  (9830, [(97843, 5311380), (97844, 5311410), (97845, 5311439)], [])]

/-- exceptional years -/
def exc157 : List Exc := [
  (9833, [], [(0, 5312474)]), (9838, [(97943, 5314333), (97944, 5314362)], [(4, 5314361)]),
  (9841, [(97979, 5315396)], [(0, 5315396)]), (9846, [], [(4, 5317283)]),
  (9849, [(98079, 5318349), (98080, 5318379)], [(0, 5318317), (2, 5318348)]), (9852, [(98115, 5319412)], []),
  (9857, [(98179, 5321302)], [(2, 5321270)]), (9860, [(98214, 5322335)], []),
  (9868, [(98314, 5325289), (98315, 5325318)], [])]

/-- exceptional years -/
def exc158 : List Exc := [
  (9871, [(98350, 5326352)], []), (9876, [(98414, 5328242)], []), (9879, [(98449, 5329275)], [(0, 5329275)]),
  (9887, [(98548, 5332198), (98549, 5332228)], [(2, 5332228)]), (9890, [(98585, 5333292)], []),
  (9895, [(98648, 5335152), (98649, 5335181)], [(4, 5335180)]),
  (9898, [(98684, 5336215), (98685, 5336244)], [(0, 5336214)])]

/-- exceptional years -/
def exc159 : List Exc := [
  (9906, [(98784, 5339168), (98785, 5339197)], [(0, 5339136), (2, 5339167)]), (9909, [(98820, 5340232)], []),
  (9914, [(98884, 5342121)], []), (9917, [(98919, 5343155), (98920, 5343184)], []),
  (9925, [(99019, 5346108), (99020, 5346137)], []), (9928, [(99055, 5347171)], []),
  (9933, [(99119, 5349060)], [(4, 5349059)]), (9936, [(99154, 5350095), (99155, 5350124)], [])]

/-- exceptional years -/
def exc160 : List Exc := [
  (9944, [(99254, 5353048), (99255, 5353077)], [(0, 5353015)]), (9947, [(99290, 5354111)], []),
  (9952, [(99354, 5356000)], [(2, 5355968)]), (9955, [(99389, 5357034), (99390, 5357064)], []),
  (9963, [(99489, 5359987), (99490, 5360017)], [(4, 5360017)]), (9966, [(99525, 5361050)], []),
  (9971, [(99589, 5362940)], []), (9974, [(99624, 5363974), (99625, 5364003)], [])]

/-- exceptional years -/
def exc161 : List Exc := [
  (9982, [(99724, 5366927), (99725, 5366957)], [(4, 5366956)]), (9985, [(99760, 5367989)], []),
  (9990, [(99824, 5369880)], []), (9993, [(99859, 5370913), (99860, 5370943)], [(0, 5370912)])]

/-- the exceptional years of 9501 to 9998 -/
def excs19 : List Exc := exc148 ++ exc149 ++ exc150 ++ exc151 ++ exc152 ++ exc153 ++ exc154 ++ exc155 ++ exc156 ++ exc157 ++ exc158 ++ exc159 ++ exc160 ++ exc161

end High
