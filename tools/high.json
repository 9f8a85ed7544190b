{"sun":[[20,61,[[7019245933,365242315,84602],[7034407393,365242166,85465],[7049701371,365242012,85986],[7065123856,365241866,86170],[7080661687,365241736,86048],[7096293277,365241633,85804],[7111990067,365241565,85559],[7127718594,365241535,85398],[7143442994,365241548,85388],[7159127705,365241601,85630],[7174740150,365241691,85969],[7190253166,365241810,86210],[7205646963,365241951,86158],[7220910424,365242102,85778],[7236041666,365242253,85091],[7251047843,365242395,84113],[7265944321,365242517,83020],[7280753361,365242612,82020],[7295502501,365242675,81280],[7310222778,365242702,80952],[7324946873,365242691,81148],[7339707242,365242643,81874],[7354534247,365242560,83002],[7369454326,365242448,84192]]],[105,24,[[38064847587,365242365,54304],[38079996425,365242217,54992],[38095277387,365242064,55554],[38110687369,365241917,55958],[38126214111,365241785,56217],[38141836841,365241680,56346],[38157527659,365241608,56386],[38173253551,365241575,56370],[38188978848,365241583,56312],[38204667917,365241632,56241],[38220287848,365241719,56117],[38235810913,365241835,55880],[38251216576,365241974,55503],[38266492862,365242124,54995],[38281636985,365242276,54344],[38296655233,365242419,53639],[38311562190,365242543,52921],[38326379467,365242641,52308],[38341134109,365242708,51891],[38355856831,365242738,51705],[38370580168,365242731,51817],[38385336613,365242687,52216],[38400156749,365242608,52829],[38415067414,365242498,53550]]],[430,302,[[156768617721,365242373,109515],[156783719349,365242231,112775],[156798950805,365242080,114485],[156814312404,365241930,114330],[156829795339,365241792,112580],[156845382045,365241676,109657],[156861047297,365241591,106197],[156876759996,365241543,103055],[156892485457,365241536,101408],[156908188019,365241569,101733],[156923833737,365241642,106552],[156939392933,365241747,111098],[156954842376,365241878,114723],[156970166901,365242024,116264],[156985360309,365242175,115583],[157000425531,365242321,113335],[157015374079,365242453,109365],[157030224958,365242561,104472],[157045003184,365242640,99445],[157059738082,365242684,94089],[157074461471,365242691,91855],[157089205815,365242661,92459],[157104002367,365242595,97844],[157118879332,365242498,103487]]],[1252,520,[[456997852616,365242379,203964],[457012844768,365242256,213592],[457027955684,365242116,219483],[457043193787,365241967,222900],[457058558897,365241820,223014],[457074041926,365241685,220455],[457089625271,365241572,214990],[457105283927,365241490,207826],[457120987248,365241444,200254],[457136701211,365241438,195121],[457152390970,365241472,197389],[457168023487,365241544,208874],[457183570018,365241649,219070],[457199008217,365241778,226362],[457214323687,365241922,229246],[457229510830,365242070,226991],[457244572964,365242214,221881],[457259521766,365242342,214931],[457274376182,365242448,205146],[457289160962,365242524,194635],[457303904984,365242567,184472],[457318639473,365242573,177993],[457333396180,365242542,180703],[457348205564,365242476,192540]]],[2292,520,[[836849914621,365242348,204431],[836864796244,365242260,215823],[836879773464,365242145,224942],[836894863301,365242011,231049],[836910075516,365241867,234728],[836925411660,365241722,235372],[836940864661,365241587,234190],[836956419057,365241471,229415],[836972051938,365241383,222513],[836987734532,365241329,214894],[837003434311,365241314,207968],[837019117429,365241339,209789],[837034751282,365241401,220773],[837050306959,365241496,230677],[837065761379,365241617,237644],[837081098913,365241755,240314],[837096312356,365241900,238068],[837111403176,365242042,231973],[837126381112,365242172,226312],[837141263207,365242281,217533],[837156072456,365242363,207541],[837170836208,365242412,197407],[837185584454,365242426,190499],[837200348054,365242405,193217]]],[3332,520,[[1216701919332,365242268,207633],[1216716729982,365242221,218834],[1216731605712,365242142,229856],[1216746569752,365242035,239014],[1216761639891,365241909,245321],[1216776827129,365241770,248763],[1216792134670,365241628,250090],[1216807557408,365241493,250130],[1216823082017,365241375,246281],[1216838687724,365241283,239905],[1216854347716,365241222,231900],[1216870031092,365241198,224032],[1216885705173,365241213,224372],[1216901337965,365241265,234727],[1216916900579,365241351,244026],[1216932369369,365241463,250539],[1216947727613,365241594,253056],[1216962966588,365241734,250803],[1216978085956,365241874,244608],[1216993093502,365242004,239110],[1217008004308,365242116,231414],[1217022839521,365242202,222026],[1217037624851,365242258,212431],[1217052388929,365242281,205134]]],[4372,520,[[1596553814966,365242138,223082],[1596568598915,365242134,224764],[1596583413504,365242097,235760],[1596598285531,365242027,246359],[1596613238380,365241930,255438],[1596628290478,365241811,261977],[1596643453945,365241678,265487],[1596658733539,365241540,267682],[1596674126053,365241407,268792],[1596689620273,365241287,266083],[1596705197588,365241191,259837],[1596720833227,365241124,251731],[1596736498040,365241092,242964],[1596752160670,365241097,241615],[1596767789922,365241139,250722],[1596783357113,365241214,259552],[1596798838209,365241318,265659],[1596814215547,365241441,267581],[1596829478995,365241576,265057],[1596844626466,365241712,259200],[1596859663804,365241842,254225],[1596874604093,365241955,247146],[1596889466560,365242046,238269],[1596904275177,365242108,230380]]],[5412,520,[[1976405551573,365241964,251655],[1976420353243,365242001,243561],[1976435150664,365242006,244234],[1976449971543,365241977,255211],[1976464842222,365241917,265993],[1976479786088,365241830,274875],[1976494822062,365241719,281563],[1976509963244,365241593,284964],[1976525215829,365241460,287855],[1976540578427,365241329,290330],[1976556041903,365241209,288499],[1976571589824,365241109,282977],[1976587199527,365241037,274836],[1976602843731,365240997,265245],[1976618492551,365240993,262895],[1976634115760,365241025,270336],[1976649685066,365241090,277596],[1976665176222,365241183,282946],[1976680570783,365241298,284605],[1976695857334,365241427,281457],[1976711032128,365241559,275722],[1976726099101,365241687,271750],[1976741069338,365241802,265070],[1976755960098,365241896,257015]]],[6452,520,[[2356257087150,365241754,281605],[2356271946664,365241827,276394],[2356286769919,365241871,267684],[2356301582994,365241884,266534],[2356316412577,365241865,277629],[2356331284395,365241815,288266],[2356346221676,365241737,297152],[2356361243669,365241635,303935],[2356376364303,365241517,307198],[2356391591082,365241389,311123],[2356406924341,365241261,315079],[2356422356979,365241142,314289],[2356437874751,365241040,309406],[2356453457160,365240962,301203],[2356469078889,365240915,291118],[2356484711661,365240902,287015],[2356500326370,365240924,295633],[2356515895279,365240979,300431],[2356531394104,365241063,303403],[2356546803777,365241169,304093],[2356562111747,365241290,300444],[2356577312720,365241418,294863],[2356592408802,365241543,292040],[2356607409103,365241657,285999]]],[7492,520,[[2736108393328,365241525,315498],[2736123342498,365241623,311480],[2736138229236,365241700,304972],[2736153075735,365241750,295417],[2736167906585,365241771,292614],[2736182747303,365241761,303222],[2736197622836,365241721,313800],[2736212556071,365241653,322568],[2736227566409,365241561,329317],[2736242668445,365241451,332687],[2736257870860,365241329,337550],[2736273175620,365241205,343033],[2736288577606,365241087,343498],[2736304064760,365240984,339315],[2736319618792,365240902,331269],[2736335216430,365240849,320618],[2736350831109,365240828,316438],[2736366434972,365240840,324055],[2736382000986,365240884,330620],[2736397504984,365240958,332041],[2736412927442,365241055,329175],[2736428254840,365241168,322959],[2736443480477,365241290,316984],[2736458604745,365241412,317176]]]],"moon":[[0,500,0,420000000,5929988,29530586,1425615],[1236,1250,1000000000,1020000000,36505730587,29530574,1450338],[3710,3000,3000000000,2500000000,109564409024,29530587,1432247],[12368,6200,10000000000,5030000000,365240219700,29530584,1465817],[24737,6200,20000000000,5030000000,730503998053,29530581,1484702],[37105,6200,30000000000,5030000000,1095738203819,29530578,1510390],[49474,6200,40000000000,5030000000,1461001898167,29530574,1537947],[61842,6200,50000000000,5030000000,1826236020326,29530571,1568744],[74211,6200,60000000000,5030000000,2191499632200,29530568,1608701],[86579,6200,70000000000,5030000000,2556733673790,29530565,1655606],[98948,6200,80000000000,5030000000,2921997207757,29530562,1711186]],"exc":[[1966,[[-420,-12398],[-419,-12368]],[]],[1977,[[-285,-8411]],[]],[1985,[[-186,-5488]],[[-342,-5488]]],[1996,[[-50,-1471]],[]],[2004,[[50,1482],[51,1511]],[]],[2015,[[185,5469]],[]],[2023,[[285,8422],[286,8451]],[]],[2034,[[420,12409],[421,12438]],[]],[2042,[[520,15362],[521,15391]],[]],[2053,[[655,19348]],[]],[2061,[[756,22331]],[]],[2072,[[890,26287]],[]],[2080,[[990,29241],[991,29271]],[]],[2091,[[1125,33227]],[]],[2099,[[1225,36180],[1226,36210]],[]],[2110,[[1360,40167]],[]],[2118,[[1461,43149]],[]],[2121,[],[[2922,44185]]],[2129,[[1595,47107],[1596,47136]],[[3114,47106]]],[2137,[[1695,50060]],[[3310,50087]]],[2148,[[1830,54047],[1831,54076]],[[3572,54076]]],[2156,[],[[3764,56997]]],[2167,[[2065,60986]],[]],[2175,[[2166,63969]],[]],[2178,[[2201,65002]],[]],[2186,[[2301,67956],[2302,67985]],[]],[2194,[[2400,70879]],[]],[2205,[[2535,74865]],[]],[2216,[],[[5202,78883]]],[2224,[[2770,81805]],[[5394,81805]]],[2232,[],[[5590,84785]]],[2235,[[2906,85821]],[]],[2243,[[3005,88745],[3006,88774]],[[5852,88774]]],[2251,[[3105,91698]],[]],[2262,[[3241,95714],[3242,95744]],[]],[2273,[[3376,99701]],[]],[2281,[[3476,102654],[3477,102684]],[]],[2292,[[3611,106640]],[]],[2300,[[3711,109594],[3712,109623]],[]],[2311,[[3846,113580]],[]],[2319,[[3945,116503]],[[7674,116503]]],[2330,[[4081,120519]],[]],[2338,[[4181,123473],[4182,123502]],[]],[2349,[[4316,127459]],[]],[2357,[[4416,130412],[4417,130442]],[]],[2368,[[4551,134399]],[]],[2376,[[4651,137352],[4652,137381]],[[9046,137380]]],[2387,[[4786,141339]],[]],[2395,[[4886,144292],[4887,144321]],[]],[2406,[[5021,148279]],[]],[2414,[[5121,151232],[5122,151261]],[]],[2425,[[5256,155218]],[]],[2433,[[5356,158172],[5357,158201]],[]],[2444,[[5491,162157]],[]],[2452,[[5592,165141]],[]],[2463,[[5726,169097]],[]],[2471,[[5826,172050]],[[11326,172078]]],[2482,[[5961,176037]],[]],[2490,[[6061,178990],[6062,179020]],[]],[2501,[[6196,182977]],[]],[2509,[[6297,185959]],[]],[2512,[[6332,186993]],[]],[2520,[[6432,189947],[6433,189976]],[]],[2528,[[6531,192870]],[]],[2539,[[6667,196886],[6668,196916]],[[12956,196885]]],[2547,[[6767,199839]],[]],[2558,[[6901,203796]],[[13410,203796]]],[2566,[],[[13606,206776]]],[2569,[[7037,207812]],[]],[2577,[[7136,210735]],[]],[2585,[[7236,213689]],[]],[2596,[[7371,217675]],[]],[2607,[[7507,221692]],[]],[2615,[[7606,224615],[7607,224644]],[]],[2626,[[7742,228632]],[]],[2634,[[7842,231584],[7843,231614]],[[15236,231583]]],[2642,[],[[15428,234505]]],[2653,[[8077,238524],[8078,238554]],[]],[2664,[[8212,242510]],[]],[2672,[[8312,245464],[8313,245494]],[]],[2683,[[8447,249450]],[]],[2691,[[8547,252403],[8548,252433]],[]],[2702,[[8682,256390]],[]],[2710,[[8782,259343],[8783,259372]],[[17062,259371]]],[2721,[[8917,263330]],[]],[2729,[[9016,266253],[9017,266282]],[[17516,266282]]],[2740,[[9152,270270]],[]],[2748,[[9252,273222],[9253,273252]],[]],[2759,[[9387,277209]],[]],[2767,[[9487,280162],[9488,280192]],[]],[2778,[[9622,284149]],[]],[2786,[[9722,287102],[9723,287132]],[]],[2797,[[9857,291088]],[]],[2805,[[9957,294042]],[[19342,294069]]],[2816,[[10092,298028]],[]],[2824,[[10192,300981],[10193,301011]],[]],[2835,[[10327,304967]],[]],[2843,[[10427,307920],[10428,307950]],[]],[2854,[[10562,311907]],[]],[2862,[[10662,314860]],[]],[2873,[[10797,318847]],[]],[2881,[[10898,321830]],[[21164,321798]]],[2884,[],[[21234,322865]]],[2892,[[11032,325787]],[[21426,325787]]],[2900,[[11132,328740],[11133,328770]],[]],[2911,[[11267,332727],[11268,332756]],[]],[2919,[[11367,335680]],[]],[2930,[[11502,339666]],[]],[2938,[[11603,342649]],[]],[2941,[[11638,343682]],[]],[2949,[[11737,346605]],[]],[2957,[],[[22990,349586]]],[2960,[[11873,350622]],[]],[2968,[[11972,353545]],[]],[2976,[],[[23444,356496]]],[2979,[],[[23514,357563]]],[2987,[[12207,360485]],[[23706,360485]]],[2995,[[12308,363468]],[]],[2998,[[12343,364502]],[]],[3006,[[12443,367455],[12444,367484]],[]],[3017,[[12578,371441]],[]],[3025,[[12678,374395],[12679,374424]],[]],[3036,[[12813,378381]],[]],[3044,[[12913,381334],[12914,381364]],[]],[3052,[],[[25270,384284]]],[3055,[[13048,385320]],[]],[3063,[[13147,388244],[13148,388273]],[[25532,388273]]],[3074,[[13283,392260]],[]],[3082,[[13382,395183]],[[25986,395183]]],[3093,[[13518,399200]],[]],[3101,[[13618,402153],[13619,402182]],[]],[3112,[[13753,406140]],[]],[3120,[[13853,409093],[13854,409122]],[]],[3131,[[13988,413080]],[[27162,413080]]],[3139,[[14088,416033],[14089,416062]],[]],[3150,[[14223,420019]],[]],[3158,[[14323,422972],[14324,423002]],[]],[3169,[[14458,426958]],[]],[3177,[[14558,429912],[14559,429942]],[]],[3188,[[14693,433898]],[]],[3196,[[14793,436851],[14794,436881]],[]],[3207,[[14928,440838]],[]],[3215,[[15029,443820]],[[29180,443789]]],[3218,[],[[29250,444856]]],[3226,[[15163,447778]],[[29442,447778]]],[3234,[[15263,450730],[15264,450760]],[]],[3245,[[15398,454718],[15399,454747]],[]],[3253,[[15498,457670]],[]],[3264,[[15633,461657]],[]],[3272,[[15734,464640]],[]],[3275,[[15769,465673]],[]],[3283,[[15869,468627],[15870,468656]],[[30814,468655]]],[3291,[[15968,471550]],[[31006,471577]]],[3302,[[16103,475536]],[]],[3310,[],[[31460,478487]]],[3313,[],[[31530,479554]]],[3321,[[16338,482476]],[[31722,482476]]],[3329,[[16439,485459]],[]],[3332,[[16474,486492]],[]],[3340,[[16573,489416],[16574,489445]],[]],[3348,[[16673,492368]],[]],[3359,[[16808,496356],[16809,496385],[16810,496414]],[[32636,496384]]],[3370,[[16944,500372]],[]],[3378,[[17044,503325],[17045,503355]],[]],[3386,[],[[33286,506275]]],[3389,[[17179,507311]],[]],[3397,[[17279,510265],[17280,510294]],[]],[3405,[[17378,513188]],[]],[3408,[[17414,514251]],[]],[3416,[[17513,517174]],[[34002,517174]]],[3427,[[17649,521190]],[]],[3435,[[17749,524144],[17750,524173]],[]],[3446,[[17884,528130]],[]],[3454,[[17983,531053]],[]],[3465,[[18119,535070]],[]],[3473,[[18218,537993],[18219,538023],[18220,538052]],[[35370,537992],[35374,538052]]],[3484,[[18354,542010]],[]],[3492,[[18454,544963],[18455,544992]],[]],[3503,[[18589,548950]],[]],[3511,[[18689,551903],[18690,551932]],[]],[3522,[[18824,555889]],[]],[3530,[[18924,558843],[18925,558872]],[]],[3541,[[19059,562828]],[]],[3549,[[19159,565782],[19160,565812]],[]],[3552,[],[[37266,566847]]],[3560,[[19294,569768]],[]],[3568,[[19394,572721],[19395,572751]],[]],[3579,[[19529,576708]],[]],[3587,[[19629,579661],[19630,579690]],[]],[3598,[[19764,583648]],[]],[3606,[[19864,586601],[19865,586630]],[]],[3609,[[19900,587664]],[]],[3617,[[19999,590588],[20000,590617]],[[38826,590587]]],[3625,[[20099,593541]],[[39022,593568]]],[3636,[[20234,597527]],[]],[3644,[[20335,600510]],[[39476,600478]]],[3647,[],[[39546,601545]]],[3655,[[20469,604467]],[[39738,604467]]],[3663,[[20570,607450]],[]],[3666,[[20605,608483]],[]],[3674,[[20704,611406]],[]],[3682,[[20804,614360]],[]],[3693,[[20939,618346]],[]],[3701,[[21040,621329]],[[40844,621297]]],[3704,[[21075,622363]],[]],[3712,[[21174,625286],[21175,625315]],[[41106,625285]]],[3720,[],[[41302,628266]]],[3723,[[21310,629302]],[]],[3731,[[21409,632226],[21410,632255]],[[41564,632255]]],[3739,[[21509,635179]],[]],[3742,[],[[41826,636243]]],[3750,[[21645,639195],[21646,639225]],[]],[3761,[[21780,643181]],[]],[3769,[[21880,646135],[21881,646165]],[]],[3780,[[22015,650121]],[]],[3788,[[22115,653074],[22116,653104]],[[42932,653073]]],[3796,[],[[43124,655995]]],[3799,[[22250,657060]],[]],[3807,[[22349,659984],[22350,660014],[22351,660043]],[[43386,659983],[43390,660043]]],[3818,[[22485,664000]],[]],[3826,[[22584,666924],[22585,666953]],[[43844,666953]]],[3837,[[22720,670940]],[]],[3845,[[22820,673893],[22821,673923]],[]],[3856,[[22955,677880]],[]],[3864,[[23055,680833],[23056,680863]],[]],[3875,[[23190,684820]],[]],[3883,[[23290,687773],[23291,687803]],[]],[3894,[[23425,691759]],[]],[3902,[[23525,694713],[23526,694742]],[]],[3913,[[23660,698699]],[]],[3921,[[23760,701652],[23761,701682]],[]],[3932,[[23895,705638]],[]],[3940,[[23995,708591],[23996,708621]],[]],[3951,[[24130,712578]],[]],[3959,[[24230,715531]],[[47038,715559]]],[3970,[[24365,719518]],[]],[3978,[[24466,722500]],[[47492,722469]]],[3981,[],[[47562,723536]]],[3989,[[24600,726458],[24601,726488],[24602,726517]],[[47754,726457],[47758,726517]]],[3997,[[24700,729411],[24701,729440]],[]],[4008,[[24835,733398],[24836,733427]],[]],[4016,[[24935,736351]],[]],[4027,[[25070,740337]],[[48666,740337]]],[4035,[[25171,743320]],[]],[4038,[[25206,744353]],[]],[4046,[[25305,747276]],[]],[4054,[[25405,750230]],[[49318,750257]]],[4057,[[25441,751293]],[]],[4065,[[25540,754216]],[]],[4073,[],[[49772,757167]]],[4076,[],[[49842,758234]]],[4084,[[25775,761156]],[[50034,761156]]],[4092,[[25876,764138]],[]],[4095,[[25911,765173]],[]],[4103,[[26011,768126],[26012,768155]],[]],[4114,[[26146,772112]],[]],[4122,[[26246,775065],[26247,775095]],[[50948,775064]]],[4130,[],[[51140,777986]]],[4133,[[26381,779052]],[]],[4141,[[26481,782005],[26482,782035]],[]],[4149,[],[[51598,784955]]],[4152,[[26616,785991]],[]],[4160,[[26715,788915],[26716,788944]],[[51860,788944]]],[4171,[[26851,792931]],[]],[4179,[[26950,795854]],[[52314,795854]]],[4190,[[27086,799871]],[]],[4198,[[27185,802794],[27186,802823]],[]],[4209,[[27321,806811]],[]],[4217,[[27421,809763],[27422,809793]],[[53228,809762]]],[4228,[[27556,813750]],[]],[4236,[[27656,816703],[27657,816733]],[]],[4247,[[27791,820690]],[]],[4255,[[27891,823643],[27892,823673]],[]],[4258,[],[[54210,824708]]],[4266,[[28026,827629]],[]],[4274,[[28126,830583],[28127,830613]],[]],[4285,[[28261,834569]],[]],[4293,[[28361,837522],[28362,837552]],[]],[4304,[[28496,841509]],[]],[4312,[[28597,844491]],[[55508,844460]]],[4315,[[28632,845525]],[]],[4323,[[28731,848449],[28732,848478]],[[55770,848448]]],[4331,[[28831,851401],[28832,851431]],[]],[4342,[[28966,855389],[28967,855418]],[[56228,855418]]],[4350,[[29066,858341],[29067,858371]],[]],[4353,[],[[56490,859406]]],[4361,[[29201,862328]],[[56682,862328]]],[4369,[[29302,865311]],[]],[4372,[[29337,866344]],[]],[4380,[[29436,869268],[29437,869297]],[]],[4388,[[29536,872221]],[[57334,872248]]],[4399,[[29671,876207]],[]],[4407,[[29772,879190]],[[57788,879158]]],[4410,[[29807,880223]],[]],[4418,[[29906,883147],[29907,883176]],[[58050,883146]]],[4426,[[30007,886130]],[]],[4429,[[30042,887163]],[]],[4437,[[30141,890086]],[]],[4445,[[30241,893039]],[]],[4448,[],[[58770,894104]]],[4456,[[30376,897026]],[[58962,897026]]],[4467,[[30512,901043]],[]],[4475,[[30612,903996],[30613,904025]],[[59422,904024]]],[4483,[],[[59614,906946]]],[4486,[[30747,907982]],[]],[4494,[[30847,910936],[30848,910965]],[]],[4502,[],[[60068,913856]]],[4505,[[30982,914922]],[]],[4513,[[31082,917875],[31083,917905]],[]],[4524,[[31217,921861]],[]],[4532,[[31316,924785],[31317,924814]],[]],[4543,[[31452,928801]],[]],[4551,[[31551,931724]],[[61242,931724]]],[4562,[[31687,935741]],[]],[4570,[[31787,938694],[31788,938723]],[[61702,938722]]],[4581,[[31922,942681]],[]],[4589,[[32022,945634],[32023,945663]],[]],[4600,[[32157,949621],[32158,949650]],[[62418,949620]]],[4608,[[32257,952574],[32258,952603]],[]],[4619,[[32392,956560]],[]],[4627,[[32492,959513],[32493,959543]],[]],[4638,[[32627,963499]],[]],[4646,[[32727,966453],[32728,966483]],[]],[4657,[[32862,970439]],[]],[4665,[[32962,973392]],[[63982,973420]]],[4676,[[33097,977379]],[]],[4684,[[33197,980332],[33198,980361]],[]],[4687,[],[[64506,981397]]],[4695,[[33332,984319],[33333,984348]],[[64698,984318]]],[4703,[[33432,987272],[33433,987301]],[]],[4706,[[33468,988335]],[]],[4714,[[33567,991259],[33568,991288]],[]],[4722,[[33667,994212]],[[65350,994239]]],[4733,[[33802,998198]],[[65610,998198]]],[4741,[[33903,1001181]],[[65804,1001149]]],[4744,[[33938,1002214]],[]],[4752,[[34037,1005138],[34038,1005168],[34039,1005197]],[[66066,1005137],[66070,1005197]]],[4760,[[34137,1008091],[34138,1008121]],[]],[4763,[[34173,1009153]],[]],[4771,[[34272,1012077]],[]],[4779,[[34372,1015031]],[]],[4782,[],[[66786,1016095]]],[4790,[[34507,1019017],[34508,1019046]],[[66978,1019016]]],[4798,[[34608,1022000]],[]],[4801,[[34643,1023033]],[]],[4809,[[34742,1025957],[34743,1025986]],[]],[4817,[[34842,1028910]],[[67630,1028937]]],[4820,[[34878,1029973]],[]],[4828,[[34978,1032926],[34979,1032956]],[[67892,1032925]]],[4836,[],[[68084,1035847]]],[4839,[[35113,1036913]],[]],[4847,[[35213,1039866],[35214,1039896]],[]],[4855,[[35313,1042819]],[]],[4858,[[35348,1043852]],[]],[4866,[[35448,1046806],[35449,1046835]],[]],[4877,[[35583,1050792]],[]],[4885,[[35683,1053745],[35684,1053775]],[[69260,1053744]]],[4896,[[35818,1057731]],[]],[4904,[[35918,1060685],[35919,1060714]],[[69718,1060713]]],[4912,[],[[69910,1063635]]],[4915,[[36053,1064671]],[]],[4923,[[36153,1067624],[36154,1067654]],[[70172,1067623]]],[4934,[[36288,1071611]],[]],[4942,[[36387,1074535],[36388,1074564],[36389,1074593]],[[70630,1074593]]],[4953,[[36523,1078551]],[]],[4961,[[36623,1081504],[36624,1081533]],[]],[4964,[],[[71154,1082569]]],[4972,[[36758,1085491],[36759,1085520]],[[71346,1085490]]],[4980,[[36858,1088444],[36859,1088473]],[]],[4991,[[36993,1092430]],[]],[4999,[[37093,1095384],[37094,1095413]],[]],[5010,[[37228,1099369]],[]],[5018,[[37329,1102353]],[[72452,1102321]]],[5021,[[37364,1103386]],[]],[5029,[[37463,1106309]],[]],[5037,[[37563,1109262],[37564,1109292]],[]],[5048,[[37698,1113249]],[]],[5056,[[37798,1116202],[37799,1116232]],[]],[5059,[],[[73434,1117267]]],[5067,[[37933,1120189],[37934,1120219],[37935,1120248]],[[73626,1120188],[73628,1120218]]],[5075,[[38034,1123171]],[[73820,1123140]]],[5078,[[38069,1124205]],[]],[5086,[[38168,1127129],[38169,1127158]],[]],[5094,[[38268,1130082]],[[74278,1130109]]],[5105,[[38403,1134069],[38404,1134098]],[[74540,1134098]]],[5113,[[38504,1137051]],[[74732,1137019]]],[5116,[[38539,1138084]],[]],[5124,[[38638,1141008],[38639,1141038],[38640,1141067]],[[74994,1141007]]],[5132,[[38739,1143991]],[]],[5135,[[38774,1145024]],[]],[5143,[[38873,1147947]],[]],[5151,[[38973,1150901]],[]],[5154,[],[[75714,1151965]]],[5162,[[39108,1154887],[39109,1154916]],[[75906,1154886]]],[5170,[],[[76100,1157838]]],[5173,[[39244,1158904]],[]],[5181,[[39343,1161827],[39344,1161856]],[]],[5189,[],[[76558,1164807]]],[5192,[[39479,1165844]],[[76626,1165844]]],[5200,[[39578,1168767],[39579,1168796]],[[76820,1168796]]],[5208,[],[[77012,1171717]]],[5211,[[39714,1172783]],[]],[5219,[[39814,1175736],[39815,1175766]],[]],[5230,[[39949,1179722]],[]],[5238,[[40049,1182676],[40050,1182706]],[]],[5246,[],[[77926,1185626]]],[5249,[[40184,1186662]],[]],[5257,[[40284,1189615],[40285,1189645]],[[78188,1189614]]],[5265,[],[[78380,1192536]]],[5268,[[40419,1193602]],[]],[5276,[[40518,1196525],[40519,1196555],[40520,1196584]],[[78646,1196584]]],[5287,[[40654,1200541]],[]],[5295,[[40753,1203465],[40754,1203494]],[[79100,1203494]]],[5306,[[40889,1207482],[40890,1207511]],[[79362,1207481]]],[5314,[[40989,1210434],[40990,1210464]],[]],[5325,[[41124,1214421]],[]],[5333,[[41224,1217374],[41225,1217404]],[]],[5336,[],[[80082,1218439]]],[5344,[[41359,1221361],[41360,1221391],[41361,1221420]],[[80274,1221360],[80276,1221390]]],[5352,[[41459,1224314],[41460,1224344]],[]],[5363,[[41594,1228300]],[]],[5371,[[41694,1231254],[41695,1231283]],[]],[5382,[[41829,1235240]],[[81186,1235240]]],[5390,[[41929,1238193],[41930,1238223]],[]],[5393,[[41965,1239256]],[]],[5401,[[42064,1242179]],[]],[5409,[[42164,1245132],[42165,1245162]],[]],[5412,[[42200,1246196]],[]],[5420,[[42299,1249119]],[]],[5428,[[42399,1252072]],[[82294,1252100]]],[5431,[],[[82362,1253137]]],[5439,[[42534,1256059],[42535,1256089],[42536,1256118]],[[82554,1256058],[82556,1256088]]],[5447,[[42635,1259042]],[[82748,1259010]]],[5450,[[42670,1260076]],[]],[5458,[[42769,1262999],[42770,1263029],[42771,1263058]],[[83014,1263058]]],[5466,[[42869,1265952],[42870,1265982]],[]],[5469,[[42905,1267015]],[]],[5477,[[43004,1269939],[43005,1269968]],[[83468,1269968]]],[5485,[[43104,1272892]],[]],[5488,[[43140,1273954]],[]],[5496,[[43239,1276878],[43240,1276908],[43241,1276937]],[]],[5504,[[43340,1279861]],[]],[5507,[[43375,1280894]],[]],[5515,[[43474,1283817]],[]],[5523,[[43574,1286771]],[[84574,1286798]]],[5526,[[43610,1287834]],[]],[5534,[[43709,1290757],[43710,1290787],[43711,1290816]],[[84834,1290756],[84836,1290786]]],[5542,[],[[85028,1293708]]],[5545,[[43845,1294774]],[]],[5553,[[43944,1297697],[43945,1297727],[43946,1297756]],[[85294,1297756]]],[5561,[[44045,1300679]],[]],[5564,[[44080,1301714]],[[85554,1301714]]],[5572,[[44180,1304667],[44181,1304696]],[]],[5583,[[44315,1308653]],[]],[5591,[[44415,1311607],[44416,1311636]],[]],[5602,[[44550,1315593]],[]],[5610,[[44650,1318546],[44651,1318576]],[]],[5613,[],[[86730,1319611]]],[5618,[],[[86854,1321496]]],[5621,[[44785,1322532]],[]],[5629,[[44885,1325485],[44886,1325515]],[[87116,1325484]]],[5640,[[45020,1329472]],[]],[5648,[[45120,1332425],[45121,1332455]],[]],[5651,[],[[87642,1333490]]],[5659,[[45255,1336412]],[[87834,1336412]]],[5667,[[45355,1339365],[45356,1339394]],[]],[5670,[[45391,1340428]],[]],[5678,[[45490,1343352],[45491,1343381]],[[88290,1343351]]],[5686,[[45590,1346304],[45591,1346334]],[]],[5697,[[45725,1350292],[45726,1350321]],[]],[5705,[[45825,1353244],[45826,1353274]],[]],[5708,[],[[89010,1354309]]],[5716,[[45960,1357231],[45961,1357261],[45962,1357290]],[[89202,1357230],[89204,1357260]]],[5724,[[46060,1360184],[46061,1360214]],[]],[5727,[[46096,1361247]],[]],[5735,[[46195,1364170]],[]],[5743,[[46295,1367124],[46296,1367154]],[]],[5746,[],[[89922,1368188]]],[5754,[[46430,1371110]],[[90114,1371110]]],[5762,[[46530,1374063],[46531,1374093]],[]],[5765,[[46566,1375126]],[]],[5773,[[46665,1378050],[46666,1378079]],[]],[5781,[[46766,1381032]],[]],[5784,[[46801,1382066]],[]],[5792,[[46900,1384990],[46901,1385019]],[]],[5800,[[47000,1387942]],[[91222,1387970]]],[5803,[[47036,1389006]],[]],[5811,[[47135,1391930],[47136,1391959],[47137,1391988]],[[91484,1391958]]],[5819,[[47236,1394912]],[[91676,1394880]]],[5822,[[47271,1395946]],[]],[5830,[[47370,1398869],[47371,1398899],[47372,1398928]],[]],[5838,[[47471,1401852]],[]],[5841,[[47506,1402885]],[]],[5849,[[47605,1405809],[47606,1405838]],[[92396,1405838]]],[5857,[[47705,1408762]],[[92590,1408789]]],[5860,[[47741,1409824]],[]],[5868,[[47841,1412778],[47842,1412808]],[[92852,1412777]]],[5876,[[47941,1415731]],[]],[5879,[[47976,1416764]],[]],[5887,[[48075,1419688],[48076,1419717]],[]],[5895,[],[[93502,1422668]]],[5898,[[48211,1423704]],[]],[5906,[[48310,1426627],[48311,1426657],[48312,1426686]],[[93762,1426626],[93764,1426656]]],[5914,[],[[93956,1429578]]],[5917,[[48446,1430644]],[]],[5925,[[48545,1433567],[48546,1433597],[48547,1433626]],[]],[5928,[],[[94290,1434662]]],[5936,[[48681,1437584]],[[94482,1437584]]],[5944,[[48781,1440537],[48782,1440566]],[[94678,1440565]]],[5952,[],[[94870,1443487]]],[5955,[[48916,1444523]],[]],[5963,[[49016,1447477],[49017,1447506]],[]],[5974,[[49151,1451463]],[]],[5982,[[49251,1454416],[49252,1454446]],[]],[5985,[[49287,1455479]],[]],[5993,[[49386,1458402]],[]],[6001,[[49486,1461355],[49487,1461385]],[[96044,1461354]]],[6012,[[49621,1465342]],[]],[6020,[[49721,1468295],[49722,1468325]],[]],[6023,[],[[96570,1469360]]],[6031,[[49856,1472282]],[[96762,1472282]]],[6039,[[49956,1475235],[49957,1475264]],[[96958,1475263]]],[6042,[[49992,1476298]],[]],[6050,[[50091,1479222],[50092,1479251]],[]],[6058,[[50191,1482175],[50192,1482204]],[]],[6069,[[50326,1486162],[50327,1486191]],[]],[6077,[[50426,1489115],[50427,1489144]],[]],[6080,[[50462,1490177]],[]],[6088,[[50562,1493131],[50563,1493161]],[[98132,1493130]]],[6096,[[50662,1496084]],[[98324,1496052]]],[6099,[[50697,1497117]],[]],[6107,[[50796,1500040]],[]],[6115,[[50896,1502994],[50897,1503024]],[]],[6118,[[50932,1504057]],[]],[6126,[[51031,1506980]],[[99042,1506980]]],[6134,[[51131,1509933]],[[99238,1509961]]],[6137,[[51167,1510997]],[]],[6145,[[51266,1513920],[51267,1513949]],[]],[6153,[[51367,1516902]],[]],[6156,[[51402,1517937]],[]],[6164,[[51501,1520860],[51502,1520889]],[]],[6172,[[51601,1523813],[51602,1523842]],[]],[6175,[[51637,1524876]],[]],[6183,[[51737,1527829],[51738,1527859]],[[100412,1527828]]],[6191,[],[[100604,1530750]]],[6194,[[51872,1531816]],[]],[6202,[[51972,1534769],[51973,1534799]],[]],[6210,[[52072,1537722]],[]],[6213,[[52107,1538755]],[]],[6221,[[52207,1541709],[52208,1541738]],[[101326,1541737]]],[6229,[[52306,1544632]],[[101518,1544659]]],[6232,[[52342,1545695]],[]],[6240,[[52442,1548648],[52443,1548678]],[]],[6251,[[52577,1552634]],[]],[6259,[[52676,1555558],[52677,1555587]],[]],[6267,[[52777,1558541]],[]],[6270,[[52812,1559574]],[]],[6278,[[52912,1562527],[52913,1562557]],[[102692,1562526]]],[6289,[[53047,1566514]],[]],[6297,[[53147,1569467],[53148,1569497]],[]],[6300,[],[[103218,1570532]]],[6308,[[53282,1573454]],[[103410,1573454]]],[6316,[[53382,1576407],[53383,1576437]],[]],[6319,[[53418,1577470]],[]],[6324,[],[[103798,1579357]]],[6327,[[53517,1580393]],[]],[6335,[[53617,1583347],[53618,1583376]],[]],[6346,[[53752,1587333]],[[104322,1587333]]],[6354,[[53852,1590286],[53853,1590316]],[]],[6357,[[53888,1591349]],[]],[6365,[[53987,1594272]],[]],[6373,[[54087,1597226],[54088,1597255]],[]],[6376,[[54123,1598289]],[]],[6384,[[54222,1601212]],[]],[6392,[[54322,1604165],[54323,1604195]],[]],[6395,[],[[105498,1605230]]],[6403,[[54457,1608152],[54458,1608182]],[[105690,1608151],[105692,1608182]]],[6411,[[54557,1611105],[54558,1611134]],[[105886,1611133]]],[6414,[[54593,1612169]],[]],[6422,[[54692,1615092],[54693,1615122],[54694,1615151]],[[106148,1615121]]],[6430,[[54792,1618045],[54793,1618074]],[]],[6433,[[54828,1619108]],[]],[6441,[[54927,1622032],[54928,1622061]],[]],[6449,[[55027,1624985],[55028,1625014]],[]],[6452,[[55063,1626047]],[]],[6460,[[55163,1629001],[55164,1629031]],[[107060,1629000],[107062,1629030]]],[6468,[[55263,1631954]],[[107252,1631922]]],[6471,[[55298,1632987]],[]],[6479,[[55397,1635910]],[]],[6487,[[55498,1638894]],[]],[6490,[[55533,1639927]],[]],[6498,[[55632,1642850],[55633,1642880]],[[107970,1642849],[107972,1642880]]],[6506,[[55732,1645803]],[[108166,1645831]]],[6509,[[55768,1646867]],[]],[6517,[[55867,1649790],[55868,1649819]],[]],[6520,[],[[108498,1650885]]],[6525,[[55968,1652772]],[]],[6528,[[56003,1653807]],[[108690,1653807]]],[6536,[[56102,1656730],[56103,1656760],[56104,1656789]],[[108886,1656789]]],[6544,[[56203,1659712]],[]],[6547,[[56238,1660746]],[]],[6555,[[56338,1663699],[56339,1663729]],[[109340,1663698]]],[6563,[],[[109532,1666620]]],[6566,[[56473,1667686]],[]],[6574,[[56573,1670639],[56574,1670669]],[]],[6577,[[56609,1671701]],[]],[6582,[[56673,1673592]],[]],[6585,[[56708,1674625]],[]],[6593,[[56808,1677579],[56809,1677608]],[[110254,1677607]]],[6601,[],[[110446,1680529]]],[6604,[[56943,1681565]],[]],[6612,[[57043,1684518],[57044,1684548]],[]],[6615,[],[[110778,1685583]]],[6623,[[57178,1688505]],[[110970,1688505]]],[6631,[[57277,1691428],[57278,1691457]],[]],[6634,[[57314,1692521]],[]],[6639,[[57378,1694411]],[]],[6642,[[57413,1695445],[57414,1695474]],[]],[6650,[[57513,1698397],[57514,1698427]],[[111620,1698396]]],[6661,[[57648,1702385],[57649,1702414]],[]],[6669,[[57748,1705337],[57749,1705367]],[]],[6672,[[57784,1706400]],[]],[6680,[[57883,1709324],[57884,1709354]],[[112338,1709323],[112340,1709354]]],[6688,[[57983,1712277],[57984,1712307]],[]],[6691,[[58019,1713340]],[]],[6699,[[58118,1716263]],[]],[6707,[[58218,1719217],[58219,1719247]],[]],[6710,[],[[113058,1720281]]],[6718,[[58353,1723203]],[[113250,1723203]]],[6726,[[58453,1726156],[58454,1726186]],[]],[6729,[[58489,1727219]],[]],[6737,[[58588,1730143],[58589,1730172]],[]],[6745,[[58689,1733125]],[[113900,1733094]]],[6748,[[58724,1734159]],[]],[6756,[[58823,1737082]],[[114162,1737082]]],[6764,[[58923,1740035],[58924,1740065]],[]],[6767,[[58959,1741099]],[]],[6775,[[59058,1744022],[59059,1744052]],[[114618,1744021],[114620,1744052]]],[6783,[[59158,1746975],[59159,1747005]],[]],[6786,[[59194,1748039]],[]],[6794,[[59293,1750962],[59294,1750992],[59295,1751021]],[]],[6802,[[59394,1753945]],[]],[6805,[[59429,1754978]],[]],[6813,[[59528,1757902],[59529,1757932],[59530,1757961]],[[115534,1757961]]],[6821,[[59628,1760855],[59629,1760885]],[]],[6824,[[59664,1761917]],[]],[6832,[[59764,1764871],[59765,1764901]],[[115988,1764870],[115990,1764900]]],[6840,[[59864,1767824]],[[116180,1767792]]],[6843,[[59899,1768857]],[]],[6851,[[59998,1771781],[59999,1771810]],[]],[6859,[[60099,1774764]],[]],[6862,[[60134,1775797]],[]],[6870,[[60233,1778720],[60234,1778750]],[[116898,1778719],[116900,1778750]]],[6878,[[60333,1781673]],[[117094,1781701]]],[6881,[[60369,1782737]],[]],[6889,[[60468,1785660],[60469,1785690],[60470,1785719]],[]],[6892,[],[[117426,1786755]]],[6900,[[60604,1789677],[60605,1789706]],[[117618,1789676]]],[6908,[[60704,1792630],[60705,1792659]],[[117810,1792598],[117814,1792659]]],[6916,[[60804,1795582]],[]],[6919,[[60839,1796617],[60840,1796646]],[]],[6927,[[60939,1799570],[60940,1799599]],[[118270,1799598]]],[6930,[],[[118338,1800634]]],[6935,[],[[118460,1802490]]],[6938,[[61074,1803556]],[[118530,1803556]]],[6946,[[61174,1806509],[61175,1806539]],[]],[6949,[[61210,1807572]],[]],[6957,[[61309,1810495]],[]],[6965,[[61409,1813449],[61410,1813478]],[[119182,1813477]]],[6973,[],[[119374,1816399]]],[6976,[[61544,1817435]],[]],[6984,[[61644,1820388],[61645,1820418]],[]],[6987,[[61680,1821452]],[]],[6995,[[61779,1824375],[61780,1824404]],[[119898,1824374]]],[7003,[[61879,1827328],[61880,1827357]],[[120090,1827296],[120094,1827357]]],[7006,[[61915,1828391]],[]],[7014,[[62014,1831315],[62015,1831344]],[]],[7022,[[62114,1834268],[62115,1834297]],[[120550,1834296]]],[7025,[[62150,1835331]],[]],[7033,[[62249,1838255],[62250,1838284]],[]],[7041,[[62349,1841208],[62350,1841237]],[]],[7044,[[62385,1842270]],[]],[7052,[[62484,1845194],[62485,1845224]],[[121268,1845224]]],[7060,[[62585,1848177]],[[121460,1848145]]],[7063,[[62620,1849210]],[]],[7071,[[62719,1852134],[62720,1852163]],[]],[7079,[[62819,1855087],[62820,1855117]],[]],[7082,[[62855,1856149]],[]],[7090,[[62954,1859073],[62955,1859103]],[[122178,1859072],[122180,1859103]]],[7098,[[63054,1862026],[63055,1862056]],[]],[7101,[[63090,1863089]],[]],[7109,[[63189,1866013],[63190,1866042]],[]],[7117,[[63290,1868995]],[[122828,1868964],[122830,1868994]]],[7120,[[63325,1870029]],[]],[7128,[[63424,1872953],[63425,1872982]],[]],[7136,[[63524,1875905],[63525,1875935]],[]],[7139,[[63560,1876969]],[]],[7147,[[63659,1879893],[63660,1879922]],[[123548,1879922]]],[7155,[],[[123740,1882843],[123742,1882873]]],[7158,[[63795,1883909]],[[123810,1883909]]],[7166,[[63895,1886862],[63896,1886892]],[]],[7174,[[63995,1889815]],[]],[7177,[[64030,1890848]],[]],[7185,[[64129,1893772],[64130,1893802],[64131,1893831]],[[124462,1893831]]],[7193,[[64229,1896725],[64230,1896755]],[]],[7196,[[64265,1897788]],[]],[7204,[[64365,1900741],[64366,1900771]],[[124916,1900740],[124918,1900770]]],[7207,[],[[124986,1901806]]],[7215,[[64500,1904727]],[]],[7223,[[64600,1907680]],[[125370,1907649]]],[7226,[[64636,1908744]],[]],[7231,[[64700,1910634]],[]],[7234,[[64735,1911667]],[]],[7242,[[64835,1914620],[64836,1914650]],[[125828,1914619],[125830,1914649]]],[7245,[],[[125898,1915685]]],[7250,[],[[126020,1917541],[126022,1917571]]],[7253,[[64970,1918607]],[[126090,1918607]]],[7261,[[65069,1921531],[65070,1921560],[65071,1921589]],[]],[7264,[[65106,1922623]],[]],[7272,[[65205,1925547],[65206,1925577]],[[126546,1925546],[126548,1925577]]],[7280,[[65305,1928500],[65306,1928529]],[[126738,1928468],[126742,1928529]]],[7283,[[65341,1929563]],[]],[7288,[[65405,1931453]],[]],[7291,[[65440,1932487],[65441,1932516]],[]],[7299,[[65540,1935440],[65541,1935469]],[[127198,1935468]]],[7302,[],[[127266,1936504]]],[7310,[[65675,1939426],[65676,1939456]],[[127458,1939425]]],[7318,[[65775,1942379],[65776,1942409]],[]],[7321,[[65811,1943442]],[]],[7329,[[65910,1946365]],[]],[7337,[[66010,1949319],[66011,1949348]],[[128110,1949347]]],[7340,[[66046,1950382]],[]],[7345,[],[[128302,1952269]]],[7348,[[66145,1953305]],[[128370,1953305]]],[7356,[[66245,1956258],[66246,1956288]],[]],[7359,[[66281,1957322]],[]],[7367,[[66380,1960245],[66381,1960274]],[]],[7375,[[66480,1963198],[66481,1963227]],[[129022,1963227]]],[7378,[[66516,1964262]],[]],[7386,[[66615,1967185],[66616,1967214]],[]],[7394,[[66715,1970138],[66716,1970167]],[]],[7397,[[66751,1971201]],[]],[7405,[[66850,1974125],[66851,1974154]],[]],[7413,[[66950,1977078],[66951,1977107]],[]],[7416,[[66986,1978141]],[]],[7424,[[67086,1981094],[67087,1981124]],[[130196,1981093],[130198,1981123]]],[7427,[],[[130266,1982159]]],[7432,[[67186,1984047]],[[130388,1984015]]],[7435,[[67221,1985080]],[]],[7443,[[67320,1988004],[67321,1988033]],[]],[7451,[[67420,1990957],[67421,1990987]],[]],[7454,[[67456,1992020]],[]],[7462,[[67555,1994943],[67556,1994973]],[[131108,1994973]]],[7470,[[67655,1997896],[67656,1997926]],[]],[7473,[[67691,1998960]],[]],[7481,[[67790,2001883],[67791,2001912]],[]],[7484,[[67827,2002976]],[]],[7489,[[67891,2004866]],[]],[7492,[[67926,2005900],[67927,2005929]],[[131826,2005899]]],[7500,[[68025,2008823],[68026,2008852]],[]],[7508,[[68125,2011776],[68126,2011805]],[]],[7511,[[68161,2012839]],[]],[7519,[[68261,2015792],[68262,2015822]],[[132476,2015791],[132478,2015821]]],[7522,[],[[132546,2016857]]],[7527,[],[[132668,2018713],[132670,2018743]]],[7530,[[68396,2019779]],[[132738,2019779]]],[7538,[[68496,2022732],[68497,2022762]],[]],[7541,[[68532,2023795]],[]],[7546,[[68596,2025685]],[]],[7549,[[68631,2026718]],[]],[7557,[[68730,2029642],[68731,2029672],[68732,2029701]],[[133390,2029701]]],[7560,[],[[133458,2030736]]],[7565,[[68831,2032625]],[]],[7568,[[68866,2033658]],[[133650,2033658]]],[7576,[[68966,2036611],[68967,2036641]],[]],[7579,[[69002,2037674]],[]],[7587,[[69101,2040597]],[]],[7595,[[69201,2043550]],[[134298,2043519],[134300,2043550]]],[7598,[[69237,2044614]],[]],[7603,[[69301,2046504]],[]],[7606,[[69336,2047537]],[]],[7614,[[69436,2050490],[69437,2050520]],[[134756,2050489],[134758,2050519]]],[7617,[],[[134826,2051555]]],[7622,[],[[134950,2053441]]],[7625,[[69571,2054477],[69572,2054507]],[[135018,2054476]]],[7633,[[69671,2057430],[69672,2057460]],[]],[7636,[[69707,2058494]],[]],[7644,[[69806,2061417],[69807,2061447]],[[135476,2061447]]],[7652,[[69906,2064370],[69907,2064400]],[]],[7655,[[69942,2065433]],[]],[7660,[[70006,2067323]],[]],[7663,[[70041,2068357],[70042,2068386]],[]],[7671,[[70141,2071310],[70142,2071340]],[]],[7674,[[70177,2072372]],[]],[7682,[[70276,2075296],[70277,2075326]],[[136386,2075295],[136388,2075326]]],[7690,[[70376,2078249],[70377,2078279]],[]],[7693,[[70412,2079312]],[]],[7701,[[70511,2082235]],[]],[7709,[[70611,2085189],[70612,2085219]],[]],[7712,[[70647,2086252]],[]],[7720,[[70746,2089175],[70747,2089205]],[[137298,2089174]]],[7728,[[70846,2092128],[70847,2092158]],[]],[7731,[[70882,2093192]],[]],[7739,[[70981,2096115],[70982,2096145]],[[137756,2096145]]],[7742,[],[[137826,2097210]]],[7747,[[71082,2099097]],[[137948,2099066],[137950,2099097]]],[7750,[[71117,2100132]],[[138018,2100132]]],[7758,[[71216,2103055],[71217,2103085],[71218,2103114]],[]],[7766,[[71317,2106037]],[]],[7769,[[71352,2107071]],[]],[7777,[[71451,2109995],[71452,2110025],[71453,2110054]],[]],[7785,[[71551,2112948],[71552,2112977]],[]],[7788,[[71587,2114011]],[]],[7796,[[71687,2116964],[71688,2116994]],[[139124,2116963],[139126,2116993]]],[7799,[[71723,2118027]],[]],[7804,[[71787,2119917]],[]],[7807,[[71822,2120950]],[]],[7815,[[71922,2123903]],[[139578,2123872]]],[7823,[[72022,2126857]],[]],[7826,[[72057,2127890]],[]],[7834,[[72156,2130813],[72157,2130843],[72158,2130872]],[[140036,2130842]]],[7837,[],[[140106,2131908]]],[7842,[[72257,2133796]],[[140228,2133764]]],[7845,[[72292,2134830]],[[140298,2134830]]],[7853,[[72392,2137783],[72393,2137812]],[[140490,2137751]]],[7856,[[72428,2138846]],[]],[7861,[[72492,2140736]],[]],[7864,[[72527,2141770],[72528,2141799]],[]],[7872,[[72627,2144723],[72628,2144752]],[]],[7880,[[72727,2147675]],[]],[7883,[[72762,2148710],[72763,2148739]],[]],[7891,[[72862,2151663],[72863,2151692]],[[141406,2151691]]],[7894,[[72898,2152725]],[]],[7899,[],[[141598,2154613]]],[7902,[[72997,2155649],[72998,2155679]],[[141666,2155648]]],[7910,[[73097,2158602],[73098,2158632]],[]],[7913,[[73133,2159665]],[]],[7921,[[73232,2162588]],[]],[7929,[[73332,2165542],[73333,2165572]],[]],[7932,[],[[142386,2166606]]],[7937,[],[[142510,2168492]]],[7940,[[73467,2169528],[73468,2169557]],[[142578,2169527]]],[7948,[[73567,2172481],[73568,2172511]],[]],[7951,[[73603,2173544]],[]],[7959,[[73702,2176468],[73703,2176497]],[]],[7967,[[73802,2179421],[73803,2179450]],[[143230,2179450]]],[7970,[[73838,2180484]],[]],[7978,[[73937,2183408],[73938,2183437]],[]],[7986,[[74037,2186360],[74038,2186390]],[[143686,2186389]]],[7989,[[74073,2187424]],[]],[7994,[],[[143878,2189311]]],[7997,[[74172,2190348],[74173,2190377]],[]],[8005,[[74272,2193300],[74273,2193330]],[]],[8008,[[74308,2194364]],[]],[8016,[[74407,2197287],[74408,2197317],[74409,2197346]],[[144404,2197316]]],[8024,[[74508,2200270]],[[144596,2200238]]],[8027,[[74543,2201303]],[]],[8035,[[74642,2204227],[74643,2204256]],[]],[8043,[[74742,2207180],[74743,2207210]],[]],[8046,[[74778,2208242]],[]],[8054,[[74877,2211166],[74878,2211196]],[[145316,2211196]]],[8057,[],[[145386,2212261]]],[8062,[[74978,2214149]],[[145508,2214117]]],[8065,[[75013,2215182]],[]],[8073,[[75112,2218106],[75113,2218135]],[]],[8081,[[75213,2221089]],[]],[8084,[[75248,2222122]],[]],[8092,[[75347,2225046],[75348,2225075]],[[146228,2225075]]],[8100,[[75447,2227998],[75448,2228028]],[]],[8103,[[75483,2229062]],[[146490,2229062]]],[8111,[[75582,2231986],[75583,2232015],[75584,2232044]],[[146684,2232014]]],[8114,[[75619,2233078]],[]],[8119,[],[[146876,2234936],[146878,2234966]]],[8122,[[75718,2236002],[75719,2236031]],[[146946,2236001]]],[8130,[[75818,2238955],[75819,2238984]],[[147138,2238923]]],[8138,[[75918,2241908]],[]],[8141,[[75953,2242941]],[]],[8149,[[76052,2245865],[76053,2245895],[76054,2245924]],[[147598,2245924]]],[8152,[],[[147666,2246959]]],[8157,[[76153,2248848]],[[147788,2248815]]],[8160,[[76188,2249881],[76189,2249910]],[[147858,2249880]]],[8168,[[76288,2252834],[76289,2252864]],[[148054,2252863]]],[8171,[[76324,2253897]],[]],[8176,[],[[148246,2255785]]],[8179,[[76423,2256820]],[]],[8187,[[76523,2259773]],[[148508,2259773]]],[8190,[[76559,2260837]],[]],[8195,[[76623,2262727]],[]],[8198,[[76658,2263760]],[[148770,2263760]]],[8206,[[76758,2266713],[76759,2266743]],[[148964,2266712],[148966,2266742]]],[8209,[[76794,2267777]],[]],[8214,[],[[149158,2269664]]],[8217,[[76893,2270700],[76894,2270729]],[[149226,2270699]]],[8225,[[76993,2273653],[76994,2273682]],[]],[8228,[[77029,2274717]],[]],[8236,[[77128,2277640],[77129,2277669]],[]],[8244,[[77228,2280593],[77229,2280622]],[[149878,2280622]]],[8247,[[77264,2281656]],[]],[8252,[[77328,2283545]],[]],[8255,[[77363,2284580],[77364,2284609]],[]],[8263,[[77463,2287533],[77464,2287562]],[[150334,2287561]]],[8266,[[77499,2288595]],[]],[8274,[[77598,2291519],[77599,2291549]],[[150596,2291549]]],[8282,[[77698,2294472],[77699,2294502]],[]],[8285,[[77734,2295535]],[]],[8293,[[77833,2298458]],[[151050,2298458]]],[8301,[[77933,2301412],[77934,2301442]],[]],[8304,[[77969,2302475]],[]],[8309,[],[[151438,2304362]]],[8312,[[78068,2305398],[78069,2305428]],[]],[8320,[[78168,2308351],[78169,2308381]],[]],[8323,[[78204,2309415]],[[151770,2309415]]],[8331,[[78303,2312338],[78304,2312367]],[]],[8339,[[78404,2315320]],[[152156,2315289],[152158,2315320]]],[8342,[[78439,2316355],[78440,2316384]],[[152226,2316354]]],[8350,[[78538,2319278],[78539,2319307]],[]],[8358,[[78638,2322231],[78639,2322260]],[]],[8361,[[78674,2323294]],[]],[8369,[[78773,2326218],[78774,2326247]],[[152876,2326247]]],[8372,[],[[152946,2327312]]],[8377,[[78873,2329171],[78874,2329200]],[]],[8380,[[78909,2330234]],[[153138,2330234]]],[8388,[[79009,2333187],[79010,2333217]],[[153334,2333216]]],[8391,[[79045,2334249]],[]],[8396,[[79109,2336140]],[]],[8399,[[79144,2337173]],[]],[8407,[[79243,2340097],[79244,2340127],[79245,2340156]],[]],[8410,[],[[153858,2341191]]],[8415,[[79343,2343050],[79344,2343080]],[]],[8418,[[79379,2344113]],[[154050,2344113]]],[8426,[[79478,2347036],[79479,2347066],[79480,2347096]],[[154244,2347065],[154246,2347096]]],[8429,[[79515,2348129]],[]],[8434,[[79579,2350019]],[[154436,2349987]]],[8437,[[79614,2351052]],[]],[8445,[[79714,2354005]],[[154698,2353974]]],[8448,[[79750,2355069]],[]],[8453,[[79814,2356959]],[]],[8456,[[79849,2357992]],[]],[8464,[[79948,2360916],[79949,2360945]],[[155156,2360945]]],[8467,[],[[155226,2362010]]],[8472,[[80049,2363898]],[[155348,2363866]]],[8475,[[80084,2364932],[80085,2364962]],[[155418,2364931]]],[8483,[[80184,2367885],[80185,2367914]],[[155610,2367853]]],[8486,[[80220,2368948]],[]],[8491,[],[[155806,2370836]]],[8494,[[80319,2371872],[80320,2371902]],[[155876,2371902]]],[8502,[[80419,2374825],[80420,2374854]],[]],[8505,[[80455,2375888]],[]],[8510,[[80519,2377778]],[]],[8513,[[80554,2378811]],[[156330,2378811]]],[8521,[[80653,2381735],[80654,2381765],[80655,2381794]],[[156526,2381794]]],[8524,[[80690,2382827]],[]],[8529,[[80754,2384718]],[]],[8532,[[80789,2385751],[80790,2385780]],[]],[8540,[[80889,2388704],[80890,2388734]],[]],[8543,[[80925,2389767]],[]],[8551,[[81024,2392690]],[[157242,2392690]]],[8559,[[81124,2395644],[81125,2395673]],[[157438,2395673]]],[8562,[[81160,2396707]],[]],[8567,[[81224,2398597]],[]],[8570,[[81259,2399630],[81260,2399660]],[[157698,2399629]]],[8578,[[81359,2402583],[81360,2402613]],[[157894,2402612]]],[8581,[[81395,2403647]],[]],[8586,[],[[158086,2405534]]],[8589,[[81494,2406570],[81495,2406600]],[[158156,2406600]]],[8592,[],[[158226,2407665]]],[8597,[[81594,2409523],[81595,2409552]],[]],[8600,[[81630,2410587]],[[158418,2410587]]],[8608,[[81729,2413510],[81730,2413540],[81731,2413569]],[[158612,2413539]]],[8616,[[81829,2416463],[81830,2416492]],[[158806,2416492]]],[8619,[[81865,2417526]],[]],[8624,[],[[158998,2419413]]],[8627,[[81964,2420450],[81965,2420479]],[]],[8630,[],[[159138,2421544]]],[8635,[[82064,2423403],[82065,2423432]],[]],[8638,[[82100,2424465]],[]],[8646,[[82199,2427389],[82200,2427419],[82201,2427449]],[[159524,2427418],[159526,2427449]]],[8649,[[82236,2428482]],[]],[8654,[[82300,2430372]],[[159716,2430340]]],[8657,[[82335,2431405]],[]],[8665,[[82434,2434329],[82435,2434358]],[]],[8673,[[82534,2437282],[82535,2437312]],[]],[8676,[[82570,2438345]],[]],[8681,[],[[160366,2440232]]],[8684,[[82669,2441268],[82670,2441298]],[[160436,2441298]]],[8687,[],[[160506,2442363]]],[8692,[[82769,2444221],[82770,2444251]],[]],[8695,[[82805,2445285],[82806,2445314]],[[160698,2445284]]],[8703,[[82905,2448237]],[[160890,2448206]]],[8706,[[82941,2449301]],[]],[8711,[[83005,2451190]],[[161086,2451189]]],[8714,[[83040,2452225],[83041,2452254]],[]],[8722,[[83139,2455148],[83140,2455177]],[[161348,2455177]]],[8725,[],[[161418,2456242]]],[8730,[[83239,2458101],[83240,2458130]],[]],[8733,[[83275,2459164]],[[161610,2459164]]],[8741,[[83374,2462088],[83375,2462117],[83376,2462147]],[[161804,2462116],[161806,2462147]]],[8744,[[83411,2463180]],[]],[8749,[[83475,2465070]],[[161996,2465038]]],[8752,[[83510,2466104],[83511,2466133]],[[162066,2466103]]],[8760,[[83610,2469057],[83611,2469087]],[[162262,2469086]]],[8763,[[83646,2470120]],[]],[8768,[[83710,2472010]],[]],[8771,[[83745,2473043]],[[162522,2473043]]],[8779,[[83844,2475967],[83845,2475997],[83846,2476026]],[]],[8782,[[83881,2477059]],[]],[8787,[[83945,2478950]],[[162908,2478917]]],[8790,[[83980,2479983],[83981,2480012]],[[162978,2479982]]],[8798,[[84080,2482936],[84081,2482966]],[[163174,2482965]]],[8801,[[84116,2483999]],[]],[8806,[],[[163366,2485887]]],[8809,[[84215,2486923],[84216,2486952]],[]],[8817,[[84315,2489875]],[[163628,2489875]]],[8820,[[84351,2490939]],[]],[8825,[[84415,2492829]],[]],[8828,[[84450,2493863],[84451,2493892]],[]],[8836,[[84550,2496815],[84551,2496845]],[[164082,2496783],[164084,2496814],[164086,2496845]]],[8839,[[84586,2497879]],[]],[8844,[[84650,2499768]],[]],[8847,[[84685,2500803],[84686,2500832]],[]],[8855,[[84785,2503755],[84786,2503785]],[[164542,2503784]]],[8858,[[84821,2504818]],[]],[8866,[[84920,2507742],[84921,2507772],[84922,2507801]],[[164804,2507771]]],[8874,[[85020,2510695],[85021,2510725]],[]],[8877,[[85056,2511758]],[]],[8882,[[85120,2513648]],[]],[8885,[[85155,2514681],[85156,2514711]],[[165258,2514680]]],[8893,[[85255,2517635],[85256,2517664]],[[165454,2517663]]],[8896,[[85291,2518697]],[]],[8901,[],[[165646,2520585]]],[8904,[[85390,2521621],[85391,2521650]],[]],[8907,[],[[165786,2522716]]],[8912,[[85490,2524574],[85491,2524604]],[]],[8915,[[85526,2525637]],[]],[8923,[[85625,2528561],[85626,2528590]],[]],[8931,[[85725,2531514],[85726,2531543]],[[166366,2531543]]],[8934,[[85761,2532577]],[]],[8939,[[85825,2534467]],[]],[8942,[[85860,2535500],[85861,2535530]],[]],[8945,[],[[166698,2536595]]],[8950,[[85960,2538453],[85961,2538483]],[]],[8953,[[85996,2539517]],[[166890,2539517]]],[8961,[[86095,2542440],[86096,2542470],[86097,2542499]],[[167084,2542469]]],[8964,[[86132,2543533]],[]],[8969,[[86196,2545423]],[[167276,2545391]]],[8972,[[86231,2546457],[86232,2546486]],[[167346,2546456]]],[8980,[[86330,2549380],[86331,2549410],[86332,2549439]],[]],[8988,[[86430,2552333],[86431,2552363]],[]],[8991,[[86466,2553396]],[[167802,2553396]]],[8999,[[86565,2556320],[86566,2556350],[86567,2556379]],[]],[9002,[[86602,2557412]],[]],[9007,[[86666,2559303]],[[168188,2559270]]],[9010,[[86701,2560335]],[]],[9018,[[86801,2563289],[86802,2563319]],[[168450,2563257],[168454,2563319]]],[9021,[[86837,2564352]],[]],[9026,[[86901,2566242]],[]],[9029,[[86936,2567275]],[]],[9037,[[87035,2570199],[87036,2570228]],[[168908,2570228]]],[9040,[],[[168978,2571293]]],[9045,[[87136,2573182]],[]],[9048,[[87171,2574215]],[[169170,2574215]]],[9056,[[87271,2577168],[87272,2577197]],[[169362,2577136],[169364,2577167]]],[9059,[[87307,2578232]],[]],[9064,[[87371,2580121]],[[169556,2580089]]],[9067,[[87406,2581155],[87407,2581184]],[]],[9075,[[87506,2584108],[87507,2584137]],[]],[9078,[[87542,2585171]],[]],[9083,[[87606,2587061]],[]],[9086,[[87641,2588095],[87642,2588124]],[]],[9094,[[87741,2591048],[87742,2591077]],[]],[9097,[[87777,2592111]],[]],[9102,[[87841,2594000]],[]],[9105,[[87876,2595035],[87877,2595064]],[]],[9113,[[87976,2597988],[87977,2598017]],[[170730,2597955],[170734,2598017]]],[9116,[[88012,2599050]],[]],[9121,[],[[170926,2600938]]],[9124,[[88111,2601974],[88112,2602004]],[[170996,2602004]]],[9132,[[88211,2604927],[88212,2604957]],[]],[9135,[[88247,2605990]],[]],[9140,[[88311,2607880]],[]],[9143,[[88346,2608913],[88347,2608943]],[[171450,2608912]]],[9151,[[88446,2611867],[88447,2611896]],[[171646,2611896]]],[9154,[[88482,2612930]],[]],[9159,[[88546,2614820]],[]],[9162,[[88581,2615853],[88582,2615882]],[]],[9165,[],[[171978,2616948]]],[9170,[[88681,2618806],[88682,2618836]],[[172102,2618835]]],[9173,[[88717,2619870]],[[172170,2619870]]],[9178,[],[[172294,2621757]]],[9181,[[88816,2622793],[88817,2622822]],[]],[9189,[[88916,2625746],[88917,2625775]],[]],[9192,[[88952,2626809]],[]],[9200,[[89051,2629733],[89052,2629762]],[]],[9208,[[89151,2632685],[89152,2632715]],[[173014,2632714]]],[9211,[[89187,2633749]],[[173082,2633749]]],[9216,[],[[173206,2635636]]],[9219,[[89286,2636673],[89287,2636702]],[[173276,2636702]]],[9222,[[89323,2637765]],[]],[9227,[[89386,2639626],[89387,2639655]],[]],[9230,[[89422,2640688]],[]],[9238,[[89521,2643612],[89522,2643642],[89523,2643671]],[[173732,2643641]]],[9246,[[89621,2646565],[89622,2646595]],[]],[9249,[[89657,2647628]],[]],[9257,[[89756,2650552],[89757,2650581]],[[174188,2650581]]],[9260,[],[[174258,2651646]]],[9265,[[89856,2653505],[89857,2653535]],[]],[9268,[[89892,2654567]],[]],[9276,[[89992,2657521],[89993,2657550]],[[174642,2657489],[174644,2657520]]],[9279,[[90028,2658584]],[]],[9284,[[90092,2660474]],[[174836,2660442]]],[9287,[[90127,2661507]],[]],[9295,[[90226,2664431],[90227,2664460]],[]],[9298,[],[[175170,2665525]]],[9303,[[90327,2667413]],[[175294,2667412]]],[9306,[[90362,2668447]],[[175362,2668447]]],[9314,[[90461,2671371],[90462,2671400]],[[175556,2671400]]],[9317,[[90498,2672464]],[]],[9322,[[90562,2674353]],[[175748,2674321]]],[9325,[[90597,2675387],[90598,2675417]],[[175818,2675386]]],[9333,[[90697,2678340],[90698,2678369]],[[176010,2678308]]],[9336,[[90733,2679403]],[]],[9341,[[90797,2681293]],[]],[9344,[[90832,2682327],[90833,2682356]],[]],[9352,[[90932,2685280],[90933,2685309]],[]],[9355,[],[[176538,2686344]]],[9360,[[91032,2688233]],[]],[9363,[[91067,2689266],[91068,2689296]],[[176730,2689265]]],[9371,[[91167,2692220],[91168,2692249]],[[176922,2692187],[176926,2692249]]],[9374,[[91203,2693282]],[]],[9379,[[91267,2695173]],[[177116,2695140]]],[9382,[[91302,2696206],[91303,2696235]],[]],[9390,[[91402,2699159],[91403,2699189]],[[177382,2699188]]],[9393,[[91438,2700222]],[]],[9398,[[91502,2702112]],[]],[9401,[[91537,2703145]],[[177642,2703145]]],[9409,[[91637,2706098],[91638,2706128]],[[177836,2706097]]],[9412,[[91673,2707162]],[]],[9417,[[91737,2709052]],[]],[9420,[[91772,2710085],[91773,2710115]],[]],[9428,[[91872,2713038],[91873,2713067]],[]],[9431,[[91908,2714102]],[[178362,2714102]]],[9436,[],[[178486,2715989]]],[9439,[[92007,2717025],[92008,2717055]],[[178556,2717055]]],[9447,[[92107,2719978],[92108,2720007]],[]],[9450,[[92143,2721041]],[]],[9458,[[92242,2723965],[92243,2723995]],[[179012,2723994],[179014,2724025]]],[9466,[[92342,2726918],[92343,2726947]],[[179206,2726947]]],[9469,[[92378,2727981]],[]],[9474,[[92442,2729871]],[]],[9477,[[92477,2730905],[92478,2730934]],[[179468,2730934]]],[9480,[],[[179538,2731999]]],[9485,[[92577,2733858],[92578,2733887]],[[179662,2733886]]],[9488,[[92613,2734920]],[]],[9493,[],[[179854,2736808]]],[9496,[[92712,2737844],[92713,2737874],[92714,2737903]],[[179924,2737873]]],[9504,[[92812,2740797],[92813,2740827]],[]],[9507,[[92848,2741860]],[]],[9515,[[92947,2744783],[92948,2744813]],[]],[9518,[],[[180450,2745878]]],[9523,[[93047,2747737],[93048,2747766]],[[180574,2747765]]],[9526,[[93083,2748800]],[[180642,2748800]]],[9531,[],[[180766,2750687]]],[9534,[[93182,2751723],[93183,2751752]],[]],[9537,[[93219,2752816]],[]],[9542,[[93283,2754706]],[[181028,2754674]]],[9545,[[93318,2755740],[93319,2755769]],[[181098,2755739]]],[9553,[[93417,2758663],[93418,2758692]],[]],[9556,[[93454,2759756]],[]],[9561,[[93518,2761645]],[[181486,2761645]]],[9564,[[93553,2762680],[93554,2762709]],[]],[9572,[[93652,2765603],[93653,2765632]],[[181748,2765632]]],[9575,[[93689,2766695]],[]],[9580,[[93752,2768556],[93753,2768585]],[[181942,2768584]]],[9583,[[93788,2769619],[93789,2769649]],[[182010,2769618]]],[9591,[[93888,2772572],[93889,2772602]],[[182202,2772540],[182204,2772571]]],[9594,[[93924,2773635]],[]],[9599,[[93988,2775525]],[[182396,2775493]]],[9602,[[94023,2776559],[94024,2776588]],[]],[9610,[[94123,2779512],[94124,2779542]],[[182662,2779541]]],[9613,[[94159,2780574]],[]],[9618,[[94223,2782465]],[]],[9621,[[94258,2783498]],[[182922,2783498]]],[9629,[[94358,2786451],[94359,2786481]],[[183114,2786419],[183116,2786450]]],[9632,[[94394,2787514]],[]],[9637,[[94458,2789405]],[[183308,2789372]]],[9640,[[94493,2790438],[94494,2790467]],[]],[9648,[[94593,2793391],[94594,2793420]],[]],[9651,[[94629,2794454]],[]],[9656,[[94693,2796344]],[]],[9659,[[94728,2797378],[94729,2797407]],[]],[9667,[[94828,2800330]],[[184028,2800330]]],[9670,[[94864,2801394]],[]],[9675,[[94928,2803283]],[]],[9678,[[94963,2804318],[94964,2804347]],[]],[9686,[[95063,2807270],[95064,2807300]],[[184482,2807238],[184484,2807269],[184486,2807300]]],[9689,[[95099,2808334]],[]],[9694,[[95163,2810223]],[]],[9697,[[95198,2811257],[95199,2811287]],[]],[9705,[[95298,2814210],[95299,2814240]],[[184942,2814239]]],[9708,[[95334,2815273]],[]],[9713,[],[[185134,2817161]]],[9716,[[95433,2818197],[95434,2818227],[95435,2818256]],[[185204,2818226]]],[9724,[[95533,2821150],[95534,2821180]],[]],[9727,[[95569,2822213]],[]],[9732,[[95633,2824103]],[]],[9735,[[95668,2825136],[95669,2825166]],[]],[9738,[],[[185730,2826231]]],[9743,[[95768,2828090],[95769,2828119]],[[185854,2828119]]],[9746,[[95804,2829152]],[]],[9751,[],[[186046,2831040]]],[9754,[[95903,2832076],[95904,2832105]],[]],[9762,[[96003,2835029],[96004,2835059]],[]],[9765,[[96039,2836092]],[]],[9773,[[96138,2839015],[96139,2839045]],[[186570,2839014]]],[9781,[[96238,2841968],[96239,2841998]],[[186766,2841998]]],[9784,[[96274,2843032]],[]],[9789,[[96338,2844922]],[]],[9792,[[96373,2845955],[96374,2845985]],[[187028,2845985]]],[9795,[[96410,2847048]],[]],[9800,[[96473,2848908],[96474,2848938]],[[187222,2848937]]],[9803,[[96509,2849972],[96510,2850001]],[[187290,2849971]]],[9808,[],[[187414,2851859]]],[9811,[[96608,2852895],[96609,2852925],[96610,2852954]],[[187484,2852924]]],[9814,[[96645,2853988]],[]],[9819,[[96709,2855877]],[[187676,2855846]]],[9822,[[96744,2856912],[96745,2856941]],[]],[9830,[[96843,2859835],[96844,2859865],[96845,2859894]],[]],[9833,[],[[188010,2860929]]],[9838,[[96943,2862788],[96944,2862817]],[[188134,2862816]]],[9841,[[96979,2863851]],[[188202,2863851]]],[9846,[],[[188326,2865738]]],[9849,[[97079,2866804],[97080,2866834]],[[188394,2866772],[188396,2866803]]],[9852,[[97115,2867867]],[]],[9857,[[97179,2869757]],[[188588,2869725]]],[9860,[[97214,2870790]],[]],[9868,[[97314,2873744],[97315,2873773]],[]],[9871,[[97350,2874807]],[]],[9876,[[97414,2876697]],[]],[9879,[[97449,2877730]],[[189114,2877730]]],[9887,[[97548,2880653],[97549,2880683]],[[189308,2880683]]],[9890,[[97585,2881747]],[]],[9895,[[97648,2883607],[97649,2883636]],[[189502,2883635]]],[9898,[[97684,2884670],[97685,2884699]],[[189570,2884669]]],[9906,[[97784,2887623],[97785,2887652]],[[189762,2887591],[189764,2887622]]],[9909,[[97820,2888687]],[]],[9914,[[97884,2890576]],[]],[9917,[[97919,2891610],[97920,2891639]],[]],[9925,[[98019,2894563],[98020,2894592]],[]],[9928,[[98055,2895626]],[]],[9933,[[98119,2897515]],[[190414,2897514]]],[9936,[[98154,2898550],[98155,2898579]],[]],[9944,[[98254,2901503],[98255,2901532]],[[190674,2901470]]],[9947,[[98290,2902566]],[]],[9952,[[98354,2904455]],[[190868,2904423]]],[9955,[[98389,2905489],[98390,2905519]],[]],[9963,[[98489,2908442],[98490,2908472]],[[191134,2908472]]],[9966,[[98525,2909505]],[]],[9971,[[98589,2911395]],[]],[9974,[[98624,2912429],[98625,2912458]],[]],[9982,[[98724,2915382],[98725,2915412]],[[191590,2915411]]],[9985,[[98760,2916444]],[]],[9990,[[98824,2918335]],[]],[9993,[[98859,2919368],[98860,2919398]],[[191850,2919367]]]]}