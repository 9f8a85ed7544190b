{"acc": [[-352, 64, [[-128850903909, 365242353, 126095], [-128835696797, 365242201, 127593], [-128820355544, 365242046, 128697], [-128804885401, 365241899, 129352], [-128789301546, 365241772, 129641], [-128773628697, 365241676, 129680], [-128757899561, 365241620, 129543], [-128742152147, 365241609, 129417], [-128726426230, 365241643, 129278], [-128710759521, 365241719, 129242], [-128695184174, 365241831, 129025], [-128679724184, 365241967, 128478], [-128664393929, 365242118, 127524], [-128649197861, 365242271, 126180], [-128634131113, 365242417, 124530], [-128619180709, 365242547, 122772], [-128604327065, 365242653, 121075], [-128589545592, 365242730, 119730], [-128574808237, 365242775, 118900], [-128560084947, 365242785, 118778], [-128545345051, 365242760, 119381], [-128530558621, 365242701, 120694], [-128515697850, 365242610, 122442], [-128500738522, 365242492, 124314]]], [-224, 64, [[-82099881572, 365242361, 147261], [-82084693831, 365242211, 148754], [-82069372420, 365242056, 149872], [-82053921163, 365241907, 150583], [-82038353746, 365241777, 150886], [-82022693482, 365241677, 150914], [-82006971942, 365241614, 150764], [-81991226432, 365241596, 150567], [-81975496567, 365241623, 150446], [-81959820462, 365241694, 150380], [-81944231165, 365241800, 150175], [-81928753912, 365241933, 149684], [-81913404498, 365242082, 148776], [-81898188804, 365242235, 147492], [-81883103291, 365242383, 145875], [-81868136124, 365242515, 144083], [-81853268651, 365242625, 142370], [-81838476985, 365242707, 140950], [-81823733567, 365242756, 140026], [-81809008629, 365242772, 139723], [-81794271592, 365242752, 140213], [-81779492419, 365242698, 141401], [-81764642986, 365242612, 143055], [-81749698538, 365242498, 144904]]], [-96, 64, [[-35348856515, 365242474, 191775], [-35333687911, 365242326, 193357], [-35318386307, 365242171, 194531], [-35302954121, 365242022, 195322], [-35287403553, 365241889, 195706], [-35271756491, 365241783, 195768], [-35256043323, 365241715, 195678], [-35240300580, 365241690, 195517], [-35224567635, 365241711, 195420], [-35208882923, 365241775, 195374], [-35193280318, 365241876, 195286], [-35177786252, 365242006, 194858], [-35162417914, 365242153, 194070], [-35147182621, 365242306, 192877], [-35132078176, 365242455, 191370], [-35117093916, 365242590, 189666], [-35102212149, 365242703, 187943], [-35087409728, 365242789, 186518], [-35072659614, 365242844, 185537], [-35057932356, 365242865, 185180], [-35043197496, 365242851, 185589], [-35028424916, 365242802, 186696], [-35013586214, 365242721, 188345], [-34998656123, 365242611, 190182]]]], "qi": [[-280, 80, [[-102553461375, 365242357, 7885], [-102538255070, 365242205, 7972], [-102522915206, 365242052, 8013], [-102507449044, 365241908, 8043], [-102491873007, 365241785, 7984], [-102476211635, 365241691, 7932], [-102460495823, 365241635, 7826], [-102444760510, 365241619, 7664], [-102429042059, 365241646, 7529], [-102413375531, 365241713, 7606], [-102397792070, 365241815, 7725], [-102382316625, 365241944, 7872], [-102366966184, 365242091, 7944], [-102351748706, 365242245, 7971], [-102336662819, 365242394, 8008], [-102321698269, 365242530, 7953], [-102306836978, 365242643, 7896], [-102292054535, 365242727, 7814], [-102277321914, 365242778, 7713], [-102262607265, 365242792, 7580], [-102247877721, 365242768, 7451], [-102233101203, 365242709, 7520], [-102218248236, 365242617, 7659], [-102203293785, 365242497, 7806]]], [-119, 81, [[-43749441584, 365242361, 7945], [-43734259602, 365242211, 8046], [-43718944414, 365242057, 8091], [-43703501532, 365241912, 8100], [-43687945669, 365241784, 8078], [-43672299841, 365241685, 7978], [-43656593745, 365241621, 7889], [-43640861565, 365241598, 7734], [-43625139417, 365241617, 7591], [-43609462652, 365241677, 7636], [-43593863213, 365241773, 7792], [-43578367282, 365241898, 7909], [-43562993400, 365242043, 7994], [-43547751245, 365242196, 8055], [-43532641184, 365242346, 8066], [-43517654570, 365242485, 8031], [-43502774711, 365242602, 7987], [-43487978289, 365242692, 7885], [-43473237056, 365242748, 7789], [-43458519626, 365242769, 7634], [-43443793285, 365242752, 7504], [-43429025792, 365242699, 7552], [-43414187198, 365242613, 7680], [-43399251662, 365242498, 7828]]]]}