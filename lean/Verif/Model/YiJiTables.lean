import Verif.Model.Py

/-! # The packed almanac texts of `util/LunarUtil.py`

Generated by `tools/tables.py` from the text of the repository.  Each record is a tuple of its fields; a field is
written as a hexadecimal number with a digit 1 put in front (so that leading zeros and empty fields are kept).
The generator checks that the records put together are the text of the repository. -/

namespace LunarUtil

/-- `lunar_python/util/LunarUtil.py` 38-40 `__YI_JI` -/
def YI_JI : List PyStr :=
  [['祭', '祀'], ['祈', '福'], ['求', '嗣'], ['开', '光'], ['塑', '绘'], ['齐', '醮'], ['斋', '醮'],
   ['沐', '浴'], ['酬', '神'], ['造', '庙'], ['祀', '灶'], ['焚', '香'], ['谢', '土'], ['出', '火'],
   ['雕', '刻'], ['嫁', '娶'], ['订', '婚'], ['纳', '采'], ['问', '名'], ['纳', '婿'], ['归', '宁'],
   ['安', '床'], ['合', '帐'], ['冠', '笄'], ['订', '盟'], ['进', '人', '口'], ['裁', '衣'], ['挽', '面'],
   ['开', '容'], ['修', '坟'], ['启', '钻'], ['破', '土'], ['安', '葬'], ['立', '碑'], ['成', '服'],
   ['除', '服'], ['开', '生', '坟'], ['合', '寿', '木'], ['入', '殓'], ['移', '柩'], ['普', '渡'], ['入', '宅'],
   ['安', '香'], ['安', '门'], ['修', '造'], ['起', '基'], ['动', '土'], ['上', '梁'], ['竖', '柱'],
   ['开', '井', '开', '池'], ['作', '陂', '放', '水'], ['拆', '卸'], ['破', '屋'], ['坏', '垣'], ['补', '垣'],
   ['伐', '木', '做', '梁'], ['作', '灶'], ['解', '除'], ['开', '柱', '眼'], ['穿', '屏', '扇', '架'],
   ['盖', '屋', '合', '脊'], ['开', '厕'], ['造', '仓'], ['塞', '穴'], ['平', '治', '道', '涂'], ['造', '桥'],
   ['作', '厕'], ['筑', '堤'], ['开', '池'], ['伐', '木'], ['开', '渠'], ['掘', '井'], ['扫', '舍'],
   ['放', '水'], ['造', '屋'], ['合', '脊'], ['造', '畜', '稠'], ['修', '门'], ['定', '磉'], ['作', '梁'],
   ['修', '饰', '垣', '墙'], ['架', '马'], ['开', '市'], ['挂', '匾'], ['纳', '财'], ['求', '财'], ['开', '仓'],
   ['买', '车'], ['置', '产'], ['雇', '佣'], ['出', '货', '财'], ['安', '机', '械'], ['造', '车', '器'],
   ['经', '络'], ['酝', '酿'], ['作', '染'], ['鼓', '铸'], ['造', '船'], ['割', '蜜'], ['栽', '种'],
   ['取', '渔'], ['结', '网'], ['牧', '养'], ['安', '碓', '磑'], ['习', '艺'], ['入', '学'], ['理', '发'],
   ['探', '病'], ['见', '贵'], ['乘', '船'], ['渡', '水'], ['针', '灸'], ['出', '行'], ['移', '徙'],
   ['分', '居'], ['剃', '头'], ['整', '手', '足', '甲'], ['纳', '畜'], ['捕', '捉'], ['畋', '猎'],
   ['教', '牛', '马'], ['会', '亲', '友'], ['赴', '任'], ['求', '医'], ['治', '病'], ['词', '讼'],
   ['起', '基', '动', '土'], ['破', '屋', '坏', '垣'], ['盖', '屋'], ['造', '仓', '库'],
   ['立', '券', '交', '易'], ['交', '易'], ['立', '券'], ['安', '机'], ['会', '友'], ['求', '医', '疗', '病'],
   ['诸', '事', '不', '宜'], ['馀', '事', '勿', '取'], ['行', '丧'], ['断', '蚁'], ['归', '岫'], ['无']]

/-- `lunar_python/util/LunarUtil.py` 43-45 `__SHEN_SHA` -/
def SHEN_SHA : List PyStr :=
  [['无'], ['天', '恩'], ['母', '仓'], ['时', '阳'], ['生', '气'], ['益', '后'], ['青', '龙'], ['灾', '煞'],
   ['天', '火'], ['四', '忌'], ['八', '龙'], ['复', '日'], ['续', '世'], ['明', '堂'], ['月', '煞'],
   ['月', '虚'], ['血', '支'], ['天', '贼'], ['五', '虚'], ['土', '符'], ['归', '忌'], ['血', '忌'],
   ['月', '德'], ['月', '恩'], ['四', '相'], ['王', '日'], ['天', '仓'], ['不', '将'], ['要', '安'],
   ['五', '合'], ['鸣', '吠', '对'], ['月', '建'], ['小', '时'], ['土', '府'], ['往', '亡'], ['天', '刑'],
   ['天', '德'], ['官', '日'], ['吉', '期'], ['玉', '宇'], ['大', '时'], ['大', '败'], ['咸', '池'],
   ['朱', '雀'], ['守', '日'], ['天', '巫'], ['福', '德'], ['六', '仪'], ['金', '堂'], ['金', '匮'],
   ['厌', '对'], ['招', '摇'], ['九', '空'], ['九', '坎'], ['九', '焦'], ['相', '日'], ['宝', '光'],
   ['天', '罡'], ['死', '神'], ['月', '刑'], ['月', '害'], ['游', '祸'], ['重', '日'], ['时', '德'],
   ['民', '日'], ['三', '合'], ['临', '日'], ['天', '马'], ['时', '阴'], ['鸣', '吠'], ['死', '气'],
   ['地', '囊'], ['白', '虎'], ['月', '德', '合'], ['敬', '安'], ['玉', '堂'], ['普', '护'], ['解', '神'],
   ['小', '耗'], ['天', '德', '合'], ['月', '空'], ['驿', '马'], ['天', '后'], ['除', '神'], ['月', '破'],
   ['大', '耗'], ['五', '离'], ['天', '牢'], ['阴', '德'], ['福', '生'], ['天', '吏'], ['致', '死'],
   ['元', '武'], ['阳', '德'], ['天', '喜'], ['天', '医'], ['司', '命'], ['月', '厌'], ['地', '火'],
   ['四', '击'], ['大', '煞'], ['大', '会'], ['天', '愿'], ['六', '合'], ['五', '富'], ['圣', '心'],
   ['河', '魁'], ['劫', '煞'], ['四', '穷'], ['勾', '陈'], ['触', '水', '龙'], ['八', '风'], ['天', '赦'],
   ['五', '墓'], ['八', '专'], ['阴', '错'], ['四', '耗'], ['阳', '错'], ['四', '废'], ['三', '阴'],
   ['小', '会'], ['阴', '道', '冲', '阳'], ['单', '阴'], ['孤', '辰'], ['阴', '位'], ['行', '狠'], ['了', '戾'],
   ['绝', '阴'], ['纯', '阳'], ['七', '鸟'], ['岁', '薄'], ['阴', '阳', '交', '破'], ['阴', '阳', '俱', '错'],
   ['阴', '阳', '击', '冲'], ['逐', '阵'], ['阳', '错', '阴', '冲'], ['七', '符'], ['天', '狗'], ['九', '虎'],
   ['成', '日'], ['天', '符'], ['孤', '阳'], ['绝', '阳'], ['纯', '阴'], ['六', '蛇'], ['阴', '神'],
   ['解', '除'], ['阳', '破', '阴', '冲']]

/-- `lunar_python/util/LunarUtil.py` 41 `__DAY_YI_JI`: the records -/
def DAY_YI_JI_RECORDS : List (ℕ × ℕ × ℕ × ℕ) :=
  [(0x130, 0x1192531010D, 0x1838454151A4C200C1E23221D212726, 0x1030F522E1F),
   (0x100, 0x12430000C18, 0x18319000776262322200C1E1D, 0x106292C2E1F), (0x104, 0x132020E1A26, 0x17917155B0001025D, 0x10F522E3820),
   (0x11D, 0x1162E3A0A22, 0x1790F181113332C2E2D302F1554, 0x170012038), (0x110, 0x10E1A263202, 0x179026A17657603, 0x1522E201F),
   (0x105, 0x10D19250131, 0x17911192C2E302F00030401060F1571292A75, 0x1707C2052),
   (0x12F, 0x10C18243000, 0x14F2C2E2B383F443D433663, 0x10F01478A2015), (0x11D, 0x10E1A320226, 0x13840, 0x10001202B89),
   (0x12F, 0x114202C3808, 0x13807504089, 0x188), (0x129, 0x10E1A263202, 0x1383940, 0x16370018A75202B454F66),
   (0x105, 0x132020E1A26, 0x138394089, 0x10001202B), (0x122, 0x116223A0A2E, 0x1384C, 0x18A20),
   (0x120, 0x12B3707131F, 0x12C2E5B000739337C38802D44484C2425201F1E272621, 0x152297015),
   (0x135, 0x1121E2A3606, 0x12C2E2D2B156343364C, 0x10F4729710D708A20036A19), (0x104, 0x10D19250131, 0x15040262789, 0x10F712903),
   (0x13B, 0x1202C380814, 0x15040000738, 0x10F7D7C584F012063452B), (0x135, 0x11A2632020E, 0x150400089, 0x188),
   (0x113, 0x11A2632020E, 0x169687011180F791966762627201E, 0x10352292E80),
   (0x134, 0x1182430000C, 0x1291503000D332E53261F2075, 0x10F5238584F45),
   (0x10B, 0x1000C182430, 0x1297170192C2E2D2F2B3E363F4C, 0x10F52156320010347),
   (0x10B, 0x1131F2B3707, 0x1297115030102195283840D332C2E, 0x10F1F5863201D8A),
   (0x102, 0x1222E3A0A16, 0x1261F1E20232289, 0x152290058363F), (0x132, 0x116222E3A0A, 0x1261F201E232289, 0x18D),
   (0x139, 0x10D19310125, 0x1262322271E201D21, 0x152450F4F), (0x109, 0x10D19253101, 0x1262322271E202189, 0x11F45),
   (0x126, 0x116222E3A0A, 0x1262322271F1E20, 0x17129), (0x106, 0x10F1B273303, 0x117262322274050, 0x180387C6B),
   (0x12C, 0x10915212D39, 0x11707702C2E71291F20, 0x10F52000106111D),
   (0x115, 0x116222E3A0A, 0x1170007386A7448363F261F1E, 0x1030F79636F20),
   (0x126, 0x1030F1B2733, 0x11784832C2E5B26201F, 0x10F010D29),
   (0x113, 0x1182430000C, 0x1175447440D15838477656A49, 0x12B2E1F8A2022), (0x128, 0x1101C283404, 0x170504C7889, 0x188),
   (0x103, 0x10D19250131, 0x1700F181126151E20001A7919, 0x18D), (0x12F, 0x10915212D39, 0x1705283845B0D2F71, 0x10F202E41),
   (0x106, 0x13606121E2A, 0x170786289, 0x106802E1F), (0x123, 0x11824000C30, 0x170076A363F, 0x12920),
   (0x117, 0x1202C380814, 0x1700718111A302F717566, 0x10F2B2E20),
   (0x126, 0x13B0B17232F, 0x170545283842E71291A7933192A5D5A5040, 0x1090C384F45208A1D6B),
   (0x138, 0x1212D390915, 0x17039170F45513A2C2E7129242526271F201D, 0x10001035215),
   (0x13A, 0x115212D3909, 0x1703911170E2C2E2D2F4B15712952633D, 0x1092B8A20),
   (0x127, 0x1010D192531, 0x1702D155483840F63262720, 0x153292F017D4F38442B2E1F47),
   (0x117, 0x116222E3A0A, 0x1705C4C39171A4F0E7971295B5248, 0x10F2E1F1D), (0x137, 0x11A2632020E, 0x12E260F27201F, 0x1523815292F1A),
   (0x122, 0x10E1A260232, 0x164262322271F2021, 0x10F2F2938), (0x122, 0x12F3B0B1723, 0x1161A0F1526271F4C, 0x15861034738),
   (0x118, 0x12430000C18, 0x1161A7889, 0x1292E1F0F3861), (0x131, 0x117232F3B0B, 0x104795B3F651A5D, 0x10F52010620),
   (0x116, 0x114202C3808, 0x104170F79195D1A637566363F76, 0x101522E8A20),
   (0x139, 0x1132B37071F, 0x10470170F191A134C8384662426232227201E, 0x18D),
   (0x108, 0x10D19253101, 0x1040370181123220F1326271E2021, 0x12915), (0x13B, 0x10D19310125, 0x1040307177938494C, 0x10F262070),
   (0x117, 0x10E2632021A, 0x10403010218111A17332C2E2D2B15713E6575, 0x14538206429),
   (0x11D, 0x1142C380820, 0x104033918110F0D2C2E7129332D2B72528384547566, 0x18D),
   (0x11C, 0x11830000C24, 0x1040318111A17332C15290D200C7A, 0x147450638),
   (0x135, 0x10F2733031B, 0x1040318111A16175B795452848315302F6563395D, 0x138702920),
   (0x12E, 0x114202C3808, 0x104031975363F6366, 0x10F5401202C5283842E2F),
   (0x11E, 0x10E1A320226, 0x10403080618111A16332E2F152A09537919702C5445490D75072B, 0x180632038),
   (0x120, 0x1182430000C, 0x104067033392C7161262322271E1D210C, 0x18D), (0x12F, 0x1101C283404, 0x13F4889, 0x188),
   (0x11C, 0x12733030F1B, 0x13F74397677658988, 0x10F384720), (0x11D, 0x1293505111D, 0x13F8B657789, 0x10F2029702E7D),
   (0x135, 0x1111D293505, 0x13F8B6589, 0x11F20), (0x10A, 0x1020E1A2632, 0x13F656477, 0x10F2B712920),
   (0x105, 0x1111D290535, 0x13F6589, 0x188), (0x110, 0x10F1B273303, 0x13F88, 0x12B38200F),
   (0x11C, 0x1293505111D, 0x10F83843D363F776424, 0x115462F2C52032971), (0x12A, 0x10F1B273303, 0x10F17795B54838458, 0x152807C38),
   (0x111, 0x1121E2A3606, 0x10F172C2E387129363F7566512D4E4461, 0x10103475220),
   (0x13A, 0x1172F3B0B23, 0x10F171511793F76584C, 0x10347200C1D),
   (0x120, 0x12D39091521, 0x10F175B3975660745514F2B4825201E211D, 0x1010352292E),
   (0x12E, 0x10F1B273303, 0x10F170070792C2E261F, 0x10403412322),
   (0x128, 0x105111D2935, 0x10F1700707129385C363F3D1F1E232226, 0x180412B202F),
   (0x114, 0x114202C3808, 0x10F17000728705448757A, 0x1522E1F15562F),
   (0x105, 0x130000C1824, 0x10F17000102061979454F3A15477677, 0x1241F8A20),
   (0x121, 0x12F3B0B1723, 0x10F17000102060370392E52838453331F, 0x1452F2C266A79292B2038),
   (0x110, 0x10C18243000, 0x10F170001020E032A70692C2E302F802D2B0D7129474C201F2322, 0x15211183809615D),
   (0x134, 0x11A2632020E, 0x10F171170792F5B1566770001032C2B802D, 0x129387C2071),
   (0x134, 0x114202C3808, 0x10F0D33000103452E528384297115752620, 0x163386F70),
   (0x114, 0x115212D3909, 0x10F7045332C2E71201F1D21, 0x147011552295303),
   (0x127, 0x1101C283404, 0x10F70161715232238838426271F20, 0x17D0352),
   (0x119, 0x1121E2A3606, 0x10F705B0004037C5D15653F1F26, 0x1522B4738), (0x109, 0x1131F2B0737, 0x10F705215261E20, 0x1012E1F),
   (0x125, 0x1182430000C, 0x10F707B7C00012F75, 0x15220),
   (0x11B, 0x12531010D19, 0x10F706A151E201D528384544466, 0x147010C2E292F2C38),
   (0x120, 0x114202C3808, 0x10F707500261E20, 0x1382E1F),
   (0x105, 0x13606121E2A, 0x10F161A17452F0D33712C2E2B5443633F, 0x1150170208A03),
   (0x127, 0x10E1A263202, 0x10F150370002E0D3979528384532971331F1E20, 0x1477D),
   (0x10D, 0x106121E2A36, 0x10F5B8370000102060403161A494447, 0x1386A418A20),
   (0x11A, 0x117232F3B0B, 0x10F03700D332C2E2971152F52838463, 0x101004547380C),
   (0x126, 0x1101C283404, 0x10F03700D33195284835329711563, 0x101260038206B),
   (0x10E, 0x1131F2B3707, 0x10F03706A4F0D332C528384532E29711563, 0x1450075),
   (0x10F, 0x1131F2B3707, 0x10F0370010239332E2C19528384532971156375262720, 0x18D),
   (0x118, 0x117232F3B0B, 0x10F0370390D332C192E2971637547202322, 0x15815),
   (0x128, 0x10E1A263202, 0x10F0302791566046F, 0x129710D722A38528384202E45),
   (0x130, 0x10E1A263202, 0x10F030102392E15634447001F1E, 0x1293845200D7075),
   (0x138, 0x11E2A360612, 0x10F0300017039712952542D2C302F80380D2A363F3349483E616320, 0x11118150C1F2E),
   (0x120, 0x133030F1B27, 0x10F03000102700D29713963451F0C20, 0x1528338542F158061),
   (0x128, 0x1121E2A3606, 0x10F030001027039452971150D332C2F6327, 0x120528384),
   (0x103, 0x12C38081420, 0x10F030001022A0D3945297115528384637020, 0x1476A382E1F44),
   (0x126, 0x1010D192531, 0x10F03390D332C1929711563261D2E2322, 0x1382000521118750C706B),
   (0x115, 0x1131F2B3707, 0x10F033915666A52261E272048, 0x1382E2F6329712C01),
   (0x114, 0x10D19253101, 0x10F52838403700D332C29712E1F27201E2322, 0x115450175),
   (0x105, 0x1131F2B3707, 0x10F528400012E7129, 0x10920),
   (0x126, 0x13707131F2B, 0x10F528471295B795D2B155333565A446375661F201E272621, 0x100016B0C41),
   (0x113, 0x114202C3808, 0x10F280001363F8B4326232220, 0x12E1F47032F7D),
   (0x135, 0x116222E3A0A, 0x10F0211195465756679, 0x12F384570202B6A),
   (0x110, 0x115212D3909, 0x10F0102700D332C2E2F0319528384531529716345261F2322, 0x18D),
   (0x132, 0x1101C283404, 0x10F0102037039330D5284832971152E1F0C, 0x10026206B), (0x137, 0x116222E3A0A, 0x10F003854, 0x120521D21),
   (0x106, 0x1020E1A2632, 0x10F00175058, 0x15D6B80382E), (0x116, 0x11B2733030F, 0x10F00701784831952712C2E1526271F, 0x103380620),
   (0x11F, 0x12B3707131F, 0x10F00701A17830E544C5C78, 0x17129632E1F38208A452F),
   (0x116, 0x115212D3909, 0x10F00040370396A742E15444948, 0x1458A384F20), (0x121, 0x116222E3A0A, 0x10F005B261F20, 0x12E2F),
   (0x11D, 0x12531010D19, 0x10F0003450D3329712C2E2F1575, 0x1528A63705A20587D7C),
   (0x112, 0x117232F3B0B, 0x10F00030D70332C2E3952838453542971156375, 0x16B20),
   (0x119, 0x11B2733030F, 0x10F000301020D297115332E1F0C, 0x116522026),
   (0x12E, 0x1121E2A3606, 0x10F00030102700D332E2C192971155383846375261F1E20, 0x18D),
   (0x11F, 0x133030F1B27, 0x10F00030102700D19297115332C2B535448, 0x12E45208A),
   (0x100, 0x12632020E1A, 0x10F00030102705283842E544779, 0x12920454F754C38),
   (0x136, 0x116222E3A0A, 0x10F0052037029710D332C15, 0x17545584F8A201D21), (0x121, 0x1121E2A3606, 0x10F00074850, 0x18A20),
   (0x136, 0x10D25310119, 0x10F00071A706A717677492923221E202726, 0x180522E1F),
   (0x139, 0x11E2A360612, 0x10F006A385040740717, 0x11F7063), (0x11E, 0x1212D390915, 0x10F006A1938271779, 0x1565A4575522F801F1E63),
   (0x12B, 0x1121E2A3606, 0x10F00010D0302703352838453297115632E, 0x1208A454F),
   (0x12B, 0x10E1A263202, 0x10F000170390D332E2971152F63751F1E20, 0x152846A38), (0x11F, 0x114202C3808, 0x10F000106387129, 0x12E1F),
   (0x124, 0x114202C3808, 0x10F0001062E7129, 0x15220),
   (0x110, 0x10814202C38, 0x10F0001062871292E7C528384032C5C2A15767765, 0x111185D8A206B),
   (0x108, 0x1131F2B0737, 0x10F0001067C1F20, 0x15229),
   (0x100, 0x1202C380814, 0x10F0001020D700339332C192A83842971152E1F0C20262322, 0x10652563861),
   (0x110, 0x1111D293505, 0x10F000102700D332C2E297115383F631F20, 0x1034756),
   (0x12B, 0x114202C3808, 0x10F000102700D332C712E15261F201E, 0x180036A614738),
   (0x131, 0x10C18243000, 0x10F000102700D335283845329711563, 0x138048A7D4520),
   (0x12A, 0x114202C3808, 0x10F000102702E15471F1E, 0x1294F2B452C2F2680),
   (0x111, 0x10D19253101, 0x10F0001022E792D3E75663D19, 0x1472063703852292B),
   (0x139, 0x1222E3A0A16, 0x10F0001022E154826271F1E203874362322, 0x10363),
   (0x112, 0x10D19253101, 0x10F000102032971152C2E19, 0x14720637038522B),
   (0x115, 0x1111D293505, 0x10F000102030D70332E3919528384532971152B2F201F0C, 0x18D),
   (0x11B, 0x1232F3B0B17, 0x10F000102030D7033528384534529711520, 0x1634758),
   (0x114, 0x1131F2B3707, 0x10F000102030D332C2E195283845329716375261E2322, 0x18D),
   (0x119, 0x115212D3909, 0x10F00010203700D332C2E1929711552838453637526202322, 0x18D),
   (0x109, 0x1111D293505, 0x10F00010203700D332E2F192971152B52838453631F20, 0x18D),
   (0x133, 0x11A2632020E, 0x10F00010203700D332E2F1929711552838453261F201E2322, 0x18D),
   (0x103, 0x12E3A0A1622, 0x10F0001020370332C2E2F1575261F, 0x12971476A45835238),
   (0x10C, 0x1111D293505, 0x10F0001020370332E2F0D19297115637566302B2C3979, 0x18D),
   (0x108, 0x1000C182430, 0x10F000102037039297175261F1D21, 0x1454F2E156341),
   (0x10F, 0x117232F3B0B, 0x10F0001020370390D3319297115632E2C752620212322, 0x18D),
   (0x107, 0x13606121E2A, 0x10F0001020370390D332C1929712E157563548384534C, 0x120248A),
   (0x138, 0x116222E3A0A, 0x10F0001020370390D1952838453542971631F0C, 0x11520),
   (0x136, 0x114202C3808, 0x10F00010203703915632719792322, 0x18026204529715875),
   (0x10F, 0x1111D293505, 0x10F00010203528384157033, 0x1752971206B452F2B262E),
   (0x105, 0x13404101C28, 0x10F00010206030D7129302F79802D7C2B5C4744, 0x111701D20528438),
   (0x133, 0x1111D293505, 0x10F00010206181139702E1F686F6A792D2C304E153375664923221D21, 0x152296B0D80),
   (0x10D, 0x115212D3909, 0x10F000102070D70332C2E19528384297115637526201E2322, 0x18D),
   (0x105, 0x12C38081420, 0x10F0001021A175D2C19152E302F7183846379, 0x18A20704F754541),
   (0x10A, 0x1131F2B3707, 0x10F001A651707, 0x1565A58202E1F4763), (0x120, 0x1121E36062A, 0x10F11707B7C5271291E20, 0x12E1F),
   (0x139, 0x1111D293505, 0x10F11700001522E71291F20, 0x12B), (0x107, 0x1131F2B0737, 0x10F11700001397129, 0x12E20),
   (0x102, 0x1111D293505, 0x10F11707129, 0x12E1F20), (0x102, 0x1131F37072B, 0x10F1152702E2F71291F20, 0x10001),
   (0x103, 0x1131F37072B, 0x10F1152702E2F71291F20, 0x17A), (0x13A, 0x1111D293505, 0x10F117B7C2C2E71291F20, 0x15203),
   (0x100, 0x1111D350529, 0x10F110001702E2F71291F20, 0x106), (0x121, 0x1101C280434, 0x10F11000170717B, 0x1522E1F),
   (0x10A, 0x106121E2A36, 0x10F110001708471292E1F20, 0x10338805156), (0x11C, 0x1121E2A3606, 0x10F1100017B7C702E7129, 0x1522B),
   (0x122, 0x12D39091521, 0x10F110039702C2E522F1574487B7C2D4E804B, 0x1098A20453861),
   (0x12B, 0x105111D2935, 0x10F1118795B65170002195D, 0x152382E8A20),
   (0x11E, 0x12531010D19, 0x10F111829711500010370390D332E750C201F, 0x14552832F382B80),
   (0x104, 0x12A3606121E, 0x10F1118175C000301027039450D29332C2E2F15631F, 0x18A5820),
   (0x120, 0x131010D1925, 0x10F1118032A0D545283841A802D2C2E2B71296366774744201F26232221, 0x1010900150C),
   (0x106, 0x12C38081420, 0x10F11180300706A2E1549466319, 0x1292F26806B382B207545),
   (0x106, 0x12E3A0A1622, 0x10F1118528384530001035C702971152B332C2E63201F1E23222621, 0x16B75452D4F80),
   (0x12E, 0x1111D293505, 0x10F1118060300017B7C792E39767566261F20, 0x171298051),
   (0x136, 0x1232F3B0B17, 0x10F111800171A454F514E3A3871157765443D23221E262720, 0x180612E1F),
   (0x11C, 0x1212D390915, 0x10F11180003706A4F0D332C2E192971155363751F20262322, 0x15247464161),
   (0x128, 0x13B0B17232F, 0x10F111800037039450D2971332C632026, 0x11F2E2B385283),
   (0x127, 0x13B0B17232F, 0x10F11180006032A0D70332E011954838471152C202322, 0x158477D63),
   (0x10C, 0x10814202C38, 0x10F1118000106287129705B032C2E302F802D4E2B201F, 0x15284583841),
   (0x108, 0x1380814202C, 0x10F11180001027039302971542F7526201E, 0x163472E151F58),
   (0x13A, 0x11E2A360612, 0x10F1118000102030D70332C2E192971158384535426201E2322, 0x1471F),
   (0x11B, 0x11F2B370713, 0x10F1118000102030D70332C2E195283845329711563261F0C20, 0x147457525),
   (0x122, 0x13505111D29, 0x10F1118000102030D70332E2C192971153953631F0C262720, 0x152846125),
   (0x128, 0x1390915212D, 0x10F111800010203700D332C2E192971152F4B49471F270C2322, 0x152562B20),
   (0x129, 0x1390915212D, 0x10F111800010203391929710D1552838453, 0x12075708A45630941),
   (0x10F, 0x10A16222E3A, 0x10F111800010206032A0D097170292D302F1575761320, 0x1521F4725),
   (0x11D, 0x11F2B370713, 0x10F18000102111A1703154F2C2E382D2F807566, 0x17163708A1F207D),
   (0x12A, 0x105111D2935, 0x10F111800017C5C2C2E7129, 0x15270153820),
   (0x121, 0x12B3707131F, 0x10F11185C0370332D152322528384636626271E, 0x12F292C2E1F000106),
   (0x101, 0x12430000C18, 0x10F11185C0001092A0D7014692983847B7C2C2E302F802D2B, 0x106454F208A),
   (0x12E, 0x10D19253101, 0x10F11181200171A7919547638, 0x15215201D),
   (0x109, 0x13A0A16222E, 0x10F1A1716007015713F261F2720, 0x15263587D2B4703),
   (0x104, 0x1111D293505, 0x10F1A0070153871291F20, 0x17A76),
   (0x129, 0x1010D192531, 0x10F181179005B712980152D4E2A0D533358, 0x15270208A),
   (0x111, 0x10814202C38, 0x10F181138171A7975665B52845415, 0x147701F8A20),
   (0x113, 0x1121E2A3606, 0x10F181117795B5C007054292A0D690403332D2C2E66632B3D, 0x18A454F38),
   (0x122, 0x1121E2A3606, 0x10F1811705200012E71291F20, 0x138), (0x12A, 0x116222E0A3A, 0x10F1811705200012E71291F20, 0x1062B),
   (0x127, 0x114202C0838, 0x10F18117052000171291E20, 0x12E1F), (0x127, 0x116222E0A3A, 0x10F18117000012E71291F20, 0x1527A),
   (0x106, 0x1111D290535, 0x10F1811700001062E2F1F20, 0x17129),
   (0x112, 0x114202C3808, 0x10F181100062839707952542C2E302F03565A7566441F1E, 0x10D29802B20),
   (0x129, 0x11824300C00, 0x10F181100012C2E7129, 0x15220), (0x125, 0x1121E2A0636, 0x10F18110001261F20, 0x10352),
   (0x12E, 0x10915212D39, 0x10F18110001702C2E7129, 0x16F454F098A20),
   (0x125, 0x1030F1B2733, 0x10F18110001702C2E71291F0D2B152F2127, 0x152831620),
   (0x114, 0x116222E3A0A, 0x10F18110001707B7C0D7129, 0x152565A152B20),
   (0x134, 0x117232F3B0B, 0x10F1811000104037115454F7677657B7C392023222726210C, 0x152092E1F),
   (0x127, 0x13707131F2B, 0x10F181100010603797B7C802D302F2B6743441F202322, 0x12952477D25),
   (0x128, 0x114202C0838, 0x10F181100017B7C2E71291F20, 0x1036F),
   (0x133, 0x10D19253101, 0x10F18110001027939706954528384685D15565A75201E1D26, 0x129032E),
   (0x111, 0x1182430000C, 0x10F1811000102062A0D2C2D804B2B672E2F7129, 0x170471F8A20),
   (0x130, 0x117232F3B0B, 0x10F5C707971292C2E0E032A0D6A804B2D8C2B3348634C, 0x1521109154620),
   (0x131, 0x115212D3909, 0x10F5C5B0001032A0D7052842C2E71291F20, 0x11118517D46),
   (0x12B, 0x10F1B273303, 0x10F5C111800015B712952841F20, 0x1756A25),
   (0x11A, 0x12733030F1B, 0x11545332C2E2F84836375662620, 0x10F0003700D71292B),
   (0x11C, 0x10E1A320226, 0x11516291211020056, 0x1063820),
   (0x107, 0x1000C182430, 0x11551000403706A454F3A3D771F262322271E1D21, 0x1382B415220),
   (0x116, 0x117232F3B0B, 0x11500443626271F1E, 0x129710F47380D195203),
   (0x137, 0x1182430000C, 0x1150001021745512E443D65262322, 0x12B63387C),
   (0x118, 0x1192531010D, 0x1151A83842627202322, 0x1580F7003632E1F297C),
   (0x126, 0x10E1A263202, 0x115391A302F83845475662627201E, 0x10F702E46290047),
   (0x108, 0x13606121E2A, 0x15B000102073911522C302F3A678C363F33490D482425200C1E2322, 0x10F15382E1F61),
   (0x116, 0x11E2A360612, 0x15B71297000010611182A0D39792C2E332D4E80151F202621, 0x152454F38),
   (0x104, 0x12C38081420, 0x15B11180001020328700D332C2E195283847115632F751F2720, 0x1290F4766),
   (0x130, 0x10C18243000, 0x1201E27262322, 0x189), (0x102, 0x13404101C28, 0x12A0D11180F52848353037039156358332C2E, 0x138200026),
   (0x128, 0x1010D192531, 0x14089, 0x1030F565A61206B), (0x127, 0x11824300C00, 0x14089, 0x188),
   (0x136, 0x11C28340410, 0x10370833F0F6A5215, 0x1010D582E1F202C2F29),
   (0x138, 0x1112935051D, 0x103700F, 0x179192C2E2D715275262322271F201D21),
   (0x136, 0x1112935051D, 0x10370110F45510D3371290941614C522623222720, 0x18D),
   (0x13B, 0x1152D390921, 0x103047039171A533852443D363F, 0x18D),
   (0x111, 0x10F1B273303, 0x1030402111A16175B4F3A2B153E0079015D54528483696A51, 0x17006200F),
   (0x105, 0x10F1B270333, 0x103041A174533302F56795B3E808339528454, 0x1700F2920),
   (0x126, 0x1121E2A3606, 0x1037B7C2E2F261F20, 0x10F),
   (0x114, 0x11E2A360612, 0x1030270170F45513A2C71295283842A0D532D24252623222720, 0x1155A382E1F),
   (0x12F, 0x11B2733030F, 0x103027011170D332D2C2E2F716152838454, 0x1010F201F),
   (0x12C, 0x1121E2A3606, 0x103027039450D332C2F2D2971528384636626202322, 0x15815),
   (0x135, 0x1212D390915, 0x103020E0F18110D332C2E2D2F4971293E615244756653, 0x18A2025),
   (0x131, 0x11B2733030F, 0x1030102703945802D2C512B7129092322270C7566, 0x1112E5283),
   (0x125, 0x12D39091521, 0x1030102062C2E543E3D636679, 0x1380D1946297100),
   (0x11F, 0x1293505111D, 0x103111A171538193E3F, 0x10F632C2E70454F200C),
   (0x119, 0x117232F3B0B, 0x1031A2B7915656A, 0x10F177001204529710D632E2F),
   (0x102, 0x132020E1A26, 0x1033945302F838475262720, 0x1297071000F2E1F38),
   (0x110, 0x117232F3B0B, 0x10339332C2E1575201E26, 0x10F520D631F29712A724738),
   (0x126, 0x1390915212D, 0x10339332C2E302B66201D1F27, 0x10D2971010015520F6B),
   (0x10E, 0x115212D3909, 0x103392D2E332F211D201F1E27, 0x10F7015380029710D1958), (0x124, 0x116223A0A2E, 0x1036F791E20, 0x1522E1F),
   (0x131, 0x11D29350511, 0x15283845B79037B7C802D2C2E4E302F2B38493D4463664C1F2021, 0x10F0D7129),
   (0x117, 0x115212D3909, 0x15283845303702971150D2F, 0x1388A6A6D0F20),
   (0x112, 0x1111D293505, 0x1528384530370331929272E2B2F631F1D20, 0x10F156B38),
   (0x10E, 0x10D19253101, 0x1528384530339454F0D297115332E2F637520, 0x10F007058),
   (0x102, 0x12A3606121E, 0x1528384530339332E152C2F58631F20, 0x1380D000F29),
   (0x100, 0x1283404101C, 0x1528384530003010215392C20, 0x11112180F29560D2E1F7545),
   (0x111, 0x115212D3909, 0x15283845300031929150D332C2E63, 0x10F217045208A7175),
   (0x121, 0x13505111D29, 0x15283845300010670802D2C2E4E155B201F1E232221, 0x1380F71296A),
   (0x10E, 0x117232F3B0B, 0x15283845354037029711575262720, 0x1631F58000F2E3801),
   (0x10D, 0x1111D293505, 0x1528384000103451915332C2E631F2720, 0x129716A0D0F70),
   (0x119, 0x11D29350511, 0x15283840001032E1570637566302F391F, 0x10F47297120),
   (0x130, 0x116222E3A0A, 0x15283845479036A2627201E, 0x10F380D70297115012F),
   (0x11A, 0x11F2B370713, 0x1528384542E03700F111869565A7566631F1E2021, 0x1297138000C),
   (0x131, 0x1121E2A3606, 0x152838454443D65002C2E15495D1F, 0x10F417D712B3863),
   (0x10F, 0x10D19253101, 0x15283845444360F11756415, 0x12C2F29016B472E2B2038),
   (0x11D, 0x1212D390915, 0x1528384545363000103332E15, 0x10F1F197029710D757D20),
   (0x132, 0x1121E2A3606, 0x1528384546315332C2E2F26201F2322, 0x10F0D45002971756B),
   (0x117, 0x1192531010D, 0x152838454754C2971150301022E, 0x10F63206A0938268A41),
   (0x117, 0x11B2733030F, 0x152848353000103297115332E2F19, 0x10F8A514F6A66207545),
   (0x126, 0x11824300C00, 0x1528403395B2F1E20, 0x10F01),
   (0x12D, 0x10B17232F3B, 0x15254700001020612692D4E584647336375662E1F1E, 0x171290D2620),
   (0x137, 0x1131F2B3707, 0x1525400045B17791A565D754C7866, 0x12E1F207C), (0x134, 0x10F2733031B, 0x1483F89, 0x188),
   (0x138, 0x1232F3B0B17, 0x1767779392623222789, 0x1152B1F1D20), (0x10E, 0x10A16222E3A, 0x1767789, 0x15283002920),
   (0x125, 0x114202C3808, 0x17665261F20, 0x10F29), (0x11A, 0x1222E3A0A16, 0x17665262322271F201E21, 0x10F00298071),
   (0x124, 0x11824000C30, 0x17889, 0x1292E1F), (0x124, 0x1101C283404, 0x18D, 0x188),
   (0x132, 0x11D29350511, 0x163767789, 0x1522E0006206B), (0x131, 0x1131F2B3707, 0x17B7C343589, 0x10F70),
   (0x138, 0x12632020E1A, 0x17B7C343589, 0x1520F), (0x120, 0x10E1A260232, 0x17B34, 0x188),
   (0x112, 0x11C28340410, 0x102703918110F7919155283756626232227201E, 0x1012C2E1F0C),
   (0x129, 0x1121E2A3606, 0x1020F11161A17454F2C2E2D302F2B38434C, 0x120700163),
   (0x128, 0x11824300C00, 0x102060418110D332C2E415B637566262322271F20, 0x1520F), (0x123, 0x1142038082C, 0x107504089, 0x10F01),
   (0x10C, 0x115212D3909, 0x107262723221F40, 0x10F712952), (0x13B, 0x12430000C18, 0x10717363F1A2C4F3A67433D8B, 0x171290F010347),
   (0x11A, 0x12531010D19, 0x10704031118528384542D2E4E49201F1E1D2127, 0x1292B000C),
   (0x13B, 0x1283404101C, 0x1073F7765644889, 0x10120), (0x114, 0x1111D293505, 0x1074048261F202322, 0x10F71454F15000180),
   (0x108, 0x1111D293505, 0x107404826271F1E2089, 0x188), (0x12C, 0x10D19253101, 0x107565A5283845463756677261F20, 0x1010F152961),
   (0x120, 0x12F3B0B1723, 0x107487677393F89, 0x10F2952151F1D), (0x130, 0x1111D293505, 0x1074889, 0x106520F38),
   (0x108, 0x117232F3B0B, 0x1074889, 0x188), (0x13B, 0x1131F2B3707, 0x1074889, 0x188),
   (0x132, 0x115212D3909, 0x107762623221F1E20, 0x1000F1552296B2F),
   (0x12A, 0x10D19253101, 0x10776776A742623221F200C211D1E, 0x111180F2F5206802B),
   (0x10B, 0x104101C2834, 0x10776776564, 0x1000F293820), (0x111, 0x1101C283404, 0x10706397B7C794C636A48, 0x1520F71294720),
   (0x126, 0x114202C3808, 0x1077C343589, 0x188), (0x10A, 0x1380814202C, 0x1076A79040363660F5D363F, 0x152292E1F20382F155601),
   (0x123, 0x116223A0A2E, 0x1076A696819, 0x10F29), (0x118, 0x1222E3A0A16, 0x1076A171552847983546578, 0x1712970010F),
   (0x12D, 0x1182430000C, 0x1076A48, 0x145752F29384C0F204F612B), (0x130, 0x1131F2B3707, 0x1076A7626271F1E20, 0x10D0F29382F2E),
   (0x10E, 0x10814202C38, 0x107343589, 0x10652), (0x138, 0x11C28340410, 0x1070039201F0C2789, 0x106030F292F),
   (0x123, 0x1101C280434, 0x1076564, 0x10F2920),
   (0x102, 0x10D19253101, 0x1073918111A17332C2E71292322271F1E20481D45548384, 0x138002F70),
   (0x12A, 0x11824300C00, 0x17C343589, 0x188), (0x101, 0x1172F3B0B23, 0x16A79363F65, 0x10F292B71),
   (0x118, 0x11B2733030F, 0x16A170F19, 0x15845754C201F4F3824), (0x130, 0x11B2733030F, 0x16A170F1963766F, 0x15452201F),
   (0x132, 0x10C18243000, 0x16A0339332C20528384531563, 0x129713801000F0C47806B),
   (0x13B, 0x12A3606121E, 0x177766564000789, 0x10F52201E8A), (0x101, 0x1202C380814, 0x11F2027260076232289, 0x10F295283),
   (0x139, 0x10F1B330327, 0x13435, 0x188), (0x109, 0x10F1B273303, 0x134357B7C, 0x188),
   (0x118, 0x1121E2A3606, 0x134357B7C7789, 0x10F29), (0x11D, 0x1232F3B0B17, 0x134357B7C89, 0x10F20),
   (0x121, 0x133030F1B27, 0x134357B7C89, 0x1030F), (0x127, 0x1390915212D, 0x134357B7C89, 0x17129),
   (0x117, 0x11D29350511, 0x13435073989, 0x188), (0x102, 0x12C38081420, 0x134357C89, 0x10111180F2920),
   (0x106, 0x130000C1824, 0x134357C89, 0x17129), (0x11A, 0x114202C3808, 0x134357C89, 0x18A20),
   (0x136, 0x1182430000C, 0x13435000789, 0x188), (0x135, 0x1232F3B0B17, 0x134350089, 0x10F20),
   (0x125, 0x13707131F2B, 0x134353989, 0x10F20), (0x137, 0x10D25310119, 0x1343589, 0x10F5220),
   (0x12D, 0x10F1B273303, 0x1343589, 0x10F715229), (0x10D, 0x1131F2B3707, 0x1343589, 0x188),
   (0x130, 0x1121E2A3606, 0x1343589, 0x188), (0x11C, 0x116222E3A0A, 0x1343589, 0x188), (0x119, 0x1131F2B3707, 0x1343589, 0x188),
   (0x10F, 0x115212D3909, 0x1343589, 0x188), (0x132, 0x114202C3808, 0x1343589, 0x188), (0x113, 0x10D19253101, 0x1343589, 0x188),
   (0x111, 0x117232F3B0B, 0x1343589, 0x188), (0x11E, 0x1142C380820, 0x1017018110F1A2E15495247838463462322271F, 0x18D),
   (0x103, 0x10F1B270333, 0x10103040818111A155284262322271E20217A79708330, 0x138472E63),
   (0x11B, 0x114202C3808, 0x1010670170F0E3A294152838454262322271F201E, 0x12E181544),
   (0x12C, 0x10F1B273303, 0x101067071292C2E1F20, 0x11103150F52), (0x10A, 0x117232F0B3B, 0x1010670181126271F202165, 0x12938),
   (0x116, 0x1182430000C, 0x10106111839513A2C2E2D2F8C804B4723221F63, 0x171522920),
   (0x137, 0x10F2733031B, 0x1010203040618110F3315292A271D200C6339171A712C2E30491E21, 0x17A),
   (0x121, 0x10E1A260232, 0x1010206040318110F2E292A27200C70072C302F541F392B49, 0x13815),
   (0x112, 0x11A2632020E, 0x1010206110F452C2E7129095B5226232227201F0C, 0x158804B036B2B38),
   (0x11C, 0x1142C380820, 0x101023918112E2D493E52756624262322271F20, 0x18D), (0x112, 0x1121E2A3606, 0x1008354, 0x106462F2E1F),
   (0x127, 0x1030F1B2733, 0x100797084831754, 0x10F2E472D4E1F),
   (0x106, 0x10D19250131, 0x10079701811072C2E01060F33152627200C7A1A302F4576631F2B, 0x180523829),
   (0x100, 0x1172F3B0B23, 0x100790F072C2E0103047018111A262322271E7A302F5448637545, 0x129381556),
   (0x11E, 0x1101C340428, 0x1007952151E20, 0x10F2E1F), (0x133, 0x10F1B273303, 0x1007984831A160F1719, 0x1632E20471D6B),
   (0x101, 0x1152D390921, 0x10079110F0304062A528423222627207A19701A2C2E2F5D83, 0x12945),
   (0x113, 0x10F1B273303, 0x10079181A165B332F2B262322271E2021030469702D4E49712930845D, 0x1454F),
   (0x105, 0x1152139092D, 0x10079192E2F030417332D1552847A5D, 0x14E20), (0x11F, 0x1162E3A0A22, 0x1003826232277, 0x1632E2052),
   (0x13A, 0x10D19310125, 0x10038262389, 0x15215), (0x113, 0x11C28340410, 0x100384089, 0x10F202E157C),
   (0x107, 0x104101C2834, 0x100384089, 0x115296763), (0x11F, 0x1101C283404, 0x100384740, 0x10F20),
   (0x137, 0x11C28340410, 0x100387765504089, 0x10F157C), (0x104, 0x1131F37072B, 0x100385476, 0x1521F),
   (0x113, 0x116222E3A0A, 0x1003854767789, 0x12E1F5220), (0x110, 0x1131F2B3707, 0x1003854637519, 0x1205D1D1F52151E21),
   (0x10F, 0x1121E2A3606, 0x1003889, 0x152201F1D47), (0x133, 0x1121E2A3606, 0x1003889, 0x188),
   (0x11F, 0x1212D390915, 0x1001D23221E2789, 0x152290F2E1F20), (0x12B, 0x107131F2B37, 0x1002C7080305C784C62, 0x12E1F4720),
   (0x101, 0x1283404101C, 0x1004D64547589, 0x10F29), (0x12E, 0x1131F2B3707, 0x1005040, 0x1522E1F0F2C20),
   (0x104, 0x13404101C28, 0x1005089, 0x1032C2E1F), (0x133, 0x1182430000C, 0x1005089, 0x188),
   (0x115, 0x1192531010D, 0x100261F23221E201D2189, 0x18D), (0x112, 0x1131F2B3707, 0x100261F2322271E200C89, 0x18D),
   (0x11E, 0x1121E2A3606, 0x10026271E20, 0x12F2E1F), (0x133, 0x116222E3A0A, 0x1002627241F1E20232289, 0x18D),
   (0x133, 0x114202C3808, 0x1002627651E20232289, 0x188), (0x11B, 0x1182430000C, 0x100262789, 0x1292C2E1F2B2F),
   (0x12A, 0x107131F2B37, 0x100262322271F1E203F8B65, 0x152290F0380),
   (0x102, 0x115212D3909, 0x1001779332D2322271E2007760304, 0x138290F),
   (0x11C, 0x11F2B370713, 0x100173883546365756619, 0x1466115201F701D475224),
   (0x134, 0x10D25310119, 0x100170F79191A6540, 0x1712909387C20),
   (0x115, 0x10E1A263202, 0x100170F332C2E2D2F802952443F26232227201F, 0x115637C38),
   (0x13A, 0x1132B37071F, 0x100170F7665776489, 0x18D), (0x12A, 0x1390915212D, 0x100177689, 0x10F52804F25),
   (0x107, 0x12E3A0A1622, 0x100177179546A76, 0x10F52443D1F), (0x12D, 0x10915212D39, 0x10070, 0x10F292C2E791F),
   (0x113, 0x1131F2B3707, 0x1007083624C, 0x10F38202E7D4F45471F71),
   (0x107, 0x1380814202C, 0x100704F0D332C2E2D15363F261F20274C, 0x10F2906036F47),
   (0x103, 0x13404101C28, 0x100702C2E164C157126271F1E202425363F, 0x129386A032B),
   (0x10F, 0x10F1B273303, 0x100700F1715262720, 0x1472E3863), (0x109, 0x115212D0939, 0x1007022230726, 0x12E17712952302F),
   (0x115, 0x115212D3909, 0x100704889, 0x188), (0x134, 0x11C28340410, 0x10070784889, 0x10345201F),
   (0x121, 0x12D39091521, 0x1007007482089, 0x12E1F5847), (0x10B, 0x10D19253101, 0x10070071A010618110F5B52846775, 0x1632620),
   (0x12E, 0x116222E3A0A, 0x100701A17794C0F302F715475, 0x12E454F8A2024),
   (0x13A, 0x10F1B330327, 0x1007018111A1617192E15382627201F656477, 0x14F09),
   (0x10A, 0x10F1B273303, 0x1002E2F18110F5B3315292A26271F20210C7A70710102393E19, 0x1035A),
   (0x137, 0x114202C3808, 0x1002E4344793F26271F20, 0x103702C2F292B381A),
   (0x131, 0x10E1A263202, 0x100161A5D454F153826201E27, 0x17D0D29),
   (0x104, 0x1152139092D, 0x10004037039180F332D152952262322271F0C533A83, 0x141178047),
   (0x135, 0x11F2B370713, 0x10004037B7C0F79494766754667, 0x180293869208A),
   (0x11E, 0x1162E3A0A22, 0x100040301067018111A0F332C15292A261E200C7A7919712F5D52838454, 0x15617454F),
   (0x106, 0x13404101C28, 0x1000403110F527079156523221E2027, 0x10129802E1F6B),
   (0x11D, 0x11830000C24, 0x10004031A170F11332C2E302F1571292A657677451949, 0x170201D52),
   (0x118, 0x1102834041C, 0x10004031811171A5B332C2E155D52, 0x10D292045),
   (0x104, 0x117233B0B2F, 0x100040318110F1519262322271E2021, 0x152831F38),
   (0x125, 0x13B0B17232F, 0x100046A7966444C7765, 0x1010C202F38520F70292E), (0x131, 0x114202C3808, 0x1003F261F202789, 0x188),
   (0x136, 0x1131F2B3707, 0x1003F657789, 0x17152290F032B), (0x13A, 0x12632020E1A, 0x1003F651F0C2027232289, 0x10F29),
   (0x12B, 0x116222E3A0A, 0x1003F89, 0x188), (0x136, 0x1212D390915, 0x1000F76, 0x1032E1F522C292B),
   (0x122, 0x12B3707131F, 0x1000F7765, 0x12E1F7C46),
   (0x107, 0x10F1B273303, 0x1000F01111A1615292A2627200C2C670279538384543E49, 0x16345),
   (0x112, 0x10F1B273303, 0x1000F1320, 0x163803829), (0x136, 0x10F2733031B, 0x1000F1323222627, 0x12E38290315),
   (0x135, 0x10D25310119, 0x100676589, 0x10F20), (0x10F, 0x10C18243000, 0x100401D232289, 0x171290F4720),
   (0x12B, 0x1101C283404, 0x10040395089, 0x188), (0x103, 0x130000C1824, 0x1004023222089, 0x10F29111847),
   (0x10D, 0x10A16222E3A, 0x1004089, 0x10F52), (0x111, 0x11A2632020E, 0x1004089, 0x10F014720),
   (0x10B, 0x13A0A16222E, 0x100037039454F0D332971152C4C48, 0x1090F476341382E),
   (0x10A, 0x1111D293505, 0x100037039041A26271F1E202322, 0x10F2F2C335129452E0D3A),
   (0x13B, 0x1222E3A0A16, 0x1000370396A450D332F4B154C, 0x10F208A7D41381F2E),
   (0x114, 0x10F1B273303, 0x100030401061A16170F332E71292627200C02696A45514F0D2C2D4E497A, 0x12B),
   (0x10B, 0x10F1B273303, 0x1000304111A33152D2E302F71292A5284530770022B, 0x10F634520),
   (0x13B, 0x10F1B330327, 0x100030418111617332E2D2F292A52845407020D302B, 0x1090F4520),
   (0x101, 0x10F1B273303, 0x1000304080618110F1A2E2D0D3371292A2C302F7566010239454E802B, 0x16320),
   (0x139, 0x12430000C18, 0x100036A7415384878, 0x145751F20240F522E834F),
   (0x12E, 0x1182430000C, 0x1000301394F2E154763751F27, 0x10F707A802629710D1920),
   (0x135, 0x114202C3808, 0x10003391983845475, 0x12E1F0F6A702971722A0D), (0x104, 0x10F1B270333, 0x100483F, 0x16338200F),
   (0x12A, 0x13B0B17232F, 0x100481F2023221E27262189, 0x10F292C2E), (0x11B, 0x1122A36061E, 0x10076645089, 0x188),
   (0x119, 0x1202C380814, 0x10076777566262322271F201E, 0x10F11185229), (0x10D, 0x1101C283404, 0x100763989, 0x10F20),
   (0x136, 0x11E2A360612, 0x100788B89, 0x10671292E), (0x125, 0x1010D192531, 0x100784C793989, 0x10F29702E1F208A),
   (0x121, 0x131010D1925, 0x10006261F1E201D212322, 0x10F29381118),
   (0x101, 0x12A3606121E, 0x100060403702C2E4C154947443D651F, 0x10D29), (0x120, 0x1101C283404, 0x10006522E261F20, 0x10F7129),
   (0x139, 0x12632020E1A, 0x100060724232227261F2025, 0x1520F157929382F), (0x122, 0x131010D1925, 0x10006547677, 0x10F5229151F20),
   (0x11B, 0x10E1A320226, 0x100061A161718110F292A0C26271F21797001022F49, 0x147),
   (0x10D, 0x10814202C38, 0x1002876396577261F20, 0x15283290F), (0x137, 0x1212D390915, 0x10028397976771E232227, 0x10F522E474420),
   (0x127, 0x1121E2A3606, 0x1006389, 0x188), (0x122, 0x1101C280434, 0x1007B7C3989, 0x188),
   (0x11E, 0x11830000C24, 0x1007B343589, 0x188), (0x105, 0x12E3A0A1622, 0x100021719792B155D5466774962, 0x1010611180F2920),
   (0x130, 0x114202C3808, 0x100020370454F0D3933192C2E2D156375261F202322, 0x10F71),
   (0x123, 0x10E1A260232, 0x10002070818111A16175B153E445D5452848365647576, 0x12038454F),
   (0x115, 0x1182430000C, 0x10007385476771548, 0x152061F20), (0x124, 0x12D39091521, 0x10007504089, 0x10F291570),
   (0x130, 0x115212D3909, 0x10007504089, 0x1060F71702F29), (0x118, 0x115212D3909, 0x10007504089, 0x188),
   (0x10B, 0x117232F0B3B, 0x1000770171989, 0x10F2E2038), (0x12F, 0x10B17232F3B, 0x100077089, 0x1522E1F8A20),
   (0x12C, 0x107131F2B37, 0x1000704036939487C4466, 0x10F70112938), (0x121, 0x11824000C30, 0x1000715547776, 0x1521F),
   (0x118, 0x10E2632021A, 0x10007030401021811171A0F2E2322271F1E706749528483, 0x1202F2938),
   (0x100, 0x10F1B330327, 0x100077663, 0x10F29713820), (0x12C, 0x10B17232F3B, 0x1000776776548, 0x10F1118152E1F20),
   (0x117, 0x1121E2A3606, 0x100077665776489, 0x152830F208A), (0x114, 0x11A2632020E, 0x100077B7C4834353989, 0x1295220),
   (0x13B, 0x12632020E1A, 0x100076A386563, 0x10F7D8A2066454F52754C), (0x115, 0x11E2A360612, 0x100076A0F3874485040, 0x106707C25),
   (0x109, 0x13606121E2A, 0x100076A74504089, 0x15229702C7D), (0x115, 0x114202C3808, 0x100076A74173926271F1E20, 0x10F7029522B),
   (0x109, 0x1000C182430, 0x100076A54196348767765, 0x17920297115528A0D382B),
   (0x116, 0x1101C283404, 0x1000734357B7C3989, 0x10F52832920), (0x10C, 0x106121E2A36, 0x10007343589, 0x1290F71),
   (0x104, 0x12E3A0A1622, 0x10007343589, 0x10F292F7020), (0x112, 0x1182430000C, 0x10007343589, 0x10F71296B7080),
   (0x103, 0x115212D3909, 0x10007343589, 0x171297063),
   (0x100, 0x10D19310125, 0x10007010618111A332D302F15262322271E530270164C, 0x1560F7129),
   (0x124, 0x10E1A263202, 0x1000701020618111A1752848354230C7027, 0x126203829),
   (0x12C, 0x1111D293505, 0x10007711F204840, 0x1010F291538), (0x114, 0x117232F3B0B, 0x100076527262322, 0x11552835A201D0F38),
   (0x12D, 0x10D19253101, 0x10007363F8B3989, 0x109292C208A0F), (0x128, 0x1030F1B2733, 0x1000739483F66, 0x10F208A2B),
   (0x10A, 0x104101C2834, 0x10007397B7C343589, 0x101065220), (0x108, 0x1020E1A2632, 0x10007396A48343589, 0x10F20),
   (0x13A, 0x1283404101C, 0x100073934357B7C89, 0x10F52), (0x123, 0x13505111D29, 0x1000739343589, 0x10320),
   (0x110, 0x10A16222E3A, 0x1000739343589, 0x1520F), (0x12F, 0x1111D293505, 0x1000739343589, 0x18A20),
   (0x10A, 0x115212D0939, 0x100077A7089, 0x188), (0x117, 0x117232F3B0B, 0x1000789, 0x18D),
   (0x13B, 0x1172F3B0B23, 0x1000789, 0x188), (0x115, 0x11B2733030F, 0x1007C343589, 0x188),
   (0x11B, 0x1212D390915, 0x1007C343589, 0x188), (0x112, 0x115212D3909, 0x1006A79190F6F2627, 0x16B4620453829),
   (0x10B, 0x1380814202C, 0x1006A38075040, 0x10F630141202B454F), (0x12D, 0x1121E2A3606, 0x1006A5040077448, 0x1702B2C0F2F29),
   (0x12E, 0x10B17232F3B, 0x1006A583F232227261F20, 0x10F29154703),
   (0x11C, 0x1232F3B0B17, 0x1006A6F391974, 0x10F2E614447702C292F71201F3852), (0x11F, 0x131010D1925, 0x10034353989, 0x1522E1F),
   (0x12B, 0x10D19253101, 0x100343589, 0x1060F52), (0x100, 0x12A3606121E, 0x100343589, 0x17129565A),
   (0x101, 0x1131F2B3707, 0x100343589, 0x188), (0x13B, 0x1111D350529, 0x100343589, 0x188),
   (0x100, 0x1152D390921, 0x1000150402627, 0x10F292F2B), (0x11E, 0x12733030F1B, 0x100010F17505840, 0x1565A803852838463),
   (0x115, 0x1101C283404, 0x1000103020611187B7C2D4E616439201E0C26, 0x1522E4744),
   (0x129, 0x1101C283404, 0x10001030239450D297115332C2E4C, 0x10F54207052843863),
   (0x12C, 0x1101C283404, 0x1000103392E54837548, 0x119700F58157A2038),
   (0x11F, 0x11830000C24, 0x100010670175B71292A152322271E, 0x103637C2B38),
   (0x10F, 0x10E1A263202, 0x10001067052842E71291F20, 0x1030F384775),
   (0x133, 0x1131F2B3707, 0x10001067011185B0D332C2E2D712909262322271F200C, 0x10F526325),
   (0x10C, 0x117232F0B3B, 0x1000106040318111A170F33292A26276A201D0C7A71077C1F1E74694F, 0x152),
   (0x10A, 0x10D19253101, 0x10001060403232226380F767754, 0x156802015),
   (0x12D, 0x1111D293505, 0x1000106025B75712904032D302F382B2A0D801E20, 0x12E1F0F),
   (0x10C, 0x10D19253101, 0x100010607155B5C26271E2021165D83, 0x138470F29),
   (0x120, 0x116222E3A0A, 0x1000106073018110F3329271E0C7A0D75, 0x138262015),
   (0x108, 0x10F1B273303, 0x100010618111A16332C2E2F2D27200C07483A450D, 0x115528438),
   (0x125, 0x10E1A263202, 0x1000102261E2027, 0x103476F700F2971382E), (0x139, 0x115212D3909, 0x10001027007834878, 0x12E388A201D),
   (0x117, 0x1131F2B3707, 0x100010203450D3329152C2E2F5375, 0x10F638A6A1D38),
   (0x12D, 0x10E1A263202, 0x1000102030D70332C2E29712F534426201F1E, 0x10F3815),
   (0x12F, 0x1121E2A3606, 0x10001020370450D332C2E2D152971, 0x10F52838A201D),
   (0x11B, 0x11D29350511, 0x10001020370528384631575712D2E4E3E581F1E1D, 0x1292C2B45262080),
   (0x13A, 0x1222E3A0A16, 0x10001020370392F2971152B54754C, 0x1458A1F0F2046),
   (0x12C, 0x114202C3808, 0x10001020370392F80712B546675201E26, 0x11F58472E15),
   (0x12F, 0x116222E3A0A, 0x1000102037039714515750D33, 0x1201D381F092E0F11),
   (0x103, 0x132020E1A26, 0x1000102030F7039453319152E2D2F63751F0C1E20, 0x171290D3847),
   (0x12C, 0x116222E3A0A, 0x1000102035270392E2D5863, 0x10F381D2B29212015),
   (0x111, 0x1131F2B3707, 0x10001020352666A, 0x10F7020262938172F),
   (0x13A, 0x12430000C18, 0x100010203332C2E2F1558631F, 0x10F1920707A29712646),
   (0x127, 0x105111D2935, 0x10001020311180F702E1F7952838468332D6749443E46630C1E1D21, 0x1292B20),
   (0x135, 0x11C28340410, 0x1000102031118396375664819, 0x11D413870208029),
   (0x11F, 0x1232F3B0B17, 0x1000102033945332C6375201D21, 0x10F1929710D70),
   (0x12D, 0x1101C283404, 0x100010203390D3329152C2B751E20, 0x12E1F544753524583),
   (0x116, 0x1111D293505, 0x10001020339161745514F2C190F1A152E2D2F304979, 0x18D),
   (0x113, 0x117232F3B0B, 0x100010203396A79637566201D211E, 0x129387D71707A),
   (0x130, 0x1101C283404, 0x1000102033911170D3319152E2F0947442627201F, 0x18D),
   (0x125, 0x13505111D29, 0x1000102031811392E2D19528384543E4463751F20, 0x1152F1A290F),
   (0x10D, 0x10E1A263202, 0x10001020626232227201E, 0x10F2E03801F), (0x10F, 0x1101C283404, 0x10001020617385483, 0x1030F47202B6B),
   (0x11B, 0x12733030F1B, 0x1000102060F17705283797823221E2027, 0x12E7129),
   (0x110, 0x1121E2A3606, 0x1000102062A397129797B7C2E1F2425, 0x1162F5D2026),
   (0x12B, 0x1182430000C, 0x10001020603691817452C2E2D498344, 0x1412B6A096338),
   (0x108, 0x13A0A16222E, 0x10001020603700F7B7C2E1F692D48302F565A586366240C21, 0x12B151A2920),
   (0x139, 0x117232F3B0B, 0x1000102060717706A33392D2E4E674447482322271E210C, 0x171292B4F20),
   (0x123, 0x133030F1B27, 0x10001020607036A5D397C2163664744, 0x10F4E25208A),
   (0x108, 0x104101C2834, 0x1000102060775261F20, 0x171290F7015),
   (0x10C, 0x1101C283404, 0x100010206111803302F565A802D4E2B881F261E0C, 0x10D0F52),
   (0x11B, 0x116222E3A0A, 0x100010206090D5B7952838454685D7B7C443D77656366201F1E, 0x1030F47454F),
   (0x124, 0x1010D192531, 0x1000102071283542627201D210C4C78, 0x129580F2E6352031F),
   (0x101, 0x132020E1A26, 0x100010275261E0C2322, 0x16303706F0F292E1F),
   (0x119, 0x10E2632021A, 0x1000102081A158483262322270C1E, 0x1700F292E),
   (0x11B, 0x1101C283404, 0x100011A1615262322271F1E200C214C, 0x1472B0F11),
   (0x124, 0x13707131F2B, 0x100013974150726271F1E200C, 0x10F06520D297170382B45),
   (0x107, 0x117233B0B2F, 0x1000118111A16175B154C26271E200C232279302F5D528384547543, 0x10F297C7A),
   (0x103, 0x117232F3B0B, 0x1000118111A332C2E2D1571292A2627200C7A1979, 0x1387C),
   (0x102, 0x1172F3B0B23, 0x1000118111A332C2E2D1571292A23222627200C7A791970302F5D5283845456, 0x1387C454F),
   (0x11F, 0x10E1A263202, 0x10001081811171A160F1571292A26271E20396476452B0D, 0x1632E5238),
   (0x113, 0x115212D3909, 0x100211D1E232289, 0x18D), (0x116, 0x10E2632021A, 0x1006526232227201F, 0x189),
   (0x126, 0x105111D2935, 0x100657689, 0x16B0F52), (0x125, 0x116223A0A2E, 0x100654C89, 0x18D),
   (0x103, 0x12A3606121E, 0x1006589, 0x129704720), (0x108, 0x115212D3909, 0x1001A170F5B332E2D7129261E203E5D, 0x115035283),
   (0x106, 0x1152139092D, 0x1001A170F1379232227761926, 0x1712938),
   (0x133, 0x11C28340410, 0x1001A1715838444363F261F1E200C2322, 0x10F476B520363),
   (0x138, 0x114202C3808, 0x1001A2B5448701938754C, 0x1152E202425), (0x110, 0x10D19253101, 0x10039504089, 0x18D),
   (0x139, 0x1283404101C, 0x1003926271E20747677642322480C06, 0x12E1F),
   (0x138, 0x10F1B273303, 0x10039262322271E201D210C0748766465776A, 0x1150F3829),
   (0x139, 0x1202C380814, 0x10039332C2E2D2F152B4644261F1E, 0x10F7019382971637A), (0x131, 0x1192531010D, 0x10039787989, 0x11F2E20),
   (0x110, 0x1101C283404, 0x10039787089, 0x12E1F8A034F206B), (0x129, 0x105111D2935, 0x100398B7989, 0x10F20),
   (0x10C, 0x1131F2B3707, 0x10039077426271F1E20, 0x10F29713852832B63),
   (0x12D, 0x114202C3808, 0x10039076A7426271F2048, 0x10F79197029717A38), (0x12C, 0x10E1A263202, 0x100397C343548, 0x189),
   (0x129, 0x13B0B17232F, 0x1003934357B7C89, 0x10F20), (0x128, 0x116222E0A3A, 0x10039343589, 0x18D),
   (0x134, 0x116222E3A0A, 0x10039343589, 0x188), (0x10B, 0x1111D293505, 0x10039343589, 0x188),
   (0x105, 0x117233B0B2F, 0x10039343589, 0x188), (0x12E, 0x1101C283404, 0x10039343589, 0x188),
   (0x106, 0x117233B0B2F, 0x100390103040618111A17332C2E262322271E157A7071302F45631F2075, 0x1807C),
   (0x12B, 0x10915212D39, 0x100396577647969271E2322, 0x152012E1F262061),
   (0x12D, 0x116222E3A0A, 0x100391A6A15384C4943363F7448, 0x10F0379472B63), (0x119, 0x1192531010D, 0x100394C786F89, 0x10F2E4420),
   (0x135, 0x1182430000C, 0x1003989, 0x188), (0x12A, 0x1121E2A3606, 0x1003989, 0x188),
   (0x116, 0x113191F252B313701070D, 0x1003989, 0x188), (0x101, 0x10D19310125, 0x1003989, 0x188),
   (0x10D, 0x10F1B273303, 0x10018112C2E01040607332D292A09270C2322696870302F47023945, 0x138205280),
   (0x11C, 0x1101C340428, 0x100190F153917701A48, 0x1472E1F2003), (0x134, 0x11F2B370713, 0x100195475667689, 0x15229152E20),
   (0x119, 0x1222E3A0A16, 0x1004C504089, 0x10F521547), (0x10A, 0x13A0A16222E, 0x1005C702C2F802B154C78, 0x15A562E1F208A454663),
   (0x119, 0x1102834041C, 0x10089, 0x1090F15), (0x138, 0x1131F2B3707, 0x171297C790001062A0F802D, 0x15215705D),
   (0x12F, 0x10E1A263202, 0x17100030170391959152E2D2F2B, 0x10F201F4F75668A38),
   (0x124, 0x1030F1B2733, 0x15483846376656419786A, 0x129803020),
   (0x11A, 0x12430000C18, 0x15452838479195D00012A0D7B7C2C2E3348156366242526201E, 0x10F7129),
   (0x12D, 0x107131F2B37, 0x154528384700001020339482D301571565A363F637566, 0x106292B201F8A),
   (0x129, 0x1030F1B2733, 0x154528384036F796A153E65, 0x1712963),
   (0x11D, 0x12733030F1B, 0x15452848303152F802C2D, 0x12E1F208A7A700F29710C7D),
   (0x122, 0x133030F1B27, 0x1118384155B20272E1F21, 0x10F0338), (0x10E, 0x10E1A263202, 0x11179302F842627201E, 0x10071292E1F),
   (0x10E, 0x106121E2A36, 0x111177B7C52842C2E5B1F20, 0x1060071292F0F),
   (0x10E, 0x1101C283404, 0x1110F70528475660D7129, 0x1012E1F2026),
   (0x12A, 0x1101C283404, 0x1110F03706A795215636626271E, 0x10C012F38062C292B),
   (0x107, 0x1020E1A2632, 0x1110F0001702C2E7129201F, 0x15206), (0x10C, 0x10E1A263202, 0x1110F00017052792E1F1E, 0x171290D2B20),
   (0x120, 0x1293505111D, 0x1110F1A6A702C2E1952838453712F6375, 0x14520150001),
   (0x11D, 0x1101C340428, 0x111037B7C2E2F7129, 0x10F5220), (0x10B, 0x10E1A263202, 0x111000170792C2E7129, 0x10F52201F),
   (0x101, 0x1111D350529, 0x1110001527B7C2E75, 0x10F20), (0x109, 0x104101C2834, 0x11100010206702D804E2B2620, 0x10F52540D),
   (0x100, 0x1131F2B3707, 0x1110001392E1F20, 0x10F7129),
   (0x132, 0x117232F3B0B, 0x1117154528384292C2E302D4E092A0D50407970443D, 0x156804100),
   (0x123, 0x12B3707131F, 0x1111879690001020370396A2E2D528384543E637566, 0x10F380D582920),
   (0x100, 0x1222E3A0A16, 0x1111879076A1A171523221E272024, 0x15229700F1D012E2B0C2F),
   (0x10B, 0x106121E2A36, 0x1111817000106702C2E71292A0D33802D302F4E2B44, 0x10F522520),
   (0x129, 0x107131F2B37, 0x111180F000704030D7C684580302F153867534775, 0x1702041),
   (0x119, 0x12430000C18, 0x111180F00012A0D70795D7B7C39332D2C2E4E4863664C, 0x1064F478A20),
   (0x137, 0x11E2A360612, 0x111180F000152548471702C2E2D4E303348492A156144474C63, 0x18A201F384506),
   (0x118, 0x1202C380814, 0x111180F000128032A0D7129302C2E2F2D802B09411F1E20, 0x152845438),
   (0x124, 0x12F3B0B1723, 0x111180F0001020370391952845329712B632E7B7C792D2C8020, 0x1385D15),
   (0x11E, 0x1293505111D, 0x111180F0001020339700D29716375662E1F2620, 0x138155680),
   (0x116, 0x116222E3A0A, 0x111180F000102587B7C5283847971302F804B2B497675, 0x109612E1F20),
   (0x11E, 0x1232F3B0B17, 0x111180F00010E715229702E79692C2D2B15093954444C66, 0x12F565A8061),
   (0x132, 0x1131F2B3707, 0x111180F71297052838454792A0D33802D153853201F1E212627, 0x1012F564766),
   (0x128, 0x13707131F2B, 0x111180F71297000010604032A0D793969302F33802D636675, 0x1201F52565A1E),
   (0x118, 0x11D29350511, 0x111180F5C000102030D332C2E195329711563261F202322, 0x15284),
   (0x13A, 0x1202C380814, 0x111180370392A0D3329712C2F156375795B5D, 0x1450C8A00382E1F2001),
   (0x10C, 0x13A0A16222E, 0x111185283847975661271393D692D15565A201E262322, 0x1292F060D0C),
   (0x102, 0x130000C1824, 0x1111852838470795B302F404533802D152B39201E23221D212726, 0x10F2E1F010D29),
   (0x123, 0x12D39091521, 0x1111852838453546319297115030D332B2C, 0x1060F8A2E38201F),
   (0x138, 0x10D19253101, 0x1111800020D041A796933483E5347446563751F1D212026, 0x1010F09150C),
   (0x117, 0x12430000C18, 0x11118000717161A2C2E3371292B56433D6375363F, 0x10F010347208A),
   (0x109, 0x1020E1A2632, 0x1111800012A0D2C705271292E201F, 0x115386179),
   (0x104, 0x130000C1824, 0x111180001032A0D70795B2C2E302F802D4E152B33714161201F26, 0x152095847),
   (0x10A, 0x1000C182430, 0x111180001020439332C2E302F2B5844477515634C1F2721, 0x10F520D19267A29717020),
   (0x137, 0x1232F3B0B17, 0x1111800010206037939695483845D2D2E4E446375661F262120, 0x10F52290D71),
   (0x123, 0x131010D1925, 0x1111800010206071979697C67474475664C, 0x10F16298A20),
   (0x114, 0x1182430000C, 0x111187129705B79000106032A0D397B6F7C802D2C2B61756627261E0C1D21, 0x10F2E154147),
   (0x132, 0x1192531010D, 0x1111871545283842979397B7C69152B2A0D33485324251F1D1E26, 0x16B00702F800C20),
   (0x11E, 0x11F2B370713, 0x15D0007363F232227261E21, 0x1037C0F471F20), (0x12E, 0x10E1A263202, 0x16526232227201F, 0x188),
   (0x10E, 0x1111D293505, 0x1653989, 0x188), (0x106, 0x1131F2B3707, 0x1363F6526232227201E89, 0x188),
   (0x132, 0x11A2632020E, 0x11A454F548384, 0x188), (0x11D, 0x1121E2A3606, 0x11A38712975, 0x10F20),
   (0x11A, 0x10E1A263202, 0x11A162623227954, 0x10001710F29), (0x10C, 0x10F1B273303, 0x11A16170F13152654, 0x13852204F),
   (0x132, 0x10F1B273303, 0x11A5D453A332C2E2F4B25262322271F201E1D21, 0x1000F7047),
   (0x123, 0x12F3B0B1723, 0x13950177089, 0x1522E1F0F20),
   (0x11A, 0x11D29350511, 0x139701117302F713819297566, 0x1004551152C2E201D1F), (0x134, 0x1121E2A3606, 0x1393589, 0x188),
   (0x11A, 0x115212D3909, 0x1393589, 0x188), (0x12C, 0x1182430000C, 0x1393589, 0x188), (0x125, 0x1101C283404, 0x1393589, 0x188),
   (0x11C, 0x12531010D19, 0x1394089, 0x171294709636F7C44), (0x10D, 0x10D19253101, 0x13948007889, 0x18D),
   (0x138, 0x12430000C18, 0x1394889, 0x188), (0x111, 0x1111D293505, 0x1394889, 0x188), (0x12A, 0x10E1A263202, 0x13907, 0x188),
   (0x107, 0x10D19253101, 0x139343589, 0x188), (0x131, 0x1101C283404, 0x1393489, 0x188),
   (0x101, 0x1222E3A0A16, 0x1390050404C89, 0x10F5283296920), (0x118, 0x1131F2B3707, 0x139006A26201F, 0x10F520D38580629712B),
   (0x109, 0x1380814202C, 0x1390001022C2E302F1575804B2D261F20, 0x10D0F0319707D5229717A), (0x115, 0x117232F3B0B, 0x13989, 0x18D),
   (0x111, 0x10A16222E3A, 0x1181179838454637566, 0x10F52290120), (0x107, 0x1111D293505, 0x118117915384C, 0x15220),
   (0x10E, 0x10C18243000, 0x11811795B032C2E302F802D4163754C27261E1D2120, 0x1010D0F29521F),
   (0x129, 0x116222E0A3A, 0x11811795B5466, 0x10120),
   (0x12F, 0x1192531010D, 0x1181179000607040D03302F5283844F3A45512B1533664C47, 0x1090F702E208A),
   (0x12B, 0x10B17232F3B, 0x118117900012C2E5B1F20, 0x10F710D5229),
   (0x11A, 0x1122A36061E, 0x1181179190E332C2E2D52637566262322271F20, 0x18D),
   (0x102, 0x10F1B273303, 0x1181117332C2E1526232227201F1E3E, 0x138030F5229), (0x122, 0x1142038082C, 0x1181170792C2F7129, 0x15220),
   (0x11F, 0x1121E36062A, 0x118117001061579, 0x1712920), (0x123, 0x1121E2A3606, 0x118117000012C2E7129, 0x15220),
   (0x124, 0x13505111D29, 0x118110F3900010203700D3329711563752E1F0C201D, 0x138525D),
   (0x11A, 0x1101C283404, 0x118110F197983842E230C271F1E7A70525463, 0x126202915),
   (0x103, 0x1111D293505, 0x11811002E1F8384, 0x10F20), (0x122, 0x11824000C30, 0x1181100012C2E2F1F, 0x10F38),
   (0x121, 0x1142038082C, 0x1181100012C2E2F1F20, 0x10F52), (0x129, 0x114202C3808, 0x1181100015B3875, 0x12E20),
   (0x134, 0x115212D3909, 0x1181100012A0D2C2E2F2B2D304E447129841F, 0x10F0941613820),
   (0x10F, 0x10814202C38, 0x1181100012A0D52842953411E20, 0x12E1F0F4715),
   (0x12F, 0x1131F2B3707, 0x118110001032A0D845B7129302F791533536678, 0x10F208A1F1D),
   (0x133, 0x117232F3B0B, 0x118115452840001712970802D2C2E302F2B2A0D78791F, 0x10F20475861),
   (0x10E, 0x10F1B273303, 0x118111A16175B3315262322271F1E201D215D838454433E363F754551, 0x100030F29),
   (0x10D, 0x10C18243000, 0x118115C0001702A2C2E2F5283847129795B6375802D154C, 0x11F208A24),
   (0x107, 0x115212D3909, 0x188, 0x126205283), (0x10D, 0x117232F3B0B, 0x188, 0x18D), (0x117, 0x1102834041C, 0x188, 0x18D),
   (0x10B, 0x115212D0939, 0x188, 0x18D), (0x124, 0x1121E2A0636, 0x188, 0x18D), (0x109, 0x117232F0B3B, 0x188, 0x18D),
   (0x113, 0x1111D293505, 0x11979, 0x13F2F2E45207D), (0x137, 0x1112935051D, 0x11966583F6589, 0x188),
   (0x131, 0x116222E3A0A, 0x14C4089, 0x188), (0x10C, 0x10C18243000, 0x14C78, 0x1297172380D2A2E0F474841),
   (0x112, 0x116222E3A0A, 0x15C0F1811790070528471291F20, 0x12F03805125),
   (0x114, 0x11C28340410, 0x15C0001020652835B0E03804B2D4E2B752024210C, 0x1292E565A),
   (0x136, 0x11A2632020E, 0x15C11180001027170520D2984832B15200C, 0x103802E3863), (0x133, 0x115212D3909, 0x189, 0x16B),
   (0x134, 0x1111D293505, 0x189, 0x18D)]

/-- `lunar_python/util/LunarUtil.py` 42 `__TIME_YI_JI`: the records -/
def TIME_YI_JI_RECORDS : List (ℕ × ℕ × ℕ) :=
  [(0x10D28, 0x1, 0x12C2E), (0x12128, 0x1, 0x12C2E), (0x10110, 0x1, 0x12C2E), (0x10C1F, 0x1, 0x12C2E7A70),
   (0x11B1C, 0x1, 0x10102), (0x12308, 0x1, 0x101026D00), (0x13026, 0x1, 0x1000106037A70), (0x12D02, 0x1, 0x1000106037A70),
   (0x12802, 0x1, 0x1000106037A70), (0x13131, 0x1, 0x1000106037A70), (0x1341B, 0x1, 0x1000106087A70),
   (0x11F0E, 0x1, 0x1000106087A70), (0x12E15, 0x1, 0x1000106087A702C2E), (0x10E39, 0x1, 0x1000106087A702C2E),
   (0x10D2B, 0x1, 0x188), (0x11727, 0x1, 0x188), (0x1032D, 0x1, 0x188), (0x1352F, 0x1, 0x188), (0x12B2F, 0x1, 0x188),
   (0x12125, 0x1, 0x188), (0x12A22, 0x1, 0x188), (0x10C1E, 0x1, 0x188), (0x10220, 0x1, 0x188), (0x1161A, 0x1, 0x188),
   (0x12018, 0x1, 0x188), (0x13422, 0x1, 0x188), (0x10113, 0x1, 0x188), (0x10B11, 0x1, 0x188), (0x13315, 0x1, 0x188),
   (0x12915, 0x1, 0x188), (0x11F17, 0x1, 0x188), (0x1150D, 0x1, 0x188), (0x1122E, 0x1, 0x188), (0x1302A, 0x1, 0x188),
   (0x1262A, 0x1, 0x188), (0x13A28, 0x1, 0x188), (0x10826, 0x1, 0x188), (0x11C2C, 0x1, 0x188), (0x11905, 0x1, 0x188),
   (0x12303, 0x1, 0x188), (0x10F09, 0x1, 0x188), (0x1050B, 0x1, 0x188), (0x13701, 0x1, 0x188), (0x12D01, 0x1, 0x188),
   (0x1060C, 0x1, 0x188), (0x12410, 0x1, 0x188), (0x11A12, 0x1, 0x188), (0x12E0E, 0x1, 0x188), (0x1380E, 0x1, 0x188),
   (0x11010, 0x1, 0x188), (0x13630, 0x1, 0x188), (0x11834, 0x1, 0x188), (0x10E38, 0x1, 0x188), (0x12232, 0x1, 0x188),
   (0x12C30, 0x1, 0x188), (0x1043A, 0x1, 0x188), (0x11E0A, 0x1, 0x188), (0x10006, 0x1, 0x188), (0x13208, 0x1, 0x188),
   (0x10A04, 0x1, 0x188), (0x11400, 0x1, 0x188), (0x12808, 0x1, 0x188), (0x13137, 0x1, 0x188), (0x13B35, 0x1, 0x188),
   (0x12737, 0x1, 0x188), (0x11D39, 0x1, 0x188), (0x1133B, 0x1, 0x188), (0x10933, 0x1, 0x188), (0x1251D, 0x1, 0x188),
   (0x12F1B, 0x1, 0x188), (0x11B1F, 0x1, 0x188), (0x1111D, 0x1, 0x188), (0x10719, 0x1, 0x188), (0x1391B, 0x1, 0x188),
   (0x1212D, 0x1, 0x17A702C), (0x10B15, 0x1, 0x17A7055), (0x11515, 0x1, 0x17A7055), (0x12D00, 0x1, 0x17A7D2C2E),
   (0x11334, 0x1382C, 0x100010608), (0x13528, 0x1382C, 0x17A7000010608), (0x10504, 0x1382C7A6C55700F197120, 0x100010608),
   (0x1223A, 0x1380006082C, 0x101026D), (0x10D2C, 0x1380006082C, 0x101027A7055), (0x11D30, 0x1380006082C0F71295283, 0x101027A70),
   (0x13636, 0x1380006082C0F71295283, 0x10102416D), (0x11226, 0x1380006082C7A706C550F297120, 0x10102),
   (0x1251C, 0x1380006082C7A6C55700F197120, 0x101026D), (0x12300, 0x13800010608, 0x12C2E), (0x10324, 0x13800010608, 0x17A702C2E),
   (0x1082E, 0x13800010608, 0x17A70552C2E), (0x13B34, 0x138000106082C, 0x12F8026), (0x1330C, 0x138000106082C, 0x12F80267A70),
   (0x11622, 0x138000106082C7A70556C0F197120, 0x1), (0x11904, 0x138000106082C7A6C55700F197120, 0x1),
   (0x11514, 0x138000106087A70556C0F197120, 0x12C2E), (0x13138, 0x138000106087A70556C0F197120, 0x12C2E),
   (0x10B10, 0x138000106087A6C55700F197120, 0x12C2E), (0x12B28, 0x1387A6C55700F197120, 0x1000106082C2E),
   (0x12E16, 0x138082C, 0x1000106037A70), (0x10E3A, 0x138082C, 0x1000106037A70),
   (0x13708, 0x138082C6C550F197120, 0x1000106037A70), (0x11B20, 0x138082C6C550F197120, 0x1000106037A70),
   (0x1111C, 0x138082C6C550F197120, 0x1000106037A70), (0x13A2D, 0x12C38, 0x100010608), (0x12733, 0x12C38, 0x100010608),
   (0x11015, 0x12C38020F71295283, 0x100010608), (0x13817, 0x12C2920, 0x17A70), (0x10F03, 0x12C2920, 0x1616D),
   (0x11839, 0x12C292070556C100F, 0x100010608), (0x1161B, 0x12C2920020F7100010608, 0x1), (0x1302B, 0x12C2920556C0F1971, 0x17A70),
   (0x11E07, 0x12C2920010F, 0x1), (0x11B1B, 0x12C2920010670100F00, 0x1), (0x1352B, 0x12C292000010206100F70, 0x1),
   (0x1082B, 0x12C292000010206100F707A, 0x1), (0x10C21, 0x12C292000010870556C100F7A, 0x1),
   (0x10617, 0x12C29206C0F1971, 0x17A7055), (0x12807, 0x12C29207A70556C0F197100010206, 0x1),
   (0x1122F, 0x12C29207A706C55100F1971, 0x1), (0x11017, 0x12C29207A706C55100F1971, 0x1), (0x12731, 0x12C20, 0x1616D),
   (0x10436, 0x12C2070550F, 0x17A7D0102), (0x12E12, 0x12C200F71295283, 0x10102), (0x11831, 0x12C20556C0F1971, 0x17A70),
   (0x12912, 0x12C20100F52, 0x101026D), (0x11D33, 0x12C807138152952, 0x100010608),
   (0x10E31, 0x12C80713815295270556C100F, 0x100010608), (0x13201, 0x12C80713815295270556C100F7A, 0x100010608),
   (0x10327, 0x12C80713815295202100F, 0x1000106037A70), (0x12B2B, 0x12C80713815295202100F, 0x1000106037A70),
   (0x12801, 0x12C80713815295202100F, 0x100010608), (0x13639, 0x12C80713815295202100F7A7055, 0x100010608),
   (0x1341D, 0x12C807138152952556C100F, 0x1000106037A70), (0x11B23, 0x12C807138152952010F6C55, 0x17A70),
   (0x1302D, 0x12C8071381529520102100F7A7055, 0x1), (0x12231, 0x12C8071381529520102100F7A6C55, 0x1),
   (0x11F13, 0x12C80713815295200010206100F20, 0x17A70), (0x1313B, 0x12C8071381529526C550F, 0x1000106037A70),
   (0x11A15, 0x12C8071381529527A70550F, 0x100010608), (0x10219, 0x12C8071381529527A70556C0F19, 0x100010608),
   (0x12E0D, 0x12C80713815295208556C100F, 0x1000106037A70), (0x1161F, 0x12C80711529525670556C100F, 0x100010608),
   (0x13813, 0x12C80711529525670556C100F, 0x100010608), (0x12D05, 0x12C807115295256020F7A706C55, 0x1),
   (0x12237, 0x12C80711529525602100F, 0x100010608), (0x11F0D, 0x12C80711529525602100F55, 0x1000106037A70),
   (0x12627, 0x12C8071152952560102100F7A706C, 0x1), (0x12C33, 0x12C8071152952560102100F7A706C, 0x1),
   (0x10939, 0x12C80711529525601100F7A7055, 0x1416D), (0x1021F, 0x12C80711529525600010206100F70, 0x1),
   (0x10E37, 0x12C80711529525600010870556C10, 0x1), (0x12129, 0x12C8071152952566C550F, 0x17A70),
   (0x12519, 0x12C8071152952566C550F19, 0x17A70), (0x12417, 0x12C8071152952566C55100F19, 0x1000106037A70),
   (0x1043B, 0x12C8071152952566C55100F19, 0x1000106037A70), (0x10C1B, 0x12C8071152952566C55100F19, 0x17A70),
   (0x13B31, 0x12C8071152952566C100F19, 0x17A705500010603), (0x1172D, 0x12C8071152952567A70550F, 0x1416D),
   (0x13A2F, 0x12C8071152952567A70556C100F, 0x1), (0x11901, 0x12C8071152952567A706C55100F19, 0x1),
   (0x11119, 0x12C8071152952567A6C55700F19, 0x1), (0x11C2B, 0x12C80711529525608556C100F, 0x1000106037A70),
   (0x11403, 0x12C80711529525608556C100F, 0x1000106037A70), (0x1071D, 0x12C80711529525608100F55, 0x1000106037A70),
   (0x11908, 0x1292C20, 0x17A7D01026D), (0x12E0F, 0x1292C200102100F7A7055, 0x1), (0x1032C, 0x1292C20000608, 0x10102),
   (0x1071C, 0x1292C206C550F1971, 0x1000106037A70), (0x10E33, 0x1292C207A70556C000108, 0x1), (0x10503, 0x12920550F, 0x17A702C2E),
   (0x10721, 0x12920556C100F, 0x17A702C), (0x11225, 0x12920000108556C100F, 0x17A702C2E),
   (0x11F11, 0x12900010870556C100F7A, 0x1032C20), (0x11A11, 0x1297A70556C100F, 0x1032C20),
   (0x10E35, 0x1297A70556C100F, 0x1032C20), (0x1000A, 0x170556C0F197120, 0x17A7D), (0x13A29, 0x170556C100F2C20, 0x100010608),
   (0x11C25, 0x170556C100F2C20, 0x100010608), (0x12805, 0x170556C100F2C20, 0x100010608),
   (0x12F20, 0x170556C100F2C20, 0x100010608), (0x1150C, 0x170556C100F29522002, 0x17A7D00010603),
   (0x13314, 0x170556C100F, 0x100010608032C20), (0x1122A, 0x170556C08, 0x17A7D00010603),
   (0x12415, 0x170100F2C715220, 0x100010608), (0x11A0D, 0x14B0F2C20, 0x1000106037A70), (0x11902, 0x14B0F2C20, 0x100010608),
   (0x10E3B, 0x14B0F20, 0x17A702C00010603), (0x12E17, 0x10F2C09382920, 0x17A7000010603),
   (0x1363B, 0x10F2C093829206C55, 0x1000106037A70), (0x1082C, 0x10F29528320, 0x17A2C71707D01026D),
   (0x10718, 0x10F712952832C20, 0x17A7D0102), (0x11C26, 0x10F712952832C20, 0x17A7D01026D),
   (0x13918, 0x10F712952832C2038000608, 0x101027A7055), (0x12126, 0x10F712952832C2010, 0x10102),
   (0x11330, 0x10F712952832C207A7055, 0x10102), (0x11118, 0x10F712952832C207A7055, 0x10102),
   (0x13524, 0x10F715220, 0x17A70552C2E), (0x13419, 0x120556C0F1971, 0x17A702C2E), (0x11D31, 0x12000010206100F, 0x17A702C),
   (0x11E05, 0x10270290F2C207A, 0x100010608), (0x1212C, 0x10270550F, 0x100010608032C20),
   (0x10C23, 0x10270550F, 0x100010608032C20), (0x13706, 0x10270550F20, 0x1000106082C2E),
   (0x12520, 0x10270550F20, 0x17A7D00010603), (0x12E13, 0x10270550F202C807115295256, 0x100010608),
   (0x11620, 0x1020F29528320, 0x1000106087A2C71707D), (0x10112, 0x1020F2952832055, 0x17A2C71707D00010603),
   (0x10F08, 0x1020F20, 0x17A705500010603), (0x12A23, 0x1020F712952832C20, 0x1), (0x12521, 0x1020F712952832C20, 0x100010608),
   (0x12F21, 0x1020F712952832C20, 0x100010608), (0x10003, 0x1020F712952832C20, 0x17A70),
   (0x10432, 0x1020F712952832C2038000106086C, 0x17A70), (0x11E03, 0x1020F712952832C2070556C10, 0x100010608),
   (0x11623, 0x1020F712952832C2001, 0x1), (0x12236, 0x1020F712952832C2001, 0x1), (0x1000B, 0x1020F712952832C2001, 0x17A7055),
   (0x12C36, 0x1020F712952832C20013800, 0x1416D), (0x1341E, 0x1020F712952832C20017055, 0x17A7D),
   (0x10E32, 0x1020F712952832C200110, 0x17A7D), (0x10329, 0x1020F712952832C2001107A706C55, 0x1),
   (0x1262D, 0x1020F712952832C20017A7055, 0x1), (0x11229, 0x1020F712952832C2000010608, 0x1),
   (0x1122D, 0x1020F712952832C2000010608, 0x1), (0x11011, 0x1020F712952832C2000010608, 0x1),
   (0x10A0B, 0x1020F712952832C2000010608, 0x1), (0x11F0F, 0x1020F712952832C2000010870556C, 0x1),
   (0x11A0E, 0x1020F712952832C206C55, 0x17A70), (0x13312, 0x1020F712952832C2010, 0x1000106037A70),
   (0x1172A, 0x1020F712952832C2010, 0x17A705500010603), (0x13B3B, 0x1020F712952832C2010, 0x1416D000106037A70),
   (0x10B12, 0x1020F712952832C20106C55, 0x1000106037A70), (0x10615, 0x1020F712952832C207A7055, 0x1),
   (0x13203, 0x1020F712952832C207A7055, 0x1), (0x1201B, 0x1020F712952832C207A706C5510, 0x1),
   (0x12023, 0x1020F712952832C207A6C7055, 0x1), (0x12A1B, 0x1020F7129528320, 0x1000106087A702C),
   (0x12629, 0x1020F7129528320, 0x17A702C2E), (0x13709, 0x1020F7129528320, 0x17A702C00010608),
   (0x13A24, 0x1020F7129528320, 0x17A70552C2E), (0x1341A, 0x1020F712952832038000106087A70, 0x12C2E),
   (0x11C2D, 0x1020F712952832001, 0x17A702C2E), (0x10611, 0x1020F712952832001, 0x17A702C2E),
   (0x1021A, 0x1020F712952832001, 0x17A7D2C2E), (0x13815, 0x1020F71295283200100, 0x17A702C2E),
   (0x13024, 0x1020F71295283200110, 0x1616D2C2E), (0x1093B, 0x1020F71295283206C55, 0x17A702C2E00010603),
   (0x10505, 0x1020F71295283206C55, 0x17A702C03), (0x10C1A, 0x1020F71295283207A706C55, 0x1000106082C2E),
   (0x13705, 0x1020F712952837A706C55, 0x1032C20), (0x11F0C, 0x102550F20, 0x1000106037A70),
   (0x10508, 0x102550F20, 0x1000106037A70), (0x13029, 0x102550F20, 0x1000106087A702C2E),
   (0x13027, 0x102550F202C807115295256, 0x1000106037A70), (0x13526, 0x102100F2C29528320, 0x1000106037A70),
   (0x1150E, 0x102100F2C29528320, 0x100010608), (0x1380F, 0x102100F2C29528320, 0x100010608),
   (0x13527, 0x102100F2C29528320, 0x17A7000010603), (0x11C27, 0x102100F2C2955528320, 0x100010608),
   (0x11227, 0x102100F2C29555283207A706C, 0x100010608), (0x1060F, 0x102100F2C29555283207A706C, 0x100010608),
   (0x11D34, 0x102100F7020, 0x17A7D00010603), (0x10F02, 0x102100F7055528315, 0x12F802600010608),
   (0x13920, 0x102100F7055528315, 0x12F802600010608), (0x1212A, 0x102100F7055528315, 0x100010608),
   (0x12A20, 0x102100F7055528315, 0x100010608), (0x13A26, 0x102100F7055528315, 0x100010608),
   (0x10439, 0x102100F7055528315, 0x100010608), (0x10008, 0x102100F7055528315, 0x100010608),
   (0x11B21, 0x102100F7055528315, 0x100010608), (0x1071B, 0x102100F7055528315, 0x100010608),
   (0x10D24, 0x102100F7055528315, 0x1000106082C2E), (0x12C32, 0x102100F7055528315, 0x1000106082C2E),
   (0x12B2C, 0x102100F7055528315, 0x100010608032C20), (0x11402, 0x102100F7055528315, 0x100010608032C20),
   (0x1391C, 0x102100F7055528315, 0x17A7D00010603), (0x11F10, 0x102100F705552831538, 0x12F802600010608),
   (0x12D06, 0x102100F70555283157A, 0x12F802600010608), (0x1290D, 0x102100F20, 0x17A702C00010603),
   (0x12416, 0x102100F20, 0x1616D000106037A70), (0x12C34, 0x102100F20292C, 0x17A7000010603),
   (0x11C2A, 0x102100F528315, 0x17A705500010603), (0x12234, 0x102100F528315, 0x17A705500010603),
   (0x12A21, 0x102100F55528315, 0x1000106037A70), (0x13313, 0x102100F55528315, 0x1000106037A70),
   (0x10509, 0x102100F55528315, 0x1000106037A70), (0x12D03, 0x102100F55528315, 0x1000106037A70),
   (0x10613, 0x102100F55528315, 0x1000106037A70), (0x12235, 0x102100F55528315, 0x1000106037A70),
   (0x1391D, 0x102100F55528315, 0x1000106037A70), (0x1100F, 0x102100F55528315, 0x1000106087A702C),
   (0x1111B, 0x102100F55528315, 0x1000106087A702C2E), (0x12916, 0x102100F55528315, 0x17A2C71707D00010603),
   (0x10430, 0x102100F55528315, 0x17A2C71707D00010603), (0x13B32, 0x102100F55528315, 0x17A2C71707D00010608),
   (0x11903, 0x102100F55528315, 0x17A702C2E00010603), (0x13A27, 0x102100F55528315, 0x17A702C00010603),
   (0x10931, 0x102100F55528315, 0x17A702C00010603), (0x10C1C, 0x102100F55528315, 0x17A7000010603),
   (0x12735, 0x102100F555283152C8071, 0x1000106037A70), (0x10B13, 0x102100F555283152C807138, 0x1000106037A70),
   (0x11517, 0x102100F555283152C807138, 0x1000106037A70), (0x12917, 0x102100F555283156C, 0x1000106037A70),
   (0x13136, 0x1550F522010, 0x17A2C71707D0102), (0x12A1E, 0x1550F715220, 0x17A702C2E),
   (0x11333, 0x1550F715220, 0x17A702C2E00010608), (0x11405, 0x1556C, 0x1000106087A702C2E), (0x10433, 0x1556C, 0x17A7000010608),
   (0x13B38, 0x1556C0F197120, 0x17A702C2E), (0x11E01, 0x1556C0F19712001, 0x17A702C2E), (0x1190B, 0x1556C000108, 0x17A70),
   (0x1230B, 0x1556C000108, 0x17A702C2E), (0x11A0F, 0x1556C0001082C807115295256, 0x17A70),
   (0x11830, 0x1556C0008, 0x17A2C71707D0102), (0x13814, 0x1556C100F295220, 0x17A2C71707D03),
   (0x1082F, 0x1556C100F295220, 0x17A702C), (0x10C1D, 0x1556C100F295220, 0x17A702C2E00010603),
   (0x1021D, 0x1556C100F295220, 0x17A7000010603), (0x11121, 0x1556C100F2952202C, 0x17A70),
   (0x11835, 0x1556C100F2952202C80713815, 0x1000106037A70), (0x13B30, 0x1556C100F29522002, 0x1000106037A70),
   (0x1290C, 0x1556C100F29522002, 0x17A7000010603), (0x10930, 0x1556C100F2952200238, 0x1000106037A70),
   (0x12B27, 0x1556C100F2952200102, 0x17A702C2E), (0x13812, 0x1556C08, 0x1000106037A70), (0x11012, 0x1556C08, 0x1000106037A70),
   (0x11621, 0x1556C08, 0x17A702C2E00010603), (0x13209, 0x1556C08, 0x17A702C2E00010603),
   (0x12021, 0x1556C082C807138152952, 0x1000106037A70), (0x10009, 0x1556C082C807138152952, 0x1000106037A70),
   (0x12A1D, 0x1807138152952000170100F, 0x1032C20), (0x10A05, 0x1807138152952000170100F, 0x1032C20),
   (0x1273B, 0x18071381529527A706C550F, 0x1032C20), (0x13423, 0x180711529525600010870556C100F, 0x1032C20),
   (0x11511, 0x180711529525600010870556C100F, 0x1032C20), (0x1183B, 0x180711529525600010870556C100F, 0x1032C20),
   (0x13311, 0x1010F2C80093829206C55, 0x17A70), (0x12B29, 0x1010F2C80093829206C55, 0x17A70616D),
   (0x13A25, 0x1010F2C09382920, 0x17A7055), (0x10825, 0x1010F2C093829207A6C5570, 0x1), (0x1201E, 0x1010F09382920, 0x17A702C2E),
   (0x1352E, 0x1010670100F2C71522000, 0x1), (0x11C28, 0x1010670100F7152207A6C55, 0x12C2E),
   (0x12E11, 0x10106100F7152, 0x17A70032C20), (0x13205, 0x10106100F71526C, 0x17A70032C20), (0x12A19, 0x10102290F20, 0x17A702C2E),
   (0x12A1F, 0x1010270290F2C207A6C55, 0x1), (0x12413, 0x1010270290F2C207A6C55, 0x1), (0x10437, 0x1010270290F2C207A6C55, 0x1),
   (0x10935, 0x1010270550F, 0x1032C20), (0x11B18, 0x1010270550F20, 0x1), (0x12B24, 0x1010270550F20, 0x12F8026),
   (0x11906, 0x1010270550F20, 0x12C2E), (0x12732, 0x1010270550F20, 0x12C2E), (0x1071A, 0x1010270550F20, 0x12C2E),
   (0x13700, 0x1010270550F20, 0x17A7D), (0x11724, 0x1010270550F203800, 0x12F8026), (0x13921, 0x1010270550F202C29, 0x1416D),
   (0x1290F, 0x1010270550F202C807138152952, 0x1), (0x11619, 0x1010270550F202C8071381529527A, 0x1),
   (0x13207, 0x1010270550F202C80711529525600, 0x1), (0x10829, 0x1010270550F2000, 0x1), (0x1060D, 0x1010270550F2000, 0x1),
   (0x10001, 0x1010270550F2000, 0x1), (0x12736, 0x1010270550F207A, 0x1), (0x11B1E, 0x1010270550F207A, 0x12C2E),
   (0x1140B, 0x1010270550F207A6C, 0x1), (0x10114, 0x1010270550F7A6C, 0x1032C20), (0x12C3B, 0x1010270550F7A6C, 0x1032C20),
   (0x1201F, 0x10102550F20, 0x17A702C), (0x11A13, 0x10102550F20, 0x17A702C), (0x13637, 0x10102550F20, 0x17A702C),
   (0x1280B, 0x10102550F20, 0x17A702C), (0x1223B, 0x10102550F20, 0x17A702C03), (0x12D04, 0x10102100F2C29528320, 0x17A70),
   (0x11409, 0x10102100F2C29528320, 0x17A7055), (0x12307, 0x10102100F2C2952832000, 0x1),
   (0x10005, 0x10102100F295283, 0x1032C207A70), (0x10A00, 0x10102100F2955528320, 0x17A2C71707D),
   (0x1082D, 0x10102100F2955528320, 0x17A702C2E), (0x12809, 0x10102100F295552832000, 0x17A702C2E),
   (0x12B2D, 0x10102100F7055528315, 0x1), (0x1021E, 0x10102100F7055528315, 0x1), (0x10C20, 0x10102100F7055528315, 0x12F8026),
   (0x13420, 0x10102100F7055528315, 0x12F8026), (0x11510, 0x10102100F7055528315, 0x12F8026),
   (0x12E10, 0x10102100F7055528315, 0x12F8026), (0x12806, 0x10102100F7055528315, 0x12F8026),
   (0x13134, 0x10102100F7055528315, 0x12F8026), (0x11D38, 0x10102100F7055528315, 0x12F8026),
   (0x1251A, 0x10102100F7055528315, 0x12F8026), (0x13A2A, 0x10102100F7055528315, 0x12F80267A7D),
   (0x11120, 0x10102100F7055528315, 0x12F80267A7D), (0x10824, 0x10102100F7055528315, 0x12C2E),
   (0x11E00, 0x10102100F7055528315, 0x12C2E7A), (0x12F1D, 0x10102100F7055528315, 0x1032C20),
   (0x10A06, 0x10102100F7055528315, 0x17A7D2C2E), (0x11C2E, 0x10102100F70555283153800, 0x12F8026),
   (0x11832, 0x10102100F70555283153800, 0x12C2E), (0x1280A, 0x10102100F70555283153800, 0x12C2E),
   (0x1320A, 0x10102100F705552831538007A, 0x1), (0x12738, 0x10102100F705552831538007A6C, 0x12F8026),
   (0x10720, 0x10102100F705552831538007A6C, 0x12F8026), (0x1032B, 0x10102100F70555283152C292000, 0x1),
   (0x11907, 0x10102100F70555283152C292000, 0x1), (0x13703, 0x10102100F70555283152C292000, 0x1),
   (0x12739, 0x10102100F70555283152C29207A, 0x1), (0x1251B, 0x10102100F70555283152C29207A, 0x1),
   (0x12B25, 0x10102100F70555283152C29207A6C, 0x1), (0x11331, 0x10102100F70555283152C207A, 0x1),
   (0x10D29, 0x10102100F70555283152C80717A, 0x1), (0x11B1D, 0x10102100F70555283158071, 0x1032C20),
   (0x10D2D, 0x10102100F705552831500, 0x1), (0x11725, 0x10102100F705552831500, 0x1), (0x1352D, 0x10102100F705552831500, 0x1),
   (0x10C19, 0x10102100F705552831500, 0x1), (0x1150F, 0x10102100F705552831500, 0x1), (0x13025, 0x10102100F705552831500, 0x1),
   (0x10F07, 0x10102100F705552831500, 0x1), (0x11E09, 0x10102100F705552831500, 0x1), (0x1251F, 0x10102100F705552831500, 0x1),
   (0x1010C, 0x10102100F705552831500, 0x12F8026), (0x11A10, 0x10102100F705552831500, 0x12F8026),
   (0x11016, 0x10102100F705552831500, 0x12F8026), (0x10934, 0x10102100F705552831500, 0x12F8026),
   (0x12910, 0x10102100F705552831500, 0x12F80267A7D), (0x11A14, 0x10102100F705552831500, 0x12C2E),
   (0x12304, 0x10102100F705552831500, 0x17A7D), (0x13421, 0x10102100F7055528315002C2920, 0x1),
   (0x1212F, 0x10102100F7055528315002C807138, 0x1), (0x1111F, 0x10102100F7055528315002C807138, 0x1),
   (0x13135, 0x10102100F7055528315008071, 0x1032C20), (0x10828, 0x10102100F7055528315007A6C, 0x1),
   (0x12022, 0x10102100F70555283156C, 0x17A7D), (0x1140A, 0x10102100F70555283156C, 0x17A7D2C2E),
   (0x12127, 0x10102100F70555283157A, 0x1), (0x11618, 0x10102100F70555283157A, 0x1), (0x10B0F, 0x10102100F70555283157A, 0x1),
   (0x11836, 0x10102100F70555283157A, 0x1), (0x1172E, 0x10102100F70555283157A, 0x12F8026),
   (0x1352A, 0x10102100F70555283157A, 0x12F8026), (0x12B2E, 0x10102100F70555283157A, 0x12F8026),
   (0x1082A, 0x10102100F70555283157A, 0x12F8026), (0x12306, 0x10102100F70555283157A, 0x12F8026),
   (0x13702, 0x10102100F70555283157A, 0x12F8026), (0x12C38, 0x10102100F70555283157A, 0x12F8026),
   (0x11E06, 0x10102100F70555283157A, 0x12F8026), (0x11B1A, 0x10102100F70555283157A, 0x12F8026),
   (0x1032A, 0x10102100F70555283157A, 0x12C2E), (0x11F14, 0x10102100F70555283157A, 0x12C2E),
   (0x13810, 0x10102100F70555283157A, 0x12C2E), (0x1262C, 0x10102100F70555283157A29, 0x1032C20),
   (0x1201A, 0x10102100F70555283157A00, 0x12F8026), (0x10A02, 0x10102100F70555283157A00, 0x12F8026),
   (0x11838, 0x10102100F70555283157A6C, 0x12F8026), (0x10E34, 0x10102100F70555283157A6C, 0x12F8026),
   (0x10438, 0x10102100F70555283157A6C, 0x12C2E), (0x12F1A, 0x10102100F70555283157A6C, 0x12C2E),
   (0x12305, 0x10102100F528315, 0x17A7055), (0x13525, 0x10102100F5283152C8071, 0x17A7055),
   (0x10723, 0x10102100F528315807138, 0x17A7055032C20), (0x10D2A, 0x10102100F55528315, 0x12F80267A2C71707D),
   (0x13316, 0x10102100F55528315, 0x12F80267A2C71707D), (0x11224, 0x10102100F55528315, 0x12F80267A2C71707D),
   (0x1212E, 0x10102100F55528315, 0x12F80267A70), (0x10616, 0x10102100F55528315, 0x12F80267A70),
   (0x1380C, 0x10102100F55528315, 0x12F80267A70), (0x10434, 0x10102100F55528315, 0x12F80267A70),
   (0x12A18, 0x10102100F55528315, 0x17A2C71707D), (0x12628, 0x10102100F55528315, 0x17A2C71707D),
   (0x1100C, 0x10102100F55528315, 0x17A2C71707D2F8026), (0x11729, 0x10102100F55528315, 0x17A70),
   (0x11F15, 0x10102100F55528315, 0x17A70), (0x1240E, 0x10102100F55528315, 0x17A70), (0x13632, 0x10102100F55528315, 0x17A70),
   (0x11339, 0x10102100F55528315, 0x17A70), (0x10115, 0x10102100F55528315, 0x17A702C), (0x12C37, 0x10102100F55528315, 0x17A702C),
   (0x1320B, 0x10102100F55528315, 0x17A702C), (0x13206, 0x10102100F55528315, 0x17A702C2E),
   (0x12238, 0x10102100F55528315, 0x1616D2F80267A2C71707D), (0x13816, 0x10102100F555283153800, 0x12F80267A70),
   (0x11406, 0x10102100F555283153800, 0x12F80267A70), (0x10111, 0x10102100F555283152C8071, 0x17A70),
   (0x10501, 0x10102100F555283152C8071, 0x17A70), (0x1370B, 0x10102100F555283152C807138, 0x17A70),
   (0x13B37, 0x10102100F555283152C80713800, 0x17A70), (0x11C2F, 0x10102100F555283152920, 0x17A702C),
   (0x1240F, 0x10102100F555283152920, 0x17A702C), (0x10A03, 0x10102100F555283152920, 0x17A702C),
   (0x10221, 0x10102100F55528315292000, 0x17A702C2E), (0x13317, 0x10102100F55528315292000, 0x17A702C2E),
   (0x13634, 0x10102100F5552831500, 0x12F80267A2C71707D), (0x13028, 0x10102100F5552831500, 0x17A2C71707D),
   (0x1111A, 0x10102100F5552831500, 0x17A2C71707D), (0x1071E, 0x10102100F5552831500, 0x17A2C71707D),
   (0x12913, 0x10102100F5552831500, 0x17A70), (0x12F19, 0x10102100F5552831500, 0x17A70),
   (0x12301, 0x10102100F5552831500, 0x17A702C), (0x13919, 0x10102100F5552831500, 0x17A702C),
   (0x13B33, 0x10102100F5552831500, 0x17A702C2E), (0x10223, 0x10102100F5552831500, 0x17A702C03),
   (0x1032F, 0x10102100F55528315006C, 0x17A702C2E), (0x1262E, 0x10102100F555283156C, 0x12F80267A70),
   (0x1032E, 0x10102100F555283156C, 0x17A2C71707D), (0x10F0B, 0x10102100F555283156C, 0x17A70),
   (0x11D3B, 0x10102100F555283156C, 0x17A702C2E03), (0x10116, 0x101100F1571292C20, 0x12F80267A70),
   (0x13200, 0x101100F1571292C20, 0x17A7055), (0x1370A, 0x101100F1571292C2000, 0x17A70),
   (0x11B22, 0x101100F1571292C2000, 0x17A70), (0x11E04, 0x101100F1571292C2000, 0x1416D),
   (0x11336, 0x101100F1571292C20007A70556C, 0x1), (0x1391A, 0x101100F1571292C20007A6C7055, 0x1),
   (0x11C24, 0x101100F1571292C207A7055, 0x12F8026), (0x10D2E, 0x101100F15712920, 0x17A702C2E),
   (0x12D0A, 0x101100F15712920, 0x17A702C2E), (0x12800, 0x101100F15712920027A7055, 0x12C2E),
   (0x1251E, 0x101100F157129207A70556C, 0x12C2E), (0x11228, 0x101100F157129207A70556C, 0x1416D2C2E),
   (0x1050A, 0x101100F5220, 0x17A7055), (0x10000, 0x101100F5220, 0x1616D), (0x12624, 0x101100F5220, 0x1616D2F80267A70),
   (0x12804, 0x101100F5220006C, 0x17A7055), (0x10F06, 0x101100F52207A70556C, 0x12C2E), (0x12F1E, 0x101100F52207A70556C, 0x12C2E),
   (0x11014, 0x101100F527A70556C, 0x1032C20), (0x1161E, 0x101100F712920, 0x17A702C2E), (0x10A0A, 0x101100F71522C2920, 0x1616D),
   (0x1161C, 0x10070100F292C20, 0x10102), (0x10F04, 0x10006100F7020, 0x17A7D01026D), (0x1183A, 0x10006100F7020, 0x1616D0102),
   (0x1201C, 0x10006100F20, 0x17A2C71707D01026D), (0x11D37, 0x1000170100F292C20, 0x1), (0x12F18, 0x1000170100F292C802038, 0x1),
   (0x1161D, 0x100014B0F, 0x1032C20), (0x11338, 0x100014B0F2C2002, 0x12F8026), (0x11728, 0x100014B0F20, 0x12C2E),
   (0x10F0A, 0x100014B0F20, 0x17A2C71707D), (0x11833, 0x100014B0F20, 0x17A702C), (0x11407, 0x100014B0F20, 0x17A702C),
   (0x11401, 0x10001060838, 0x12C2E), (0x11123, 0x10001060838, 0x1416D032C20), (0x12019, 0x1000106082C38, 0x1),
   (0x12C31, 0x1000106082C38, 0x1), (0x1391F, 0x1000106082C38, 0x1), (0x12523, 0x1000106082C38, 0x17A70416D),
   (0x11C29, 0x1000106082C38020F71295283, 0x1), (0x13811, 0x1000106082C38020F71295283, 0x17A70),
   (0x10937, 0x1000106082C386C550F197120, 0x17A70), (0x10117, 0x100010252100F29202C7A706C55, 0x1),
   (0x11337, 0x100010206700F202C807138152952, 0x1), (0x13A2E, 0x100010206100F7020, 0x1616D),
   (0x10610, 0x100010206100F20, 0x17A2C71707D), (0x10328, 0x100010206100F20, 0x17A70), (0x10F01, 0x100010206100F20, 0x17A702C),
   (0x13310, 0x100010206100F20, 0x17A702C2E), (0x13139, 0x10001100F298020, 0x17A702C), (0x12625, 0x100010870556C100F2C20, 0x1),
   (0x11909, 0x100010870556C100F2C20, 0x1), (0x1391E, 0x100010870556C100F2C20, 0x1),
   (0x12124, 0x100010870556C100F2C20, 0x12F80267A7D), (0x10F00, 0x100010870556C100F2C2038, 0x1),
   (0x12D09, 0x100010870556C100F2C2002, 0x1), (0x10500, 0x100010870556C100F2C207A, 0x1),
   (0x12C39, 0x100010870556C100F2C207A, 0x1), (0x12518, 0x100010870556C100F2C207A, 0x1),
   (0x10B0C, 0x100010870556C100F2C207A, 0x12F8026), (0x12911, 0x100010870556C100F7A, 0x1032C20),
   (0x10007, 0x1000108556C100F2C2029, 0x17A70), (0x10A07, 0x1000108556C100F2C2029, 0x17A70),
   (0x11332, 0x1000108556C100F20, 0x12C2E7A70), (0x1100D, 0x1000108556C100F20, 0x17A702C2E),
   (0x12239, 0x1000108556C100F20, 0x17A702C2E), (0x10A01, 0x1000108556C100F20, 0x17A702C2E),
   (0x1380D, 0x10001086C100F2C20, 0x17A7055), (0x11D36, 0x10001086C100F2C20, 0x17A7055), (0x12F1F, 0x1000108100F70552920, 0x1),
   (0x1010D, 0x1000108100F70552920, 0x1616D), (0x10507, 0x1000108100F705529202C80713815, 0x1),
   (0x10B0D, 0x1000108100F705529202C8071157A, 0x1), (0x13133, 0x1000108100F7055292002, 0x1),
   (0x12309, 0x1000108100F7055292002, 0x1416D), (0x10002, 0x1000108100F705529207A, 0x12F8026),
   (0x13202, 0x1000108100F705529207A, 0x12F8026), (0x13638, 0x1000108100F705529207A, 0x12C2E),
   (0x12A1A, 0x1000108100F705529207A38, 0x12F8026), (0x12414, 0x1000108100F705529207A6C, 0x12C2E),
   (0x12E14, 0x1000108100F552920, 0x17A2C71707D), (0x11404, 0x1000108100F552920, 0x17A2C71707D),
   (0x10B17, 0x1000108100F552920, 0x17A70), (0x1330D, 0x1000108100F552920, 0x17A702C),
   (0x1172F, 0x1000108100F552920, 0x17A702C2E), (0x13707, 0x1000108100F5529206C, 0x1616D7A702C2E),
   (0x1302E, 0x16C55700F197120, 0x12C2E7A7D), (0x10C22, 0x16C55700F197120, 0x17A7D01026D),
   (0x11E02, 0x16C550F297120, 0x1000106037A70), (0x13923, 0x16C550F297120, 0x17A702C2E03),
   (0x1230A, 0x16C550F1920, 0x17A2C71707D), (0x1240C, 0x16C550F19200210, 0x17A2C71707D00010603),
   (0x11A16, 0x16C550F197120, 0x1000106037A70), (0x11513, 0x16C550F197120, 0x17A70), (0x13A2B, 0x16C550F197120, 0x17A70),
   (0x11837, 0x16C550F197120, 0x17A70), (0x12F23, 0x16C550F197120, 0x17A70), (0x12F22, 0x16C550F197120, 0x17A70),
   (0x12D07, 0x16C550F197120, 0x17A702C2E), (0x13922, 0x16C550F197120, 0x17A700102), (0x1093A, 0x16C550F197120, 0x17A7000010603),
   (0x11B19, 0x16C550F197120, 0x1616D7A70), (0x1071F, 0x16C550F197120, 0x1616D7A702C2E),
   (0x1212B, 0x16C550F197120, 0x1616D7A702C2E00010603), (0x12734, 0x16C550F197120292C, 0x1000106037A70),
   (0x10325, 0x16C550F1971200001020610, 0x17A702C), (0x1122B, 0x16C550F19712008, 0x1000106037A70),
   (0x12411, 0x16C100F2952, 0x17A7055032C20), (0x1010E, 0x1100F2C29528320, 0x10102), (0x13704, 0x1100F2C29528320, 0x10102),
   (0x1363A, 0x1100F292C206C55, 0x1000106037A70), (0x12B26, 0x1100F2920, 0x17A2C71707D01026D),
   (0x1302C, 0x1100F7055528315, 0x10102), (0x11E08, 0x1100F7055528315, 0x10102), (0x12730, 0x1100F7055528315, 0x10102),
   (0x11512, 0x1100F7055528315, 0x1010200), (0x1352C, 0x1100F7055528315, 0x17A7D01026D),
   (0x12F1C, 0x1100F7055528315, 0x17A7D01026D), (0x10222, 0x1100F70555283153800, 0x101026D),
   (0x12412, 0x1100F70555283157A, 0x10102), (0x12230, 0x1100F70555283157A, 0x10102), (0x1060E, 0x1100F70555283157A6C, 0x10102),
   (0x12C3A, 0x1100F70555283157A6C, 0x101026D), (0x11F12, 0x1100F1571292C20, 0x101026D), (0x13B36, 0x1100F1571292C20, 0x101026D),
   (0x11516, 0x1100F1571292C20, 0x1000106037A70), (0x12302, 0x1100F1571292C20, 0x1000106037A70),
   (0x11D32, 0x1100F1571292C20, 0x1000106082F8026), (0x1330E, 0x1100F1571292C20, 0x1000106086D),
   (0x12A1C, 0x1100F1571292C20, 0x17A7001026D), (0x1313A, 0x1100F1571292C20, 0x17A7000010603),
   (0x1341C, 0x1100F1571292C20, 0x1416D7A7000010603), (0x12B2A, 0x1100F1571292C2002, 0x1000106037A70),
   (0x10326, 0x1100F1571292C20556C, 0x1000106037A70), (0x1273A, 0x1100F1571292C2000, 0x101026D),
   (0x10722, 0x1100F1571292C2000, 0x101026D), (0x12E0C, 0x1100F1571292C206C55, 0x1000106037A70),
   (0x11408, 0x1100F1571292C207A706C55, 0x10102), (0x12020, 0x1100F1571292C207A706C55, 0x100010608),
   (0x11726, 0x1100F1571292C207A6C7055, 0x10102), (0x1290E, 0x1100F1571292C207A6C7055, 0x100010608),
   (0x10932, 0x1100F1571292C207A6C7055, 0x100010608), (0x10D26, 0x1100F52, 0x100010608032C20),
   (0x1100E, 0x1100F5283153800, 0x101027A7055), (0x10B16, 0x1100F5220, 0x12F802600010608), (0x11122, 0x1100F5220, 0x16D010200),
   (0x1133A, 0x1100F5220, 0x101026D), (0x11F16, 0x1100F5220, 0x1000106037A70), (0x13132, 0x1100F5220, 0x100010608),
   (0x13B3A, 0x1100F5220, 0x100010608), (0x12522, 0x1100F5220, 0x100010608), (0x1190A, 0x1100F5220, 0x1000106082C2E),
   (0x1021C, 0x1100F5220, 0x17A7000010603), (0x10936, 0x1100F52202C, 0x101026D), (0x13A2C, 0x1100F52206C55, 0x101027A70),
   (0x11A0C, 0x1100F52206C55, 0x1000106037A70), (0x10E30, 0x1100F52206C55, 0x1000106037A70),
   (0x10A08, 0x1100F52207A706C55, 0x100010608), (0x13204, 0x1100F52207A6C5570, 0x101026D),
   (0x10B0E, 0x1100F55528315, 0x101027A2C71707D), (0x10004, 0x1100F55528315, 0x17A2C71707D01026D),
   (0x11D3A, 0x1100F55528315, 0x17A2C71707D01026D), (0x13418, 0x1100F5552831500, 0x17A2C71707D0102),
   (0x1201D, 0x1100F712920, 0x17A702C2E0001060803), (0x10E36, 0x1100F71522C2920, 0x10102),
   (0x13635, 0x1100F715229, 0x100010608032C20), (0x1021B, 0x17A70550F2C715220, 0x1), (0x11900, 0x17A70550F715220, 0x12C2E),
   (0x10A09, 0x17A70556C, 0x100010608), (0x1172C, 0x17A70556C, 0x100010608032C20), (0x10B14, 0x17A70556C, 0x100010608032C20),
   (0x12914, 0x17A70556C0F197120, 0x12C2E), (0x10938, 0x17A70556C0F197120, 0x1000106082C2E), (0x1111E, 0x17A70556C000108, 0x1),
   (0x10502, 0x17A70556C000108, 0x12F8026), (0x10D2F, 0x17A70556C0001082C807138152952, 0x1),
   (0x12D0B, 0x17A70556C0001082C807138152952, 0x1), (0x13633, 0x17A70556C0001082C807115295256, 0x1),
   (0x10C18, 0x17A70556C0008, 0x10102), (0x10218, 0x17A70556C0008, 0x10102), (0x1302F, 0x17A70556C100F295220, 0x100010608),
   (0x12C35, 0x17A70556C100F295220, 0x100010608), (0x11E0B, 0x17A70556C100F2952202C807115, 0x1),
   (0x13130, 0x17A70556C100F29522002, 0x100010608), (0x10506, 0x17A70556C100F29522001, 0x12C2E),
   (0x1330F, 0x17A70556C100F29522001022C8071, 0x1), (0x1010F, 0x17A70556C100F295220010200, 0x1),
   (0x10435, 0x17A70556C100F295280713815, 0x1032C20), (0x10614, 0x17A70556C100F295201, 0x1032C20),
   (0x1122C, 0x17A70556C100F29520102, 0x1032C20), (0x13B39, 0x17A706C550F297120, 0x1), (0x10F05, 0x17A706C550F297102, 0x1032C20),
   (0x10D25, 0x17A706C550F19712001, 0x1616D), (0x12233, 0x17A706C550F19712000010608, 0x1),
   (0x12626, 0x17A6C70550F197120, 0x10102), (0x11A17, 0x17A6C70550F197120, 0x100010608),
   (0x1262F, 0x17A6C70550F1971202C29, 0x100010608), (0x13529, 0x17A6C70550F19712002, 0x1616D00010608),
   (0x12D08, 0x17A6C70550F197120103800, 0x10102), (0x1341F, 0x17A6C55700F197120, 0x12C2E),
   (0x1172B, 0x1082C38, 0x17A705500010603), (0x10D27, 0x1082C38, 0x17A7000010603), (0x10827, 0x108556C100F2C20, 0x1000106037A70),
   (0x12803, 0x108556C100F2C20, 0x1000106037A70), (0x11013, 0x108556C100F2C20, 0x17A7000010603),
   (0x1262B, 0x108556C100F2C20, 0x17A7000010603), (0x1240D, 0x108556C100F2C20, 0x17A7000010603),
   (0x13631, 0x108556C100F2C20, 0x17A7000010603), (0x10431, 0x108556C100F20, 0x17A702C2E00010603),
   (0x11D35, 0x108100F552920, 0x1000106037A70), (0x11335, 0x108100F552920, 0x1000106037A70),
   (0x10612, 0x108100F55292038, 0x1000106037A70)]

/-- `lunar_python/util/LunarUtil.py` 46 `__DAY_SHEN_SHA`: the records -/
def DAY_SHEN_SHA_RECORDS : List (ℕ × ℕ × ℕ) :=
  [(0x1100, 0x1010203040506, 0x10708090A0B), (0x1101, 0x1010C0D, 0x10E0F101112131415),
   (0x1102, 0x116011718191A1B1C1D1E, 0x11F20212223), (0x1103, 0x124011825261B271D1E, 0x128292A2B),
   (0x1104, 0x1012C2D2E2F3031, 0x13233343536), (0x1105, 0x13738, 0x1393A3B3C3D123E), (0x1106, 0x13F404142434445, 0x1464748),
   (0x1107, 0x1494A4B4C4D, 0x14E), (0x1108, 0x14F5051524C4D5345, 0x154555657), (0x1109, 0x158595345, 0x15A5B12565C),
   (0x110A, 0x15D415E5F60, 0x1616263640B65), (0x110B, 0x10266676869, 0x16A6B6C0A3E6D),
   (0x110C, 0x11602171803041B05061E, 0x107086E), (0x110D, 0x124181B0C0D, 0x10E0F1011126F131415),
   (0x110E, 0x170191A1C1D, 0x11F20212223), (0x110F, 0x10125261B271D, 0x128292A2B), (0x1110, 0x1012C2D2E2F3031, 0x13233343536),
   (0x1111, 0x149013738, 0x1393A3B3C3D123E), (0x1112, 0x14F50013F404142434445, 0x14648), (0x1113, 0x1014A4B, 0x14E6E),
   (0x1114, 0x151524C4D5345, 0x154550B5657), (0x1115, 0x10158595345, 0x15A5B12565C), (0x1116, 0x11601185D415E5F60, 0x161626364),
   (0x1117, 0x124021867681B69, 0x16A6B3E6D), (0x1118, 0x10203040506, 0x10708), (0x1119, 0x11B0C0D, 0x10E0F101112131415),
   (0x111A, 0x1191A1B1C1D1E, 0x11F20212223), (0x111B, 0x14925261B271D1E, 0x128292A), (0x111C, 0x14F502C2D2E2F3031, 0x13233343536),
   (0x111D, 0x13738, 0x1393A3B3C3D123E), (0x111E, 0x13F404142434445, 0x1460B48), (0x111F, 0x14A4B, 0x14E71),
   (0x1120, 0x116171851524C4D5345, 0x1545556), (0x1121, 0x1241858595345, 0x15A5B12565C), (0x1122, 0x15D415E5F60, 0x161626364),
   (0x1123, 0x10267681B69, 0x16A6B3E6D), (0x1124, 0x10203041B05061E, 0x1070847), (0x1125, 0x1491B0C0D, 0x10E0F101112131415),
   (0x1126, 0x14F50191A1C1D1E, 0x11F20212223), (0x1127, 0x12526271D1E, 0x128292A2B), (0x1128, 0x12C2D2E2F3031, 0x132333435360B),
   (0x1129, 0x13738, 0x1393A3B3C3D123E), (0x112A, 0x11617183F404142434445, 0x14648), (0x112B, 0x124184A4B, 0x14E72),
   (0x112C, 0x151524C4D53, 0x154555657), (0x112D, 0x10158595345, 0x15A5B12565C), (0x112E, 0x1015D415E5F60, 0x16162636473),
   (0x112F, 0x149010267681B69, 0x16A6B3E6D), (0x1130, 0x14F500102030405061E, 0x1070874),
   (0x1131, 0x1010C0D, 0x10E0F101112131415726E), (0x1132, 0x1191A1C1D1E, 0x11F2021220B722375),
   (0x1133, 0x12526271D1E, 0x128292A2B), (0x1134, 0x11617182C2D2E2F3031, 0x13233343536),
   (0x1135, 0x124183738, 0x1393A3B3C3D126F3E), (0x1136, 0x13F4041424344, 0x14648), (0x1137, 0x14A4B, 0x14E72),
   (0x1138, 0x151524C4D5345, 0x1545576567257), (0x1139, 0x14958595345, 0x15A5B7612565C77),
   (0x113A, 0x14F505D415E5F60, 0x161626364), (0x113B, 0x102676869, 0x16A6B3E6D), (0x1200, 0x11601025D60, 0x1393B28292A11090A),
   (0x1201, 0x10103041A1B4A, 0x1123435360B6D), (0x1202, 0x1011819681B4C1D061E, 0x13D1014),
   (0x1203, 0x1011718252F591D0D1E, 0x11F20213233), (0x1204, 0x1012C26, 0x13C23), (0x1205, 0x1493751522D2E69, 0x1121364223E2B),
   (0x1206, 0x1503F4005311E, 0x16A3A5A5B), (0x1207, 0x15841440C38, 0x14615), (0x1208, 0x1431C4D45, 0x16B4E5648),
   (0x1209, 0x127534B45, 0x15455070861621256), (0x120A, 0x116666730, 0x10E0F6357), (0x120B, 0x10241425E5F1B, 0x16C0A0B3E5C),
   (0x120C, 0x102185D1B601E, 0x1393B28292A116E), (0x120D, 0x1171803041B4A, 0x1126F3435366D), (0x120E, 0x17019684C1D06, 0x13D1014),
   (0x120F, 0x14901252F591D0D, 0x11F2021323378), (0x1210, 0x150012C26, 0x13C23), (0x1211, 0x1013751522D2E69, 0x1121364223E2B),
   (0x1212, 0x1013F40053145, 0x16A3A5A5B), (0x1213, 0x1015841440C38, 0x146156E), (0x1214, 0x116431C4D5345, 0x16B4E5648),
   (0x1215, 0x127534B45, 0x1545507086162120B5648), (0x1216, 0x118671B30, 0x10E0F6357), (0x1217, 0x102171841425E5F1B, 0x13E5C),
   (0x1218, 0x1025D60, 0x1393B28292A11), (0x1219, 0x14903041A1B4A, 0x1123435366D), (0x121A, 0x15019681B4C1D061E, 0x13D1014),
   (0x121B, 0x1252F591D0D45, 0x11F20213233), (0x121C, 0x12C26, 0x13C23), (0x121D, 0x13751522D2E69, 0x1121364223E2B),
   (0x121E, 0x1163F40053145, 0x16A3A5A5B), (0x121F, 0x15841440C38, 0x1467147150B), (0x1220, 0x118431C4D5345, 0x16B4E5648),
   (0x1221, 0x1171827534B45, 0x15455070861621256), (0x1222, 0x16730, 0x10E0F6357), (0x1223, 0x1490241425E5F1B, 0x13E5C),
   (0x1224, 0x150025D1B601E, 0x1393B28292A11), (0x1225, 0x103041A4A, 0x1123435366D), (0x1226, 0x119684C1D061E, 0x13D1014),
   (0x1227, 0x1252F591D0D1E, 0x11F20213233), (0x1228, 0x1162C26, 0x13C23), (0x1229, 0x13751522D2E69, 0x1121364220B3E2B),
   (0x122A, 0x1183F40053145, 0x16A3A5A5B), (0x122B, 0x117185841440C38, 0x1461572), (0x122C, 0x1431C4D53, 0x16B4E5648),
   (0x122D, 0x1490127534B45, 0x1545507086162125679), (0x122E, 0x15001671B30, 0x10E0F6357), (0x122F, 0x1010241425E5F, 0x13E5C),
   (0x1230, 0x101025D601E, 0x1393B28292A1174), (0x1231, 0x10103041A4A, 0x11234353647726E6D),
   (0x1232, 0x11619684C1D061E, 0x13D1014), (0x1233, 0x1252F591D0D1E, 0x11F202132330B75), (0x1234, 0x1182C26, 0x13C23),
   (0x1235, 0x117183751522D2E69, 0x1126F1364223E2B), (0x1236, 0x13F400531, 0x16A3A5A5B), (0x1237, 0x1495841440C38, 0x1461572),
   (0x1238, 0x150431C4D5345, 0x16B4E76567248), (0x1239, 0x127534B45, 0x154550708616276125673), (0x123A, 0x16730, 0x10E0F6357),
   (0x123B, 0x10241425E5F, 0x13E5C), (0x1300, 0x10102415E5F1A1B69, 0x1090A471457), (0x1301, 0x1011B05, 0x16A125C),
   (0x1302, 0x15001185D19515203042F0C1D601E, 0x1323315), (0x1303, 0x14F490118251C1D1E, 0x13C5A5B106D),
   (0x1304, 0x1012C2706, 0x11F20213B710B787A), (0x1305, 0x158372668300D, 0x16B123E), (0x1306, 0x1173F402D2E45, 0x107086423),
   (0x1307, 0x100, 0x1393A0E2B), (0x1308, 0x124164142444A533145, 0x161624622567B), (0x1309, 0x1674C533845, 0x128292A4E121356),
   (0x130A, 0x1431B594D, 0x154556334353648), (0x130B, 0x1021B27, 0x13D116C0A3E), (0x130C, 0x1500218415E5F1A1B691E, 0x1146E57),
   (0x130D, 0x14F49181B05, 0x16A126F5C), (0x130E, 0x1705D19515203042F0C1D60, 0x13233150B), (0x130F, 0x101251C1D, 0x13C5A5B106D),
   (0x1310, 0x101172C2706, 0x11F20213B7C), (0x1311, 0x10158372668300D, 0x16B123E), (0x1312, 0x12416013F402D2E45, 0x10708476423),
   (0x1313, 0x101, 0x1393A0E0F6E2B), (0x1314, 0x14142444A533145, 0x161624622567D), (0x1315, 0x166671B4C533845, 0x128292A4E121356),
   (0x1316, 0x15018431B594D, 0x154556334353648), (0x1317, 0x14F4902181B4B, 0x13D113E), (0x1318, 0x102415E5F1A69, 0x1140B57),
   (0x1319, 0x11B05, 0x16A125C), (0x131A, 0x1175D19515203042F0C1D601E, 0x1323315), (0x131B, 0x1251C1D1E, 0x13C5A5B106D),
   (0x131C, 0x124162C2706, 0x11F20213B), (0x131D, 0x158372668300D, 0x16B123E), (0x131E, 0x13F402D2E45, 0x107086423),
   (0x131F, 0x100, 0x1393A0E0F2B), (0x1320, 0x150184142444A533145, 0x161624622567E),
   (0x1321, 0x14F4918671B4C533845, 0x128292A4E121356), (0x1322, 0x143594D, 0x15455633435360B48), (0x1323, 0x1021B4B, 0x13D113E),
   (0x1324, 0x10217415E5F1A691E, 0x11457), (0x1325, 0x105, 0x16A125C), (0x1326, 0x158165D19515203042F0C1D601E, 0x1323315),
   (0x1327, 0x1251C1D1E, 0x13C5A5B106D), (0x1328, 0x12C2706, 0x11F20213B75), (0x1329, 0x158372668300D, 0x16B123E),
   (0x132A, 0x150183F402D2E45, 0x107086423), (0x132B, 0x14F4918, 0x1393A0E0F722B), (0x132C, 0x14142444A5331, 0x1616246220B567B),
   (0x132D, 0x101671B4C533845, 0x128292A4E121356), (0x132E, 0x1011743594D, 0x154556334353648), (0x132F, 0x101024B, 0x13D113E),
   (0x1330, 0x124160102415E5F1A691E, 0x1741457), (0x1331, 0x10105, 0x16A12726E5C),
   (0x1332, 0x15D19515203042F0C1D601E, 0x132331572), (0x1333, 0x1251C1D1E, 0x13C5A5B106D), (0x1334, 0x150182C2706, 0x11F20213B),
   (0x1335, 0x14F491858372668300D, 0x16B126F3E), (0x1336, 0x13F402D2E, 0x10708640B23), (0x1337, 0x100, 0x1393A0E0F722B),
   (0x1338, 0x1174142444A533145, 0x1616246762256727B73), (0x1339, 0x1674C533845, 0x128292A4E76121356),
   (0x133A, 0x1241643594D, 0x154556334353648), (0x133B, 0x1024B, 0x13D113E), (0x1400, 0x15001431B, 0x15A5B1248),
   (0x1401, 0x1490141425E5F2F4B, 0x132336314), (0x1402, 0x14F01024A1D1E, 0x1396B3C130B57),
   (0x1403, 0x101025803044C1D1E, 0x107085C), (0x1404, 0x101183F5D5960, 0x10E0F10127F), (0x1405, 0x1171819, 0x11F20213E6D788075),
   (0x1406, 0x1162526690645, 0x128292A), (0x1407, 0x1242C2D2E050D, 0x16162343536647B),
   (0x1408, 0x13767680C5345, 0x16A3A3B3D12155623), (0x1409, 0x14041441C5345, 0x146562B), (0x140A, 0x1501B274D31, 0x14E11),
   (0x140B, 0x14951521A1B3038, 0x15455223E), (0x140C, 0x14F431B1E, 0x15A5B0981120B6E48), (0x140D, 0x141425E5F2F4B, 0x132336314),
   (0x140E, 0x102184A1D, 0x1396B3C1357), (0x140F, 0x1010217185803044C1D, 0x10708475C), (0x1410, 0x116013F585960, 0x10E0F1012),
   (0x1411, 0x1240119, 0x11F20213E6D), (0x1412, 0x1012526690645, 0x128292A), (0x1413, 0x1012C2D2E050D, 0x16162343536646E7B),
   (0x1414, 0x1503767681B0C5345, 0x16A3A3B3D126F155623), (0x1415, 0x1494041441B1C5345, 0x146562B),
   (0x1416, 0x14F1B274D31, 0x14E11710B), (0x1417, 0x151521A1B3038, 0x154556C81223E), (0x1418, 0x118431B, 0x15A5B1248),
   (0x1419, 0x1171841425E5F2F4B, 0x132336314), (0x141A, 0x116024A1D1E, 0x1396B3C1357), (0x141B, 0x124025844044C1D1E, 0x107085C),
   (0x141C, 0x13F5D5960, 0x10E0F1012), (0x141D, 0x119, 0x11F20213E6D), (0x141E, 0x150702526690645, 0x128292A),
   (0x141F, 0x1492C2D2E050D, 0x16162343536647D), (0x1420, 0x14F663767681B0C5345, 0x16A3A3B3D12150B5623),
   (0x1421, 0x14041441B1C5345, 0x146562B), (0x1422, 0x1181B274D31, 0x14E11), (0x1423, 0x1171851521A3038, 0x15455223E),
   (0x1424, 0x116431E, 0x15A5B1248), (0x1425, 0x12441425E5F2F4B, 0x132336314), (0x1426, 0x1024A1D1E, 0x1396B3C1357),
   (0x1427, 0x1025803044C1D1E, 0x107085C), (0x1428, 0x1503F5D5960, 0x10E0F10126F), (0x1429, 0x14919, 0x11F20213E6D),
   (0x142A, 0x14F2526690645, 0x128292A0B82), (0x142B, 0x12C2D2E050D, 0x1616234353664727E73),
   (0x142C, 0x1183767681B0C53, 0x16A3A3B3D12155623), (0x142D, 0x10117184041441C5345, 0x14647562B),
   (0x142E, 0x11601274D31, 0x14E11), (0x142F, 0x1240151521A3038, 0x15455223E), (0x1430, 0x101431E, 0x15A5B761248),
   (0x1431, 0x10141425E5F2F4B, 0x132336314726E), (0x1432, 0x150024A1D1E, 0x1396B3C137257),
   (0x1433, 0x149025844044C1D1E, 0x10708745C), (0x1434, 0x14F3F5D5960, 0x10E0F10120B), (0x1435, 0x119, 0x11F20213E6D75),
   (0x1436, 0x11825266906, 0x128292A82), (0x1437, 0x117182C2D2E050D, 0x1616234353664727B73),
   (0x1438, 0x1163767680C5345, 0x16A3A3B3D1215567223), (0x1439, 0x1244041441C5345, 0x146562B), (0x143A, 0x1274D31, 0x14E11),
   (0x143B, 0x151521A3038, 0x1545576223E83), (0x1500, 0x1012F4D31, 0x154550708323312), (0x1501, 0x101586938, 0x10E0F3C63),
   (0x1502, 0x116010241435E5F051D1E, 0x1641448), (0x1503, 0x101020C1D4B1E, 0x16A28292A353615220B),
   (0x1504, 0x10117183F03041C, 0x1123457), (0x1505, 0x1181927, 0x13D103E5C), (0x1506, 0x15D25306045, 0x11F20213B616213),
   (0x1507, 0x1492C2667, 0x16D), (0x1508, 0x1503751522D2E530645, 0x11256), (0x1509, 0x1401B4A530D45, 0x1393A5A5B1156),
   (0x150A, 0x14142441A1B4C, 0x14623), (0x150B, 0x1681B59, 0x16B4E3E2B), (0x150C, 0x1162F4D311E, 0x15455070832330981126E),
   (0x150D, 0x1586938, 0x10E0F3C0B), (0x150E, 0x102171841435E5F051D, 0x1641448), (0x150F, 0x10102180C1D4B, 0x16A28292A35361522),
   (0x1510, 0x1013F03041C, 0x1123457), (0x1511, 0x149011927, 0x13D103E5C), (0x1512, 0x150015D25306045, 0x11F20213B616213),
   (0x1513, 0x1012C26671B, 0x16E6D), (0x1514, 0x13751522D2E1B530645, 0x1126F56), (0x1515, 0x1401B4A530D45, 0x1393A5A5B1156),
   (0x1516, 0x1164142441A1B4C, 0x1467123), (0x1517, 0x16859, 0x16B4E6C810B3E2B), (0x1518, 0x117182F4D31, 0x154550708323312),
   (0x1519, 0x118586938, 0x10E0F3C63), (0x151A, 0x10241435E5F051D1E, 0x1641448), (0x151B, 0x149020C1D4B1E, 0x16A28292A35361522),
   (0x151C, 0x1503F03041C, 0x1123457), (0x151D, 0x11927, 0x13D103E5C), (0x151E, 0x1705D25306045, 0x11F20213B616213),
   (0x151F, 0x12C26671B, 0x16D), (0x1520, 0x1163751522D2E1B530645, 0x11256), (0x1521, 0x1404A530D45, 0x1393A5A5B110B56),
   (0x1522, 0x117184142441A1B, 0x14623), (0x1523, 0x1186859, 0x16B4E3E2B), (0x1524, 0x12F4D311E, 0x154550708323312),
   (0x1525, 0x149586938, 0x10E0F3C63), (0x1526, 0x1500241435E5F051D1E, 0x1641448), (0x1527, 0x1020C1D4B1E, 0x16A28292A35361522),
   (0x1528, 0x13F03041C, 0x1126F344757), (0x1529, 0x11927, 0x13D103E5C), (0x152A, 0x1165D25306045, 0x11F20213B6162136584),
   (0x152B, 0x1662C2667, 0x10B726D), (0x152C, 0x117183751522D2E1B5306, 0x11256), (0x152D, 0x10118404A530D45, 0x1393A5A5B1156),
   (0x152E, 0x1014142441A4C, 0x14623), (0x152F, 0x149016859, 0x16B4E3E2B), (0x1530, 0x150012F4D311E, 0x1545507083233761285),
   (0x1531, 0x101586938, 0x10E0F3C63726E), (0x1532, 0x10241435E5F051D1E, 0x164147248),
   (0x1533, 0x1020C1D4B1E, 0x16A28292A7435361522), (0x1534, 0x1163F03041C, 0x1123457), (0x1535, 0x11927, 0x13D100B3E5C),
   (0x1536, 0x116185D253060, 0x11F20213B61621378), (0x1537, 0x1182C2667, 0x1726D), (0x1538, 0x13751522D2E530645, 0x1125672),
   (0x1539, 0x149404A530D45, 0x1393A5A5B1156), (0x153A, 0x1504142441A4C, 0x1464723), (0x153B, 0x1681B59, 0x16B4E763E2B),
   (0x1600, 0x1241601304D, 0x13C28292A4E1235361423), (0x1601, 0x101, 0x154553B63342B), (0x1602, 0x10102681D311E, 0x13D),
   (0x1603, 0x1010241425E5F4A1D381E, 0x164), (0x1604, 0x101183F434C, 0x139127148),
   (0x1605, 0x14F49181951520304594B, 0x161620B3E73), (0x1606, 0x150256745, 0x15A5B102257), (0x1607, 0x1172C69, 0x11F20215C),
   (0x1608, 0x15D37261B05536045, 0x16B111256), (0x1609, 0x1402D2E1A1B0C5345, 0x16B111256), (0x160A, 0x124161B1C06, 0x16A3A0E0F13),
   (0x160B, 0x15841442F270D, 0x13233463E), (0x160C, 0x1304D1E, 0x13C28292A4E0981123536146E23), (0x160D, 0x100, 0x154553B63342B),
   (0x160E, 0x10218681D31, 0x13D), (0x160F, 0x14F4901021841425E5F4A1D38, 0x1640B), (0x1610, 0x150013F434C, 0x1391248),
   (0x1611, 0x101171951520304594B, 0x161623E), (0x1612, 0x10125671B45, 0x15A5B102257), (0x1613, 0x1012C1B69, 0x11F20216E5C),
   (0x1614, 0x124165D37261B05536045, 0x16B11126F56), (0x1615, 0x1402D2E1A1B0C5345, 0x1070815566D),
   (0x1616, 0x11C06, 0x16A3A0E0F1347), (0x1617, 0x15841442F270D, 0x13233466C813E), (0x1618, 0x118304D, 0x13C28292A4E1235361423),
   (0x1619, 0x14F4918, 0x154553B63340B2B), (0x161A, 0x15002681D311E, 0x13D), (0x161B, 0x1021741425E5F4A1D381E, 0x164),
   (0x161C, 0x13F434C, 0x1391248), (0x161D, 0x11951520304594B, 0x161623E), (0x161E, 0x124167025671B45, 0x15A5B102257),
   (0x161F, 0x12C1B69, 0x11F20215C), (0x1620, 0x15D372605536045, 0x16B111256), (0x1621, 0x1402D2E1A0C5345, 0x1070815566D),
   (0x1622, 0x1181B1C06, 0x16A3A0E0F13), (0x1623, 0x14F49185841442F270D, 0x13233460B3E),
   (0x1624, 0x150304D1E, 0x13C28292A4E1235361423), (0x1625, 0x117, 0x154553B63342B), (0x1626, 0x102681D311E, 0x13D),
   (0x1627, 0x10241425E5F4A1D381E, 0x164), (0x1628, 0x124163F434C, 0x139126F48), (0x1629, 0x11951520304594B, 0x161623E),
   (0x162A, 0x1256745, 0x15A5B10225786), (0x162B, 0x12C69, 0x11F2021725C75), (0x162C, 0x1185D37261B055360, 0x16B111256),
   (0x162D, 0x14F490118402D2E1A0C5345, 0x10708150B566D), (0x162E, 0x150011C06, 0x16A3A0E0F13),
   (0x162F, 0x101175841442F270D, 0x13233463E), (0x1630, 0x101304D1E, 0x13C28292A4E761235361423),
   (0x1631, 0x101, 0x154553B6334726E2B87), (0x1632, 0x1241602681D311E, 0x13D72), (0x1633, 0x10241425E5F4A1D381E, 0x17464),
   (0x1634, 0x13F434C, 0x139124748), (0x1635, 0x11951520304594B, 0x161623E6573), (0x1636, 0x1661825671B, 0x15A5B10225786),
   (0x1637, 0x14F49182C69, 0x11F20210B725C75), (0x1638, 0x1505D372605536045, 0x16B11125672),
   (0x1639, 0x117402D2E1A0C5345, 0x1070815566D), (0x163A, 0x11B1C06, 0x16A3A0E0F13), (0x163B, 0x15841442F270D, 0x1323346763E),
   (0x1700, 0x10103404142445906, 0x146), (0x1701, 0x101020D, 0x14E14), (0x1702, 0x150015152694D1D1E, 0x154553B23),
   (0x1703, 0x14901051D1E, 0x15A5B2B1288), (0x1704, 0x14F0102415E5F0C31, 0x16162636415), (0x1705, 0x16667681C38, 0x16A6B3E),
   (0x1706, 0x14303042745, 0x107080B48), (0x1707, 0x102304B, 0x10E0F101112), (0x1708, 0x116171819, 0x11F20135657),
   (0x1709, 0x124185825261B5345, 0x128292A353622565C), (0x170A, 0x1025D2C2D2E2F4A60, 0x132338934),
   (0x170B, 0x1374C, 0x1393A3C3D3E6D), (0x170C, 0x1503F4041424459061E, 0x1466E), (0x170D, 0x149020D, 0x14E14),
   (0x170E, 0x14F5152694D1D, 0x154553B), (0x170F, 0x101051D, 0x15A5B12132B), (0x1710, 0x10102415E5F0C31, 0x161626364150B65),
   (0x1711, 0x10167681C38, 0x16A6B3E), (0x1712, 0x1162417184303041B2745, 0x1070848), (0x1713, 0x1240102181B304B, 0x10E0F1011126E),
   (0x1714, 0x1191A1B5345, 0x11F20215657), (0x1715, 0x15825261B5345, 0x128292A353622565C),
   (0x1717, 0x149374C, 0x1393A3C3D126F473E6D), (0x1718, 0x14F3F404142445906, 0x146), (0x1719, 0x1020D, 0x14E14),
   (0x171A, 0x1515269, 0x11D1E), (0x171B, 0x1051D1E, 0x15A5B12132B), (0x171C, 0x116021718415E5F0C31, 0x16162636415),
   (0x171D, 0x1241867681B1C38, 0x16A6B3E), (0x171E, 0x14303041B2745, 0x1070848), (0x171F, 0x1021B30, 0x10E0F101112),
   (0x1720, 0x150191A5345, 0x11F20215657), (0x1721, 0x1495825265345, 0x128292A353622565C),
   (0x1722, 0x14F025D2C2D2E2F4A60, 0x132338934), (0x1723, 0x1374C, 0x1393A3C3D123E6D), (0x1724, 0x13F4041424459061E, 0x146098A0B),
   (0x1725, 0x1020D, 0x14E7114), (0x1726, 0x11617185152694D1D1E, 0x154553B23), (0x1727, 0x12418051D1E, 0x15A5B12132B),
   (0x1728, 0x102415E5F0C31, 0x1616263641573), (0x1729, 0x167681B1C38, 0x16A6B3E), (0x172A, 0x1504303042745, 0x1070848),
   (0x172B, 0x14902304B, 0x10E0F1011126F72), (0x172C, 0x14F70191A1B, 0x11F20215657),
   (0x172D, 0x1015825265345, 0x128292A353622565C), (0x172E, 0x101025D2C2D2E2F4A60, 0x1323389340B),
   (0x172F, 0x101374C, 0x1393A3C3D6C8A123E6D), (0x1730, 0x1160117183F4041424459061E, 0x146), (0x1731, 0x1240102180D, 0x14E14726E),
   (0x1732, 0x15152694D1D1E, 0x154553B767223), (0x1733, 0x1051D1E, 0x15A5B7612132B77), (0x1734, 0x15002415E5F0C31, 0x16162636415),
   (0x1735, 0x14967681C38, 0x16A6B473E), (0x1736, 0x14F4303041B27, 0x17448), (0x1737, 0x102304B, 0x10E0F10111272),
   (0x1738, 0x1191A5345, 0x11F20210B56725775), (0x1739, 0x15825265345, 0x128292A353622565C),
   (0x173A, 0x1160217185D2C2D2E2F4A60, 0x132338934), (0x173B, 0x12418374C, 0x1393A3C3D123E6D),
   (0x1800, 0x150013F5D402760, 0x16A3A5A5B22), (0x1801, 0x1490102414430, 0x1466D), (0x1802, 0x1014D1D061E, 0x16B4E4714),
   (0x1803, 0x1011D0D1E, 0x154550708616212), (0x1804, 0x10102671B4A, 0x10E0F6323), (0x1805, 0x141425E5F4C, 0x18B2B),
   (0x1806, 0x116593145, 0x13928292A113536), (0x1807, 0x1025803041A1B38, 0x11234130B), (0x1808, 0x1181943681B695345, 0x13D105648),
   (0x1809, 0x11718252F0553534B45, 0x11F20213B323356), (0x180A, 0x150022C260C, 0x13C1557),
   (0x180B, 0x1493751522D2E1C, 0x112643E5C), (0x180C, 0x13F5D4027601E, 0x16A3A5A5B226E), (0x180D, 0x102414430, 0x1466D),
   (0x180E, 0x14D1D06, 0x16B4E14), (0x180F, 0x1011D0D, 0x15455070861621279), (0x1810, 0x116010266674A, 0x10E0F6323),
   (0x1811, 0x10141425E5F1B4C, 0x10B3E2B), (0x1812, 0x101181B593145, 0x13928292A113536),
   (0x1813, 0x1010217185803041A1B38, 0x11234136E), (0x1814, 0x1501943681B695345, 0x13D105648),
   (0x1815, 0x149252F05534B45, 0x11F20213B323356), (0x1816, 0x1022C260C, 0x13C1557), (0x1817, 0x13751522D2E1C, 0x1126F643E5C),
   (0x1818, 0x13F5D402760, 0x16A3A5A5B22), (0x1819, 0x102414430, 0x1466D), (0x181A, 0x1164D1D061E, 0x16B4E14),
   (0x181B, 0x11D0D1E, 0x1545507086162120B65), (0x181C, 0x10218671B4A, 0x10E0F6323), (0x181D, 0x1171841425E5F1B4C, 0x13E2B),
   (0x181E, 0x1501B593145, 0x13928292A113536), (0x181F, 0x149025D03041A38, 0x1123413), (0x1820, 0x1194368695345, 0x13D10475648),
   (0x1821, 0x1252F05534B45, 0x11F20213B323356), (0x1716, 0x150025D2C2D2E2F4A60, 0x132338934), (0x1822, 0x1022C260C, 0x13C1557),
   (0x1823, 0x13751522D2E1C, 0x112643E5C), (0x1824, 0x1163F5D4027601E, 0x16A3A5A5B098A22), (0x1825, 0x102414430, 0x146710B6D),
   (0x1826, 0x1184D1D061E, 0x16B4E14), (0x1827, 0x117181D0D1E, 0x154550708616212), (0x1828, 0x15002671B4A, 0x10E0F6323),
   (0x1829, 0x14941425E5F4C, 0x13E2B), (0x182A, 0x1593145, 0x13928292A113536), (0x182B, 0x1025803041A38, 0x1126F341372),
   (0x182C, 0x1701943681B6953, 0x13D105648), (0x182D, 0x101252F05534B45, 0x11F20216132335678),
   (0x182E, 0x11601022C260C, 0x13C1557), (0x182F, 0x1013751522D2E1C, 0x16C8A12640B3E5C),
   (0x1830, 0x101183F5D4027601E, 0x16A3A5A5B22), (0x1831, 0x101021718414430, 0x146726E6D), (0x1832, 0x1504D1D061E, 0x16B4E761472),
   (0x1833, 0x1491D0D1E, 0x1545507086162761273), (0x1834, 0x102674A, 0x10E0F6323), (0x1835, 0x141425E5F4C, 0x13E2B),
   (0x1836, 0x11B5931, 0x13928292A11743536), (0x1837, 0x1025803041A38, 0x112341372), (0x1838, 0x116194368695345, 0x13D10567248),
   (0x1839, 0x1252F05534B45, 0x11F20213B32330B5675), (0x183A, 0x102182C260C, 0x13C1557),
   (0x183B, 0x117183751522D2E1C, 0x112643E5C), (0x1900, 0x1013F408C2E4C, 0x10708641457), (0x1901, 0x1010259, 0x1393A0E0F5C),
   (0x1902, 0x12416015D4142441D601E, 0x161624635367B), (0x1903, 0x10167691D1E, 0x128292A4E126D),
   (0x1904, 0x101021B054D06, 0x15455637134220B), (0x1905, 0x1580C0D, 0x13D11153E), (0x1906, 0x117415E5F1A1B1C45, 0x123),
   (0x1907, 0x14F49021B27, 0x16A3B12472B), (0x1908, 0x1501819515203042F30533145, 0x1323356),
   (0x1909, 0x11825533845, 0x13C5A5B1056), (0x190A, 0x1022C43, 0x11F2021487C), (0x190B, 0x13726684A4B, 0x16B12133E),
   (0x190C, 0x124163F402D2E4C1E, 0x1070864146E57), (0x190D, 0x10259, 0x1393A0E0F5C), (0x190E, 0x15D4142441D60, 0x161624635360B7B),
   (0x190F, 0x10167691D, 0x128292A4E126D), (0x1910, 0x10102171B054D06, 0x15455633422), (0x1911, 0x14F4901581B0C0D, 0x13D11153E),
   (0x1912, 0x1500118415E5F1A1B1C45, 0x123), (0x1913, 0x10102181B27, 0x16A3B126E2B), (0x1914, 0x119515203042F30533145, 0x1323356),
   (0x1915, 0x125533845, 0x13C5A5B1056), (0x1916, 0x12416022C43, 0x11F202148), (0x1917, 0x13726684A4B, 0x16B126F133E),
   (0x1918, 0x13F402D2E4C, 0x1070864140B57), (0x1919, 0x10259, 0x1393A0E0F5C), (0x191A, 0x1175D4142441D601E, 0x161624635367D),
   (0x191B, 0x14F4966671B691D1E, 0x128292A4E126D), (0x191C, 0x15002181B054D06, 0x15455633422),
   (0x191D, 0x118581B0C0D, 0x13D11153E), (0x191E, 0x1415E5F1A1C45, 0x123), (0x191F, 0x10227, 0x16A3B122B),
   (0x1920, 0x1241619515203042F305331, 0x1323356), (0x1921, 0x125533845, 0x13C5A5B1056), (0x1922, 0x1022C43, 0x11F20210B48788D),
   (0x1923, 0x13726684A4B, 0x16B12133E), (0x1924, 0x1173F402D2E4C1E, 0x10708098A641457), (0x1925, 0x14F49022E, 0x1393A0E0F475C),
   (0x1926, 0x150185D4142441D601E, 0x161624635367E), (0x1927, 0x118671B691D1E, 0x128292A4E126D),
   (0x1928, 0x102054D06, 0x15455633422), (0x1929, 0x1580C0D, 0x13D11153E), (0x192A, 0x12416415E5F1A1C45, 0x123),
   (0x192B, 0x10227, 0x16A3B126F722B), (0x192C, 0x17019515203042F305331, 0x132330B56), (0x192D, 0x10125533845, 0x13C5A5B1056),
   (0x192E, 0x10102162C43, 0x11F20214875), (0x192F, 0x14F49013726684A4B, 0x16B6C8A12133E),
   (0x1930, 0x15001183F402D2E4C1E, 0x10708641457), (0x1931, 0x101021859, 0x1393A0E0F726E5C),
   (0x1932, 0x15D4142441D601E, 0x1616246763536727B73), (0x1933, 0x167691D1E, 0x128292A4E76126D),
   (0x1934, 0x1241602054D06, 0x15455633422), (0x1935, 0x1580C0D, 0x13D11153E), (0x1936, 0x1415E5F1A1B1C, 0x1740B23),
   (0x1937, 0x10227, 0x16A3B12722B), (0x1938, 0x11719515203042F30533145, 0x132335672), (0x1939, 0x14F4925533845, 0x13C5A5B1056),
   (0x193A, 0x15002182C43, 0x11F202148), (0x193B, 0x1183726684A4B, 0x16B12133E), (0x1A00, 0x1160170182543261C, 0x128292A48),
   (0x1A01, 0x1240117182C2D2E274B, 0x161623464147B), (0x1A02, 0x1013F376768301D1E, 0x16A3A3D1257),
   (0x1A03, 0x101584041441D1E, 0x1465C), (0x1A04, 0x1015D4D60, 0x14E1113), (0x1A05, 0x14951521A1B4A, 0x154553E6D),
   (0x1A06, 0x14F501B4C0645, 0x15A5B12), (0x1A07, 0x141425E5F2F590D, 0x132336322), (0x1A08, 0x1025345, 0x1396B3C0B5623),
   (0x1A09, 0x1020304695345, 0x10708562B), (0x1A0A, 0x116180531, 0x10E0F10126F), (0x1A0B, 0x1241618190C38, 0x11F20213B3536103E),
   (0x1A0C, 0x12543261C1E, 0x128292A6E48), (0x1A0D, 0x12C2D2E274B, 0x161623464147B), (0x1A0E, 0x13F376768301D, 0x16A3A3D124757),
   (0x1A0F, 0x14924584041441B1D, 0x1465C), (0x1A10, 0x14F50015D1B4D60, 0x14E1113), (0x1A11, 0x10151521A1B4A, 0x154553E6D),
   (0x1A12, 0x1011B4C0645, 0x15A5B120B), (0x1A13, 0x10141425E5F2F590D, 0x1323363226E), (0x1A14, 0x11602185345, 0x1396B3C5623),
   (0x1A15, 0x1240217180304695345, 0x10708562B), (0x1A16, 0x10531, 0x10E0F1012), (0x1A17, 0x1190C38, 0x11F20213B3536153E),
   (0x1A18, 0x12543261C, 0x128292A4882), (0x1A19, 0x149503F3767681B301D1E, 0x16A3A3D1257),
   (0x1A1A, 0x14F503F3767681B301D1E, 0x16A3A3D1257), (0x1A1B, 0x1584041441B1D1E, 0x1465C), (0x1A1C, 0x15D1B4D60, 0x14E1171130B),
   (0x1A1D, 0x151521A1B4A, 0x154553E6D), (0x1A1E, 0x116184C0645, 0x15A5B12), (0x1A1F, 0x124171841425E5F2F590D, 0x132336322),
   (0x1A20, 0x1025345, 0x1396B3C5623), (0x1A21, 0x1020304695345, 0x10708562B), (0x1A22, 0x10531, 0x10E0F10128E),
   (0x1A23, 0x149190C38, 0x11F20213B3536153E788F), (0x1A24, 0x14F502543261C1E, 0x128292A48),
   (0x1A25, 0x12C2D2E274B, 0x161623464147D), (0x1A26, 0x1663F3767681B301D1E, 0x16A3A3D120B57),
   (0x1A27, 0x1584041441B1D1E, 0x1465C), (0x1A28, 0x116185D4D60, 0x14E1113), (0x1A29, 0x124171851521A4A, 0x154553E6D),
   (0x1A2A, 0x14C0645, 0x15A5B7612), (0x1A2B, 0x141425E5F2F590D, 0x13233632272), (0x1A2C, 0x10253, 0x1396B3C475623),
   (0x1A2D, 0x11601020304695345, 0x10708562B), (0x1A2E, 0x14F50010531, 0x10E0F1012), (0x1A2F, 0x101190C38, 0x11F20213B3536153E),
   (0x1A30, 0x1012543261C1E, 0x128292A09900B4882), (0x1A31, 0x1012C2D2E274B, 0x16162346414726E7E73),
   (0x1A32, 0x116183F376768301D1E, 0x16A3A3D126F7257), (0x1A33, 0x12417185D4041441D1E, 0x1465C), (0x1A34, 0x15D4D60, 0x14E1113),
   (0x1A35, 0x151521A4A, 0x15455763E6D83), (0x1A36, 0x14C06, 0x15A5B12), (0x1A37, 0x14941425E5F2F590D, 0x13233632272),
   (0x1A38, 0x14F50029145, 0x1396B3C567223), (0x1A39, 0x1020304695345, 0x1070874562B), (0x1A3A, 0x10531, 0x10E0F10120B),
   (0x1A3B, 0x1190C38, 0x11F20213B6C903536153E75), (0x1B00, 0x101701718254A31, 0x11F20216162), (0x1B01, 0x10118582C26, 0x1674C38),
   (0x1B02, 0x150013F375152432D2E591D1E, 0x1121448), (0x1B03, 0x14901401B1D4B1E, 0x1393A5B11), (0x1B04, 0x1014142441A69, 0x14657),
   (0x1B05, 0x1681B05, 0x16B4E3E5C), (0x1B06, 0x1682F0C4D6045, 0x15455070832331215), (0x1B07, 0x11C, 0x10E0F3C636D),
   (0x1B08, 0x11602415E5F27530645, 0x13536136456), (0x1B09, 0x10230530D45, 0x16A28292A0B56), (0x1B0A, 0x117180304, 0x1126F342223),
   (0x1B0B, 0x11819, 0x13D103E2B), (0x1B0C, 0x150254A311E, 0x11F202161626E), (0x1B0D, 0x149582C26, 0x1671B4C38),
   (0x1B0E, 0x13F375152432D2E591D, 0x1121448), (0x1B0F, 0x101401B1D4B, 0x1393A3B5A5B11), (0x1B10, 0x1014142441A1B69, 0x14657),
   (0x1B11, 0x101681B05, 0x16B4E3E5C), (0x1B12, 0x116015D2F0C4D6045, 0x15455070832331215), (0x1B13, 0x1011C, 0x10E0F3C630B6E6D),
   (0x1B14, 0x1021718415E5F27530645, 0x13536136456), (0x1B15, 0x1021830530D45, 0x16A28292A56), (0x1B16, 0x1500304, 0x112342223),
   (0x1B17, 0x14919, 0x13D103E2B), (0x1B18, 0x1254A31, 0x11F4E21616278), (0x1B19, 0x1582C26, 0x1671B4C38),
   (0x1B1A, 0x13F375152432D2E1B591D1E, 0x1121448), (0x1B1B, 0x1401B1D4B1E, 0x1393A3B5A5B1147),
   (0x1B1C, 0x1164142441A1B69, 0x1467157), (0x1B1D, 0x16805, 0x16B4E0B3E5C), (0x1B1E, 0x117185D2F0C926045, 0x15455070832331215),
   (0x1B1F, 0x1181C, 0x10E0F3C636D), (0x1B20, 0x15002415E5F27530645, 0x13536136456), (0x1B21, 0x1490230530D45, 0x16A28292A56),
   (0x1B22, 0x10304, 0x112342223), (0x1B23, 0x119, 0x13D103E2B), (0x1B24, 0x1254A311E, 0x11F20136162),
   (0x1B25, 0x1582C26671B4C38, 0x100), (0x1B26, 0x1163F375152432D2E1B591D1E, 0x1121448), (0x1B27, 0x1401D4B1E, 0x1393A3B5A5B110B),
   (0x1B28, 0x117184142441A69, 0x14657), (0x1B29, 0x1186805, 0x16B4E3E5C), (0x1B2A, 0x1505D2F0C4D6045, 0x154550708323376121585),
   (0x1B2B, 0x1491C, 0x10E0F3C63726D), (0x1B2C, 0x102415E5F275306, 0x13536136456), (0x1B2D, 0x1010230530D45, 0x16A28292A56),
   (0x1B2E, 0x1010304, 0x112342223), (0x1B2F, 0x10119, 0x13D103E2B), (0x1B30, 0x11601254A311E, 0x11F2021616209906584),
   (0x1B31, 0x10166582C26674C38, 0x10B726E), (0x1B32, 0x117183F375152432D2E591D1E, 0x1126F147248),
   (0x1B33, 0x118401D4B1E, 0x1393A3B5A5B11), (0x1B34, 0x1504142441A69, 0x14657), (0x1B35, 0x149681B05, 0x16B4E763E5C),
   (0x1B36, 0x15D2F0C4D60, 0x15455070832331215), (0x1B37, 0x11C, 0x10E0F3C63726D), (0x1B38, 0x102415E5F27530645, 0x1353613645672),
   (0x1B39, 0x10230530D45, 0x16A28292A744756), (0x1B3A, 0x1160304, 0x112342223), (0x1B3B, 0x119, 0x13D106C900B3E2B),
   (0x1C00, 0x1500170661825670C, 0x15A5B1013141523), (0x1C01, 0x14F4901182C1C, 0x11F2021222B),
   (0x1C02, 0x1011637261B271D311E, 0x16B1112), (0x1C03, 0x101402D2E1A1B311D381E, 0x10708), (0x1C04, 0x10143, 0x16A3A0E0F7148),
   (0x1C05, 0x141442F4B, 0x132334635360B3E), (0x1C06, 0x124164A4D45, 0x13C28292A4E1257), (0x1C07, 0x1174C, 0x1545563345C),
   (0x1C08, 0x1025D6859536045, 0x13D56), (0x1C09, 0x10241425E5F5345, 0x14764566D), (0x1C0A, 0x150186906, 0x1393B126F),
   (0x1C0B, 0x14F4918581951520304050D, 0x161623E), (0x1C0C, 0x125671B0C1E, 0x15A5B101314156E23),
   (0x1C0D, 0x12C1B1C, 0x11F2021222B), (0x1C0E, 0x13F37264B1D31, 0x16B1112), (0x1C0F, 0x101402D2E1A1B301D38, 0x107080B),
   (0x1C10, 0x1241601431B, 0x16A3A0E0F48), (0x1C11, 0x1011741442F4B, 0x132334635363E), (0x1C12, 0x1014A4D45, 0x13C28292A4E1257),
   (0x1C13, 0x1014C, 0x1545563346E5C), (0x1C14, 0x15002185D6804536045, 0x13D56), (0x1C15, 0x14F49021841425E5F5345, 0x164566D),
   (0x1C16, 0x16906, 0x1393B12), (0x1C17, 0x1581951524404050D, 0x161623E), (0x1C18, 0x125670C, 0x15A5B101314152386),
   (0x1C19, 0x12C1B1C, 0x11F2021220B2B), (0x1C1A, 0x124163F37261B271D31, 0x16B1112), (0x1C1B, 0x117402D2E1A1B301D381E, 0x10708),
   (0x1C1C, 0x143, 0x16A3A0E0F48), (0x1C1D, 0x141582F4B, 0x132334635363E), (0x1C1E, 0x150184A4D45, 0x13C28292A4E1257),
   (0x1C1F, 0x14F49184C, 0x1545563345C), (0x1C20, 0x1025D6859536045, 0x13D56), (0x1C21, 0x10241425E5F5345, 0x164566D),
   (0x1C22, 0x16906, 0x1393B12), (0x1C23, 0x1581951520304050D, 0x161620B3E), (0x1C24, 0x1241625671B0C1E, 0x15A5B1013141523),
   (0x1C25, 0x1172C1B1C, 0x11F2021222B), (0x1C26, 0x13F3726271D311E, 0x16B1112), (0x1C27, 0x1402D2E1A301D381E, 0x10708),
   (0x1C28, 0x1501843, 0x16A5B0E0F48), (0x1C29, 0x14F491841442F4B, 0x132334635363E), (0x1C2A, 0x14A4D45, 0x13C28292A4E761257),
   (0x1C2B, 0x14C, 0x154556334725C93), (0x1C2C, 0x1025D68595360, 0x13D56), (0x1C2D, 0x1010241425E5F5345, 0x1640B566D),
   (0x1C2E, 0x12416016906, 0x1393B12), (0x1C2F, 0x10117581951520304050D, 0x161623E),
   (0x1C30, 0x10125670C, 0x15A5B1009901314152386), (0x1C31, 0x1012C1C, 0x11F202122726E2B75),
   (0x1C32, 0x150183F3726271D311E, 0x16B11126F72), (0x1C33, 0x14F4918402D2E1A301D381E, 0x1070847),
   (0x1C34, 0x1431B, 0x16A3A0E0F48), (0x1C35, 0x141442F4B, 0x13233467635363E), (0x1C36, 0x14A4D, 0x13C28292A4E1257),
   (0x1C37, 0x14C, 0x1545563340B725C), (0x1C38, 0x12416025D6859536045, 0x13D5672), (0x1C39, 0x1021741425E5F5345, 0x17464566D),
   (0x1C3A, 0x16906, 0x1393B12), (0x1C3B, 0x1581951520304050D, 0x161626C903E6573)]

end LunarUtil
