import Verif.Model.Py

/-! # Constant tables

Generated by `tools/tables.py` from the text of the repository.  -/

namespace LunarUtil

/-- `lunar_python/util/LunarUtil.py` 9 `BASE_MONTH_ZHI_INDEX` -/
def BASE_MONTH_ZHI_INDEX : ℤ := 2

/-- `lunar_python/util/LunarUtil.py` 10 `XUN` -/
def XUN : List PyStr :=
  [['甲', '子'], ['甲', '戌'], ['甲', '申'], ['甲', '午'], ['甲', '辰'], ['甲', '寅']]

/-- `lunar_python/util/LunarUtil.py` 11 `XUN_KONG` -/
def XUN_KONG : List PyStr :=
  [['戌', '亥'], ['申', '酉'], ['午', '未'], ['辰', '巳'], ['寅', '卯'], ['子', '丑']]

/-- `lunar_python/util/LunarUtil.py` 12 `LIU_YAO` -/
def LIU_YAO : List PyStr :=
  [['先', '胜'], ['友', '引'], ['先', '负'], ['佛', '灭'], ['大', '安'], ['赤', '口']]

/-- `lunar_python/util/LunarUtil.py` 13 `HOU` -/
def HOU : List PyStr :=
  [['初', '候'], ['二', '候'], ['三', '候']]

/-- `lunar_python/util/LunarUtil.py` 14 `WU_HOU` -/
def WU_HOU : List PyStr :=
  [['蚯', '蚓', '结'], ['麋', '角', '解'], ['水', '泉', '动'], ['雁', '北', '乡'], ['鹊', '始', '巢'],
   ['雉', '始', '雊'], ['鸡', '始', '乳'], ['征', '鸟', '厉', '疾'], ['水', '泽', '腹', '坚'],
   ['东', '风', '解', '冻'], ['蛰', '虫', '始', '振'], ['鱼', '陟', '负', '冰'], ['獭', '祭', '鱼'],
   ['候', '雁', '北'], ['草', '木', '萌', '动'], ['桃', '始', '华'], ['仓', '庚', '鸣'],
   ['鹰', '化', '为', '鸠'], ['玄', '鸟', '至'], ['雷', '乃', '发', '声'], ['始', '电'], ['桐', '始', '华'],
   ['田', '鼠', '化', '为', '鴽'], ['虹', '始', '见'], ['萍', '始', '生'], ['鸣', '鸠', '拂', '奇', '羽'],
   ['戴', '胜', '降', '于', '桑'], ['蝼', '蝈', '鸣'], ['蚯', '蚓', '出'], ['王', '瓜', '生'],
   ['苦', '菜', '秀'], ['靡', '草', '死'], ['麦', '秋', '至'], ['螳', '螂', '生'], ['鵙', '始', '鸣'],
   ['反', '舌', '无', '声'], ['鹿', '角', '解'], ['蜩', '始', '鸣'], ['半', '夏', '生'], ['温', '风', '至'],
   ['蟋', '蟀', '居', '壁'], ['鹰', '始', '挚'], ['腐', '草', '为', '萤'], ['土', '润', '溽', '暑'],
   ['大', '雨', '行', '时'], ['凉', '风', '至'], ['白', '露', '降'], ['寒', '蝉', '鸣'],
   ['鹰', '乃', '祭', '鸟'], ['天', '地', '始', '肃'], ['禾', '乃', '登'], ['鸿', '雁', '来'],
   ['玄', '鸟', '归'], ['群', '鸟', '养', '羞'], ['雷', '始', '收', '声'], ['蛰', '虫', '坯', '户'],
   ['水', '始', '涸'], ['鸿', '雁', '来', '宾'], ['雀', '入', '大', '水', '为', '蛤'], ['菊', '有', '黄', '花'],
   ['豺', '乃', '祭', '兽'], ['草', '木', '黄', '落'], ['蛰', '虫', '咸', '俯'], ['水', '始', '冰'],
   ['地', '始', '冻'], ['雉', '入', '大', '水', '为', '蜃'], ['虹', '藏', '不', '见'],
   ['天', '气', '上', '升', '地', '气', '下', '降'], ['闭', '塞', '而', '成', '冬'], ['鹖', '鴠', '不', '鸣'],
   ['虎', '始', '交'], ['荔', '挺', '出']]

/-- `lunar_python/util/LunarUtil.py` 15 `GAN` -/
def GAN : List PyStr :=
  [[], ['甲'], ['乙'], ['丙'], ['丁'], ['戊'], ['己'], ['庚'], ['辛'], ['壬'], ['癸']]

/-- `lunar_python/util/LunarUtil.py` 34 `ZHI` -/
def ZHI : List PyStr :=
  [[], ['子'], ['丑'], ['寅'], ['卯'], ['辰'], ['巳'], ['午'], ['未'], ['申'], ['酉'], ['戌'], ['亥']]

/-- `lunar_python/util/LunarUtil.py` 35 `JIA_ZI` -/
def JIA_ZI : List PyStr :=
  [['甲', '子'], ['乙', '丑'], ['丙', '寅'], ['丁', '卯'], ['戊', '辰'], ['己', '巳'], ['庚', '午'],
   ['辛', '未'], ['壬', '申'], ['癸', '酉'], ['甲', '戌'], ['乙', '亥'], ['丙', '子'], ['丁', '丑'],
   ['戊', '寅'], ['己', '卯'], ['庚', '辰'], ['辛', '巳'], ['壬', '午'], ['癸', '未'], ['甲', '申'],
   ['乙', '酉'], ['丙', '戌'], ['丁', '亥'], ['戊', '子'], ['己', '丑'], ['庚', '寅'], ['辛', '卯'],
   ['壬', '辰'], ['癸', '巳'], ['甲', '午'], ['乙', '未'], ['丙', '申'], ['丁', '酉'], ['戊', '戌'],
   ['己', '亥'], ['庚', '子'], ['辛', '丑'], ['壬', '寅'], ['癸', '卯'], ['甲', '辰'], ['乙', '巳'],
   ['丙', '午'], ['丁', '未'], ['戊', '申'], ['己', '酉'], ['庚', '戌'], ['辛', '亥'], ['壬', '子'],
   ['癸', '丑'], ['甲', '寅'], ['乙', '卯'], ['丙', '辰'], ['丁', '巳'], ['戊', '午'], ['己', '未'],
   ['庚', '申'], ['辛', '酉'], ['壬', '戌'], ['癸', '亥']]

/-- `lunar_python/util/LunarUtil.py` 36 `ZHI_XING` -/
def ZHI_XING : List PyStr :=
  [[], ['建'], ['除'], ['满'], ['平'], ['定'], ['执'], ['破'], ['危'], ['成'], ['收'], ['开'], ['闭']]

/-- `lunar_python/util/LunarUtil.py` 37 `TIAN_SHEN` -/
def TIAN_SHEN : List PyStr :=
  [[], ['青', '龙'], ['明', '堂'], ['天', '刑'], ['朱', '雀'], ['金', '匮'], ['天', '德'], ['白', '虎'],
   ['玉', '堂'], ['天', '牢'], ['玄', '武'], ['司', '命'], ['勾', '陈']]

/-- `lunar_python/util/LunarUtil.py` 47-60 `ZHI_TIAN_SHEN_OFFSET` -/
def ZHI_TIAN_SHEN_OFFSET : List (PyStr × ℤ) :=
  [(['子'], 4), (['丑'], 2), (['寅'], 0), (['卯'], 10), (['辰'], 8), (['巳'], 6), (['午'], 4),
   (['未'], 2), (['申'], 0), (['酉'], 10), (['戌'], 8), (['亥'], 6)]

/-- `lunar_python/util/LunarUtil.py` 61-75 `TIAN_SHEN_TYPE` -/
def TIAN_SHEN_TYPE : List (PyStr × PyStr) :=
  [(['青', '龙'], ['黄', '道']), (['明', '堂'], ['黄', '道']), (['金', '匮'], ['黄', '道']),
   (['天', '德'], ['黄', '道']), (['玉', '堂'], ['黄', '道']), (['司', '命'], ['黄', '道']),
   (['天', '刑'], ['黑', '道']), (['朱', '雀'], ['黑', '道']), (['白', '虎'], ['黑', '道']),
   (['天', '牢'], ['黑', '道']), (['玄', '武'], ['黑', '道']), (['勾', '陈'], ['黑', '道'])]

/-- `lunar_python/util/LunarUtil.py` 77-80 `TIAN_SHEN_TYPE_LUCK` -/
def TIAN_SHEN_TYPE_LUCK : List (PyStr × PyStr) :=
  [(['黄', '道'], ['吉']), (['黑', '道'], ['凶'])]

/-- `lunar_python/util/LunarUtil.py` 82-102 `LU` -/
def LU : List (PyStr × PyStr) :=
  [(['甲'], ['寅']), (['乙'], ['卯']), (['丙'], ['巳']), (['丁'], ['午']), (['戊'], ['巳']),
   (['己'], ['午']), (['庚'], ['申']), (['辛'], ['酉']), (['壬'], ['亥']), (['癸'], ['子']),
   (['寅'], ['甲']), (['卯'], ['乙']), (['巳'], ['丙', ',', '戊']), (['午'], ['丁', ',', '己']),
   (['申'], ['庚']), (['酉'], ['辛']), (['亥'], ['壬']), (['子'], ['癸'])]

/-- `lunar_python/util/LunarUtil.py` 16 `POSITION_XI` -/
def POSITION_XI : List PyStr :=
  [[], ['艮'], ['乾'], ['坤'], ['离'], ['巽'], ['艮'], ['乾'], ['坤'], ['离'], ['巽']]

/-- `lunar_python/util/LunarUtil.py` 17 `POSITION_YANG_GUI` -/
def POSITION_YANG_GUI : List PyStr :=
  [[], ['坤'], ['坤'], ['兑'], ['乾'], ['艮'], ['坎'], ['离'], ['艮'], ['震'], ['巽']]

/-- `lunar_python/util/LunarUtil.py` 18 `POSITION_YIN_GUI` -/
def POSITION_YIN_GUI : List PyStr :=
  [[], ['艮'], ['坎'], ['乾'], ['兑'], ['坤'], ['坤'], ['艮'], ['离'], ['巽'], ['震']]

/-- `lunar_python/util/LunarUtil.py` 19 `POSITION_FU` -/
def POSITION_FU : List PyStr :=
  [[], ['巽'], ['巽'], ['震'], ['震'], ['坎'], ['离'], ['坤'], ['坤'], ['乾'], ['兑']]

/-- `lunar_python/util/LunarUtil.py` 20 `POSITION_FU_2` -/
def POSITION_FU_2 : List PyStr :=
  [[], ['坎'], ['坤'], ['乾'], ['巽'], ['艮'], ['坎'], ['坤'], ['乾'], ['巽'], ['艮']]

/-- `lunar_python/util/LunarUtil.py` 21 `POSITION_CAI` -/
def POSITION_CAI : List PyStr :=
  [[], ['艮'], ['艮'], ['坤'], ['坤'], ['坎'], ['坎'], ['震'], ['震'], ['离'], ['离']]

/-- `lunar_python/util/LunarUtil.py` 22 `POSITION_TAI_SUI_YEAR` -/
def POSITION_TAI_SUI_YEAR : List PyStr :=
  [['坎'], ['艮'], ['艮'], ['震'], ['巽'], ['巽'], ['离'], ['坤'], ['坤'], ['兑'], ['坎'], ['坎']]

/-- `lunar_python/util/LunarUtil.py` 23 `POSITION_GAN` -/
def POSITION_GAN : List PyStr :=
  [['震'], ['震'], ['离'], ['离'], ['中'], ['中'], ['兑'], ['兑'], ['坎'], ['坎']]

/-- `lunar_python/util/LunarUtil.py` 24 `POSITION_ZHI` -/
def POSITION_ZHI : List PyStr :=
  [['坎'], ['中'], ['震'], ['震'], ['中'], ['离'], ['离'], ['中'], ['兑'], ['兑'], ['中'], ['坎']]

/-- `lunar_python/util/LunarUtil.py` 347-357 `POSITION_DESC` -/
def POSITION_DESC : List (PyStr × PyStr) :=
  [(['坎'], ['正', '北']), (['艮'], ['东', '北']), (['震'], ['正', '东']), (['巽'], ['东', '南']),
   (['离'], ['正', '南']), (['坤'], ['西', '南']), (['兑'], ['正', '西']), (['乾'], ['西', '北']),
   (['中'], ['中', '宫'])]

/-- `lunar_python/util/LunarUtil.py` 104 `PENG_ZU_GAN` -/
def PENG_ZU_GAN : List PyStr :=
  [[], ['甲', '不', '开', '仓', '财', '物', '耗', '散'], ['乙', '不', '栽', '植', '千', '株', '不', '长'],
   ['丙', '不', '修', '灶', '必', '见', '灾', '殃'], ['丁', '不', '剃', '头', '头', '必', '生', '疮'],
   ['戊', '不', '受', '田', '田', '主', '不', '祥'], ['己', '不', '破', '券', '二', '比', '并', '亡'],
   ['庚', '不', '经', '络', '织', '机', '虚', '张'], ['辛', '不', '合', '酱', '主', '人', '不', '尝'],
   ['壬', '不', '泱', '水', '更', '难', '提', '防'], ['癸', '不', '词', '讼', '理', '弱', '敌', '强']]

/-- `lunar_python/util/LunarUtil.py` 105 `PENG_ZU_ZHI` -/
def PENG_ZU_ZHI : List PyStr :=
  [[], ['子', '不', '问', '卜', '自', '惹', '祸', '殃'], ['丑', '不', '冠', '带', '主', '不', '还', '乡'],
   ['寅', '不', '祭', '祀', '神', '鬼', '不', '尝'], ['卯', '不', '穿', '井', '水', '泉', '不', '香'],
   ['辰', '不', '哭', '泣', '必', '主', '重', '丧'], ['巳', '不', '远', '行', '财', '物', '伏', '藏'],
   ['午', '不', '苫', '盖', '屋', '主', '更', '张'], ['未', '不', '服', '药', '毒', '气', '入', '肠'],
   ['申', '不', '安', '床', '鬼', '祟', '入', '房'], ['酉', '不', '会', '客', '醉', '坐', '颠', '狂'],
   ['戌', '不', '吃', '犬', '作', '怪', '上', '床'], ['亥', '不', '嫁', '娶', '不', '利', '新', '郎']]

/-- `lunar_python/util/LunarUtil.py` 25-32 `POSITION_TAI_DAY` -/
def POSITION_TAI_DAY : List PyStr :=
  [['占', '门', '碓', ' ', '外', '东', '南'], ['碓', '磨', '厕', ' ', '外', '东', '南'],
   ['厨', '灶', '炉', ' ', '外', '正', '南'], ['仓', '库', '门', ' ', '外', '正', '南'],
   ['房', '床', '栖', ' ', '外', '正', '南'], ['占', '门', '床', ' ', '外', '正', '南'],
   ['占', '碓', '磨', ' ', '外', '正', '南'], ['厨', '灶', '厕', ' ', '外', '西', '南'],
   ['仓', '库', '炉', ' ', '外', '西', '南'], ['房', '床', '门', ' ', '外', '西', '南'],
   ['占', '门', '栖', ' ', '外', '西', '南'], ['碓', '磨', '床', ' ', '外', '西', '南'],
   ['厨', '灶', '碓', ' ', '外', '西', '南'], ['仓', '库', '厕', ' ', '外', '正', '西'],
   ['房', '床', '炉', ' ', '外', '正', '西'], ['占', '大', '门', ' ', '外', '正', '西'],
   ['碓', '磨', '栖', ' ', '外', '正', '西'], ['厨', '灶', '床', ' ', '外', '正', '西'],
   ['仓', '库', '碓', ' ', '外', '西', '北'], ['房', '床', '厕', ' ', '外', '西', '北'],
   ['占', '门', '炉', ' ', '外', '西', '北'], ['碓', '磨', '门', ' ', '外', '西', '北'],
   ['厨', '灶', '栖', ' ', '外', '西', '北'], ['仓', '库', '床', ' ', '外', '西', '北'],
   ['房', '床', '碓', ' ', '外', '正', '北'], ['占', '门', '厕', ' ', '外', '正', '北'],
   ['碓', '磨', '炉', ' ', '外', '正', '北'], ['厨', '灶', '门', ' ', '外', '正', '北'],
   ['仓', '库', '栖', ' ', '外', '正', '北'], ['占', '房', '床', ' ', '房', '内', '北'],
   ['占', '门', '碓', ' ', '房', '内', '北'], ['碓', '磨', '厕', ' ', '房', '内', '北'],
   ['厨', '灶', '炉', ' ', '房', '内', '北'], ['仓', '库', '门', ' ', '房', '内', '北'],
   ['房', '床', '栖', ' ', '房', '内', '中'], ['占', '门', '床', ' ', '房', '内', '中'],
   ['占', '碓', '磨', ' ', '房', '内', '南'], ['厨', '灶', '厕', ' ', '房', '内', '南'],
   ['仓', '库', '炉', ' ', '房', '内', '南'], ['房', '床', '门', ' ', '房', '内', '西'],
   ['占', '门', '栖', ' ', '房', '内', '东'], ['碓', '磨', '床', ' ', '房', '内', '东'],
   ['厨', '灶', '碓', ' ', '房', '内', '东'], ['仓', '库', '厕', ' ', '房', '内', '东'],
   ['房', '床', '炉', ' ', '房', '内', '中'], ['占', '大', '门', ' ', '外', '东', '北'],
   ['碓', '磨', '栖', ' ', '外', '东', '北'], ['厨', '灶', '床', ' ', '外', '东', '北'],
   ['仓', '库', '碓', ' ', '外', '东', '北'], ['房', '床', '厕', ' ', '外', '东', '北'],
   ['占', '门', '炉', ' ', '外', '东', '北'], ['碓', '磨', '门', ' ', '外', '正', '东'],
   ['厨', '灶', '栖', ' ', '外', '正', '东'], ['仓', '库', '床', ' ', '外', '正', '东'],
   ['房', '床', '碓', ' ', '外', '正', '东'], ['占', '门', '厕', ' ', '外', '正', '东'],
   ['碓', '磨', '炉', ' ', '外', '东', '南'], ['厨', '灶', '门', ' ', '外', '东', '南'],
   ['仓', '库', '栖', ' ', '外', '东', '南'], ['占', '房', '床', ' ', '外', '东', '南']]

/-- `lunar_python/util/LunarUtil.py` 33 `POSITION_TAI_MONTH` -/
def POSITION_TAI_MONTH : List PyStr :=
  [['占', '房', '床'], ['占', '户', '窗'], ['占', '门', '堂'], ['占', '厨', '灶'], ['占', '房', '床'],
   ['占', '床', '仓'], ['占', '碓', '磨'], ['占', '厕', '户'], ['占', '门', '房'], ['占', '房', '床'],
   ['占', '灶', '炉'], ['占', '房', '床']]

/-- `lunar_python/util/LunarUtil.py` 106 `NUMBER` -/
def NUMBER : List PyStr :=
  [['〇'], ['一'], ['二'], ['三'], ['四'], ['五'], ['六'], ['七'], ['八'], ['九'], ['十'], ['十', '一'],
   ['十', '二']]

/-- `lunar_python/util/LunarUtil.py` 107 `MONTH` -/
def MONTH : List PyStr :=
  [[], ['正'], ['二'], ['三'], ['四'], ['五'], ['六'], ['七'], ['八'], ['九'], ['十'], ['冬'], ['腊']]

/-- `lunar_python/util/LunarUtil.py` 108 `SEASON` -/
def SEASON : List PyStr :=
  [[], ['孟', '春'], ['仲', '春'], ['季', '春'], ['孟', '夏'], ['仲', '夏'], ['季', '夏'], ['孟', '秋'],
   ['仲', '秋'], ['季', '秋'], ['孟', '冬'], ['仲', '冬'], ['季', '冬']]

/-- `lunar_python/util/LunarUtil.py` 109 `SHENGXIAO` -/
def SHENGXIAO : List PyStr :=
  [[], ['鼠'], ['牛'], ['虎'], ['兔'], ['龙'], ['蛇'], ['马'], ['羊'], ['猴'], ['鸡'], ['狗'], ['猪']]

/-- `lunar_python/util/LunarUtil.py` 110 `DAY` -/
def DAY : List PyStr :=
  [[], ['初', '一'], ['初', '二'], ['初', '三'], ['初', '四'], ['初', '五'], ['初', '六'], ['初', '七'],
   ['初', '八'], ['初', '九'], ['初', '十'], ['十', '一'], ['十', '二'], ['十', '三'], ['十', '四'],
   ['十', '五'], ['十', '六'], ['十', '七'], ['十', '八'], ['十', '九'], ['二', '十'], ['廿', '一'],
   ['廿', '二'], ['廿', '三'], ['廿', '四'], ['廿', '五'], ['廿', '六'], ['廿', '七'], ['廿', '八'],
   ['廿', '九'], ['三', '十']]

/-- `lunar_python/util/LunarUtil.py` 111 `YUE_XIANG` -/
def YUE_XIANG : List PyStr :=
  [[], ['朔'], ['既', '朔'], ['蛾', '眉', '新'], ['蛾', '眉', '新'], ['蛾', '眉'], ['夕'], ['上', '弦'],
   ['上', '弦'], ['九', '夜'], ['宵'], ['宵'], ['宵'], ['渐', '盈', '凸'], ['小', '望'], ['望'], ['既', '望'],
   ['立', '待'], ['居', '待'], ['寝', '待'], ['更', '待'], ['渐', '亏', '凸'], ['下', '弦'], ['下', '弦'],
   ['有', '明'], ['有', '明'], ['蛾', '眉', '残'], ['蛾', '眉', '残'], ['残'], ['晓'], ['晦']]

/-- `lunar_python/util/LunarUtil.py` 112-121 `FESTIVAL` -/
def FESTIVAL : List (PyStr × PyStr) :=
  [(['1', '-', '1'], ['春', '节']), (['1', '-', '1', '5'], ['元', '宵', '节']),
   (['2', '-', '2'], ['龙', '头', '节']), (['5', '-', '5'], ['端', '午', '节']),
   (['7', '-', '7'], ['七', '夕', '节']), (['8', '-', '1', '5'], ['中', '秋', '节']),
   (['9', '-', '9'], ['重', '阳', '节']), (['1', '2', '-', '8'], ['腊', '八', '节'])]

/-- `lunar_python/util/LunarUtil.py` 123-151 `OTHER_FESTIVAL` -/
def OTHER_FESTIVAL : List (PyStr × List PyStr) :=
  [(['1', '-', '4'], [['接', '神', '日']]), (['1', '-', '5'], [['隔', '开', '日']]),
   (['1', '-', '7'], [['人', '日']]), (['1', '-', '8'], [['谷', '日'], ['顺', '星', '节']]),
   (['1', '-', '9'], [['天', '日']]), (['1', '-', '1', '0'], [['地', '日']]),
   (['1', '-', '2', '0'], [['天', '穿', '节']]), (['1', '-', '2', '5'], [['填', '仓', '节']]),
   (['1', '-', '3', '0'], [['正', '月', '晦']]), (['2', '-', '1'], [['中', '和', '节']]),
   (['2', '-', '2'], [['社', '日', '节']]), (['3', '-', '3'], [['上', '巳', '节']]),
   (['5', '-', '2', '0'], [['分', '龙', '节']]), (['5', '-', '2', '5'], [['会', '龙', '节']]),
   (['6', '-', '6'], [['天', '贶', '节']]), (['6', '-', '2', '4'], [['观', '莲', '节']]),
   (['6', '-', '2', '5'], [['五', '谷', '母', '节']]), (['7', '-', '1', '5'], [['中', '元', '节']]),
   (['7', '-', '2', '2'], [['财', '神', '节']]), (['7', '-', '2', '9'], [['地', '藏', '节']]),
   (['8', '-', '1'], [['天', '灸', '日']]), (['1', '0', '-', '1'], [['寒', '衣', '节']]),
   (['1', '0', '-', '1', '0'], [['十', '成', '节']]),
   (['1', '0', '-', '1', '5'], [['下', '元', '节']]), (['1', '2', '-', '7'], [['驱', '傩', '日']]),
   (['1', '2', '-', '1', '6'], [['尾', '牙']]), (['1', '2', '-', '2', '4'], [['祭', '灶', '日']])]

/-- `lunar_python/util/LunarUtil.py` 153-249 `XIU` -/
def XIU : List (PyStr × PyStr) :=
  [(['申', '1'], ['毕']), (['申', '2'], ['翼']), (['申', '3'], ['箕']), (['申', '4'], ['奎']),
   (['申', '5'], ['鬼']), (['申', '6'], ['氐']), (['申', '0'], ['虚']), (['子', '1'], ['毕']),
   (['子', '2'], ['翼']), (['子', '3'], ['箕']), (['子', '4'], ['奎']), (['子', '5'], ['鬼']),
   (['子', '6'], ['氐']), (['子', '0'], ['虚']), (['辰', '1'], ['毕']), (['辰', '2'], ['翼']),
   (['辰', '3'], ['箕']), (['辰', '4'], ['奎']), (['辰', '5'], ['鬼']), (['辰', '6'], ['氐']),
   (['辰', '0'], ['虚']), (['巳', '1'], ['危']), (['巳', '2'], ['觜']), (['巳', '3'], ['轸']),
   (['巳', '4'], ['斗']), (['巳', '5'], ['娄']), (['巳', '6'], ['柳']), (['巳', '0'], ['房']),
   (['酉', '1'], ['危']), (['酉', '2'], ['觜']), (['酉', '3'], ['轸']), (['酉', '4'], ['斗']),
   (['酉', '5'], ['娄']), (['酉', '6'], ['柳']), (['酉', '0'], ['房']), (['丑', '1'], ['危']),
   (['丑', '2'], ['觜']), (['丑', '3'], ['轸']), (['丑', '4'], ['斗']), (['丑', '5'], ['娄']),
   (['丑', '6'], ['柳']), (['丑', '0'], ['房']), (['寅', '1'], ['心']), (['寅', '2'], ['室']),
   (['寅', '3'], ['参']), (['寅', '4'], ['角']), (['寅', '5'], ['牛']), (['寅', '6'], ['胃']),
   (['寅', '0'], ['星']), (['午', '1'], ['心']), (['午', '2'], ['室']), (['午', '3'], ['参']),
   (['午', '4'], ['角']), (['午', '5'], ['牛']), (['午', '6'], ['胃']), (['午', '0'], ['星']),
   (['戌', '1'], ['心']), (['戌', '2'], ['室']), (['戌', '3'], ['参']), (['戌', '4'], ['角']),
   (['戌', '5'], ['牛']), (['戌', '6'], ['胃']), (['戌', '0'], ['星']), (['亥', '1'], ['张']),
   (['亥', '2'], ['尾']), (['亥', '3'], ['壁']), (['亥', '4'], ['井']), (['亥', '5'], ['亢']),
   (['亥', '6'], ['女']), (['亥', '0'], ['昴']), (['卯', '1'], ['张']), (['卯', '2'], ['尾']),
   (['卯', '3'], ['壁']), (['卯', '4'], ['井']), (['卯', '5'], ['亢']), (['卯', '6'], ['女']),
   (['卯', '0'], ['昴']), (['未', '1'], ['张']), (['未', '2'], ['尾']), (['未', '3'], ['壁']),
   (['未', '4'], ['井']), (['未', '5'], ['亢']), (['未', '6'], ['女']), (['未', '0'], ['昴'])]

/-- `lunar_python/util/LunarUtil.py` 251-280 `XIU_LUCK` -/
def XIU_LUCK : List (PyStr × PyStr) :=
  [(['角'], ['吉']), (['亢'], ['凶']), (['氐'], ['凶']), (['房'], ['吉']), (['心'], ['凶']),
   (['尾'], ['吉']), (['箕'], ['吉']), (['斗'], ['吉']), (['牛'], ['凶']), (['女'], ['凶']),
   (['虚'], ['凶']), (['危'], ['凶']), (['室'], ['吉']), (['壁'], ['吉']), (['奎'], ['凶']),
   (['娄'], ['吉']), (['胃'], ['吉']), (['昴'], ['凶']), (['毕'], ['吉']), (['觜'], ['凶']),
   (['参'], ['吉']), (['井'], ['吉']), (['鬼'], ['凶']), (['柳'], ['凶']), (['星'], ['凶']),
   (['张'], ['吉']), (['翼'], ['凶']), (['轸'], ['吉'])]

/-- `lunar_python/util/LunarUtil.py` 313-318 `SHOU` -/
def SHOU : List (PyStr × PyStr) :=
  [(['东'], ['青', '龙']), (['南'], ['朱', '雀']), (['西'], ['白', '虎']), (['北'], ['玄', '武'])]

/-- `lunar_python/util/LunarUtil.py` 320 `CHONG` -/
def CHONG : List PyStr :=
  [['午'], ['未'], ['申'], ['酉'], ['戌'], ['亥'], ['子'], ['丑'], ['寅'], ['卯'], ['辰'], ['巳']]

/-- `lunar_python/util/LunarUtil.py` 322 `CHONG_GAN` -/
def CHONG_GAN : List PyStr :=
  [['戊'], ['己'], ['庚'], ['辛'], ['壬'], ['癸'], ['甲'], ['乙'], ['丙'], ['丁']]

/-- `lunar_python/util/LunarUtil.py` 324 `CHONG_GAN_TIE` -/
def CHONG_GAN_TIE : List PyStr :=
  [['己'], ['戊'], ['辛'], ['庚'], ['癸'], ['壬'], ['乙'], ['甲'], ['丁'], ['丙']]

/-- `lunar_python/util/LunarUtil.py` 326 `CHONG_GAN_4` -/
def CHONG_GAN_4 : List PyStr :=
  [['庚'], ['辛'], ['壬'], ['癸'], [], [], ['甲'], ['乙'], ['丙'], ['丁']]

/-- `lunar_python/util/LunarUtil.py` 328 `HE_GAN_5` -/
def HE_GAN_5 : List PyStr :=
  [['己'], ['庚'], ['辛'], ['壬'], ['癸'], ['甲'], ['乙'], ['丙'], ['丁'], ['戊']]

/-- `lunar_python/util/LunarUtil.py` 330 `HE_ZHI_6` -/
def HE_ZHI_6 : List PyStr :=
  [['丑'], ['子'], ['亥'], ['戌'], ['酉'], ['申'], ['未'], ['午'], ['巳'], ['辰'], ['卯'], ['寅']]

/-- `lunar_python/util/LunarUtil.py` 332-345 `SHA` -/
def SHA : List (PyStr × PyStr) :=
  [(['子'], ['南']), (['丑'], ['东']), (['寅'], ['北']), (['卯'], ['西']), (['辰'], ['南']),
   (['巳'], ['东']), (['午'], ['北']), (['未'], ['西']), (['申'], ['南']), (['酉'], ['东']),
   (['戌'], ['北']), (['亥'], ['西'])]

/-- `lunar_python/util/LunarUtil.py` 359-388 `GONG` -/
def GONG : List (PyStr × PyStr) :=
  [(['角'], ['东']), (['井'], ['南']), (['奎'], ['西']), (['斗'], ['北']), (['亢'], ['东']),
   (['鬼'], ['南']), (['娄'], ['西']), (['牛'], ['北']), (['氐'], ['东']), (['柳'], ['南']),
   (['胃'], ['西']), (['女'], ['北']), (['房'], ['东']), (['星'], ['南']), (['昴'], ['西']),
   (['虚'], ['北']), (['心'], ['东']), (['张'], ['南']), (['毕'], ['西']), (['危'], ['北']),
   (['尾'], ['东']), (['翼'], ['南']), (['觜'], ['西']), (['室'], ['北']), (['箕'], ['东']),
   (['轸'], ['南']), (['参'], ['西']), (['壁'], ['北'])]

/-- `lunar_python/util/LunarUtil.py` 390-419 `ZHENG` -/
def ZHENG : List (PyStr × PyStr) :=
  [(['角'], ['木']), (['井'], ['木']), (['奎'], ['木']), (['斗'], ['木']), (['亢'], ['金']),
   (['鬼'], ['金']), (['娄'], ['金']), (['牛'], ['金']), (['氐'], ['土']), (['柳'], ['土']),
   (['胃'], ['土']), (['女'], ['土']), (['房'], ['日']), (['星'], ['日']), (['昴'], ['日']),
   (['虚'], ['日']), (['心'], ['月']), (['张'], ['月']), (['毕'], ['月']), (['危'], ['月']),
   (['尾'], ['火']), (['翼'], ['火']), (['觜'], ['火']), (['室'], ['火']), (['箕'], ['水']),
   (['轸'], ['水']), (['参'], ['水']), (['壁'], ['水'])]

/-- `lunar_python/util/LunarUtil.py` 421-450 `ANIMAL` -/
def ANIMAL : List (PyStr × PyStr) :=
  [(['角'], ['蛟']), (['斗'], ['獬']), (['奎'], ['狼']), (['井'], ['犴']), (['亢'], ['龙']),
   (['牛'], ['牛']), (['娄'], ['狗']), (['鬼'], ['羊']), (['女'], ['蝠']), (['氐'], ['貉']),
   (['胃'], ['彘']), (['柳'], ['獐']), (['房'], ['兔']), (['虚'], ['鼠']), (['昴'], ['鸡']),
   (['星'], ['马']), (['心'], ['狐']), (['危'], ['燕']), (['毕'], ['乌']), (['张'], ['鹿']),
   (['尾'], ['虎']), (['室'], ['猪']), (['觜'], ['猴']), (['翼'], ['蛇']), (['箕'], ['豹']),
   (['壁'], ['獝']), (['参'], ['猿']), (['轸'], ['蚓'])]

/-- `lunar_python/util/LunarUtil.py` 452-463 `WU_XING_GAN` -/
def WU_XING_GAN : List (PyStr × PyStr) :=
  [(['甲'], ['木']), (['乙'], ['木']), (['丙'], ['火']), (['丁'], ['火']), (['戊'], ['土']),
   (['己'], ['土']), (['庚'], ['金']), (['辛'], ['金']), (['壬'], ['水']), (['癸'], ['水'])]

/-- `lunar_python/util/LunarUtil.py` 465-478 `WU_XING_ZHI` -/
def WU_XING_ZHI : List (PyStr × PyStr) :=
  [(['寅'], ['木']), (['卯'], ['木']), (['巳'], ['火']), (['午'], ['火']), (['辰'], ['土']),
   (['丑'], ['土']), (['戌'], ['土']), (['未'], ['土']), (['申'], ['金']), (['酉'], ['金']),
   (['亥'], ['水']), (['子'], ['水'])]

/-- `lunar_python/util/LunarUtil.py` 480-541 `NAYIN` -/
def NAYIN : List (PyStr × PyStr) :=
  [(['甲', '子'], ['海', '中', '金']), (['甲', '午'], ['沙', '中', '金']), (['丙', '寅'], ['炉', '中', '火']),
   (['丙', '申'], ['山', '下', '火']), (['戊', '辰'], ['大', '林', '木']), (['戊', '戌'], ['平', '地', '木']),
   (['庚', '午'], ['路', '旁', '土']), (['庚', '子'], ['壁', '上', '土']), (['壬', '申'], ['剑', '锋', '金']),
   (['壬', '寅'], ['金', '箔', '金']), (['甲', '戌'], ['山', '头', '火']), (['甲', '辰'], ['覆', '灯', '火']),
   (['丙', '子'], ['涧', '下', '水']), (['丙', '午'], ['天', '河', '水']), (['戊', '寅'], ['城', '头', '土']),
   (['戊', '申'], ['大', '驿', '土']), (['庚', '辰'], ['白', '蜡', '金']), (['庚', '戌'], ['钗', '钏', '金']),
   (['壬', '午'], ['杨', '柳', '木']), (['壬', '子'], ['桑', '柘', '木']), (['甲', '申'], ['泉', '中', '水']),
   (['甲', '寅'], ['大', '溪', '水']), (['丙', '戌'], ['屋', '上', '土']), (['丙', '辰'], ['沙', '中', '土']),
   (['戊', '子'], ['霹', '雳', '火']), (['戊', '午'], ['天', '上', '火']), (['庚', '寅'], ['松', '柏', '木']),
   (['庚', '申'], ['石', '榴', '木']), (['壬', '辰'], ['长', '流', '水']), (['壬', '戌'], ['大', '海', '水']),
   (['乙', '丑'], ['海', '中', '金']), (['乙', '未'], ['沙', '中', '金']), (['丁', '卯'], ['炉', '中', '火']),
   (['丁', '酉'], ['山', '下', '火']), (['己', '巳'], ['大', '林', '木']), (['己', '亥'], ['平', '地', '木']),
   (['辛', '未'], ['路', '旁', '土']), (['辛', '丑'], ['壁', '上', '土']), (['癸', '酉'], ['剑', '锋', '金']),
   (['癸', '卯'], ['金', '箔', '金']), (['乙', '亥'], ['山', '头', '火']), (['乙', '巳'], ['覆', '灯', '火']),
   (['丁', '丑'], ['涧', '下', '水']), (['丁', '未'], ['天', '河', '水']), (['己', '卯'], ['城', '头', '土']),
   (['己', '酉'], ['大', '驿', '土']), (['辛', '巳'], ['白', '蜡', '金']), (['辛', '亥'], ['钗', '钏', '金']),
   (['癸', '未'], ['杨', '柳', '木']), (['癸', '丑'], ['桑', '柘', '木']), (['乙', '酉'], ['泉', '中', '水']),
   (['乙', '卯'], ['大', '溪', '水']), (['丁', '亥'], ['屋', '上', '土']), (['丁', '巳'], ['沙', '中', '土']),
   (['己', '丑'], ['霹', '雳', '火']), (['己', '未'], ['天', '上', '火']), (['辛', '卯'], ['松', '柏', '木']),
   (['辛', '酉'], ['石', '榴', '木']), (['癸', '巳'], ['长', '流', '水']), (['癸', '亥'], ['大', '海', '水'])]

/-- `lunar_python/util/LunarUtil.py` 543-644 `SHI_SHEN` -/
def SHI_SHEN : List (PyStr × PyStr) :=
  [(['甲', '甲'], ['比', '肩']), (['甲', '乙'], ['劫', '财']), (['甲', '丙'], ['食', '神']),
   (['甲', '丁'], ['伤', '官']), (['甲', '戊'], ['偏', '财']), (['甲', '己'], ['正', '财']),
   (['甲', '庚'], ['七', '杀']), (['甲', '辛'], ['正', '官']), (['甲', '壬'], ['偏', '印']),
   (['甲', '癸'], ['正', '印']), (['乙', '乙'], ['比', '肩']), (['乙', '甲'], ['劫', '财']),
   (['乙', '丁'], ['食', '神']), (['乙', '丙'], ['伤', '官']), (['乙', '己'], ['偏', '财']),
   (['乙', '戊'], ['正', '财']), (['乙', '辛'], ['七', '杀']), (['乙', '庚'], ['正', '官']),
   (['乙', '癸'], ['偏', '印']), (['乙', '壬'], ['正', '印']), (['丙', '丙'], ['比', '肩']),
   (['丙', '丁'], ['劫', '财']), (['丙', '戊'], ['食', '神']), (['丙', '己'], ['伤', '官']),
   (['丙', '庚'], ['偏', '财']), (['丙', '辛'], ['正', '财']), (['丙', '壬'], ['七', '杀']),
   (['丙', '癸'], ['正', '官']), (['丙', '甲'], ['偏', '印']), (['丙', '乙'], ['正', '印']),
   (['丁', '丁'], ['比', '肩']), (['丁', '丙'], ['劫', '财']), (['丁', '己'], ['食', '神']),
   (['丁', '戊'], ['伤', '官']), (['丁', '辛'], ['偏', '财']), (['丁', '庚'], ['正', '财']),
   (['丁', '癸'], ['七', '杀']), (['丁', '壬'], ['正', '官']), (['丁', '乙'], ['偏', '印']),
   (['丁', '甲'], ['正', '印']), (['戊', '戊'], ['比', '肩']), (['戊', '己'], ['劫', '财']),
   (['戊', '庚'], ['食', '神']), (['戊', '辛'], ['伤', '官']), (['戊', '壬'], ['偏', '财']),
   (['戊', '癸'], ['正', '财']), (['戊', '甲'], ['七', '杀']), (['戊', '乙'], ['正', '官']),
   (['戊', '丙'], ['偏', '印']), (['戊', '丁'], ['正', '印']), (['己', '己'], ['比', '肩']),
   (['己', '戊'], ['劫', '财']), (['己', '辛'], ['食', '神']), (['己', '庚'], ['伤', '官']),
   (['己', '癸'], ['偏', '财']), (['己', '壬'], ['正', '财']), (['己', '乙'], ['七', '杀']),
   (['己', '甲'], ['正', '官']), (['己', '丁'], ['偏', '印']), (['己', '丙'], ['正', '印']),
   (['庚', '庚'], ['比', '肩']), (['庚', '辛'], ['劫', '财']), (['庚', '壬'], ['食', '神']),
   (['庚', '癸'], ['伤', '官']), (['庚', '甲'], ['偏', '财']), (['庚', '乙'], ['正', '财']),
   (['庚', '丙'], ['七', '杀']), (['庚', '丁'], ['正', '官']), (['庚', '戊'], ['偏', '印']),
   (['庚', '己'], ['正', '印']), (['辛', '辛'], ['比', '肩']), (['辛', '庚'], ['劫', '财']),
   (['辛', '癸'], ['食', '神']), (['辛', '壬'], ['伤', '官']), (['辛', '乙'], ['偏', '财']),
   (['辛', '甲'], ['正', '财']), (['辛', '丁'], ['七', '杀']), (['辛', '丙'], ['正', '官']),
   (['辛', '己'], ['偏', '印']), (['辛', '戊'], ['正', '印']), (['壬', '壬'], ['比', '肩']),
   (['壬', '癸'], ['劫', '财']), (['壬', '甲'], ['食', '神']), (['壬', '乙'], ['伤', '官']),
   (['壬', '丙'], ['偏', '财']), (['壬', '丁'], ['正', '财']), (['壬', '戊'], ['七', '杀']),
   (['壬', '己'], ['正', '官']), (['壬', '庚'], ['偏', '印']), (['壬', '辛'], ['正', '印']),
   (['癸', '癸'], ['比', '肩']), (['癸', '壬'], ['劫', '财']), (['癸', '乙'], ['食', '神']),
   (['癸', '甲'], ['伤', '官']), (['癸', '丁'], ['偏', '财']), (['癸', '丙'], ['正', '财']),
   (['癸', '己'], ['七', '杀']), (['癸', '戊'], ['正', '官']), (['癸', '辛'], ['偏', '印']),
   (['癸', '庚'], ['正', '印'])]

/-- `lunar_python/util/LunarUtil.py` 646-659 `ZHI_HIDE_GAN` -/
def ZHI_HIDE_GAN : List (PyStr × List PyStr) :=
  [(['子'], [['癸']]), (['丑'], [['己'], ['癸'], ['辛']]), (['寅'], [['甲'], ['丙'], ['戊']]),
   (['卯'], [['乙']]), (['辰'], [['戊'], ['乙'], ['癸']]), (['巳'], [['丙'], ['庚'], ['戊']]),
   (['午'], [['丁'], ['己']]), (['未'], [['己'], ['丁'], ['乙']]), (['申'], [['庚'], ['壬'], ['戊']]),
   (['酉'], [['辛']]), (['戌'], [['戊'], ['辛'], ['丁']]), (['亥'], [['壬'], ['甲']])]

end LunarUtil

namespace EightChar

/-- `lunar_python/EightChar.py` 10 `MONTH_ZHI` -/
def MONTH_ZHI : List PyStr :=
  [[], ['寅'], ['卯'], ['辰'], ['巳'], ['午'], ['未'], ['申'], ['酉'], ['戌'], ['亥'], ['子'], ['丑']]

/-- `lunar_python/EightChar.py` 12 `CHANG_SHENG` -/
def CHANG_SHENG : List PyStr :=
  [['长', '生'], ['沐', '浴'], ['冠', '带'], ['临', '官'], ['帝', '旺'], ['衰'], ['病'], ['死'], ['墓'],
   ['绝'], ['胎'], ['养']]

/-- `lunar_python/EightChar.py` 14-25 `__CHANG_SHENG_OFFSET` -/
def CHANG_SHENG_OFFSET : List (PyStr × ℤ) :=
  [(['甲'], 1), (['丙'], 10), (['戊'], 10), (['庚'], 7), (['壬'], 4), (['乙'], 6), (['丁'], 9),
   (['己'], 9), (['辛'], 0), (['癸'], 3)]

end EightChar

namespace Lunar

/-- `lunar_python/Lunar.py` 10 `JIE_QI` -/
def JIE_QI : List PyStr :=
  [['冬', '至'], ['小', '寒'], ['大', '寒'], ['立', '春'], ['雨', '水'], ['惊', '蛰'], ['春', '分'],
   ['清', '明'], ['谷', '雨'], ['立', '夏'], ['小', '满'], ['芒', '种'], ['夏', '至'], ['小', '暑'],
   ['大', '暑'], ['立', '秋'], ['处', '暑'], ['白', '露'], ['秋', '分'], ['寒', '露'], ['霜', '降'],
   ['立', '冬'], ['小', '雪'], ['大', '雪']]

/-- `lunar_python/Lunar.py` 11 `JIE_QI_IN_USE` -/
def JIE_QI_IN_USE : List PyStr :=
  [['D', 'A', '_', 'X', 'U', 'E'], ['冬', '至'], ['小', '寒'], ['大', '寒'], ['立', '春'], ['雨', '水'],
   ['惊', '蛰'], ['春', '分'], ['清', '明'], ['谷', '雨'], ['立', '夏'], ['小', '满'], ['芒', '种'],
   ['夏', '至'], ['小', '暑'], ['大', '暑'], ['立', '秋'], ['处', '暑'], ['白', '露'], ['秋', '分'],
   ['寒', '露'], ['霜', '降'], ['立', '冬'], ['小', '雪'], ['大', '雪'],
   ['D', 'O', 'N', 'G', '_', 'Z', 'H', 'I'], ['X', 'I', 'A', 'O', '_', 'H', 'A', 'N'],
   ['D', 'A', '_', 'H', 'A', 'N'], ['L', 'I', '_', 'C', 'H', 'U', 'N'],
   ['Y', 'U', '_', 'S', 'H', 'U', 'I'], ['J', 'I', 'N', 'G', '_', 'Z', 'H', 'E']]

end Lunar

namespace LunarYear

/-- `lunar_python/LunarYear.py` 13 `YUAN` -/
def YUAN : List PyStr :=
  [['下'], ['上'], ['中']]

/-- `lunar_python/LunarYear.py` 15 `YUN` -/
def YUN : List PyStr :=
  [['七'], ['八'], ['九'], ['一'], ['二'], ['三'], ['四'], ['五'], ['六']]

/-- `lunar_python/LunarYear.py` 17-18 `__LEAP_11` -/
def LEAP_11 : List ℤ :=
  [75, 94, 170, 265, 322, 398, 469, 553, 583, 610, 678, 735, 754, 773, 849, 887, 936, 1050,
   1069, 1126, 1145, 1164, 1183, 1259, 1278, 1308, 1373, 1403, 1441, 1460, 1498, 1555, 1593,
   1612, 1631, 1642, 2033, 2128, 2147, 2242, 2614, 2728, 2910, 3062, 3244, 3339, 3616, 3711,
   3730, 3825, 4007, 4159, 4197, 4322, 4341, 4379, 4417, 4531, 4599, 4694, 4713, 4789, 4808,
   4971, 5085, 5104, 5161, 5180, 5199, 5294, 5305, 5476, 5677, 5696, 5772, 5791, 5848, 5886,
   6049, 6068, 6144, 6163, 6258, 6402, 6440, 6497, 6516, 6630, 6641, 6660, 6679, 6736, 6774,
   6850, 6869, 6899, 6918, 6994, 7013, 7032, 7051, 7070, 7089, 7108, 7127, 7146, 7222, 7271,
   7290, 7309, 7366, 7385, 7404, 7442, 7461, 7480, 7491, 7499, 7594, 7624, 7643, 7662, 7681,
   7719, 7738, 7814, 7863, 7882, 7901, 7939, 7958, 7977, 7996, 8034, 8053, 8072, 8091, 8121,
   8159, 8186, 8216, 8235, 8254, 8273, 8311, 8330, 8341, 8349, 8368, 8444, 8463, 8474, 8493,
   8531, 8569, 8588, 8626, 8664, 8683, 8694, 8702, 8713, 8721, 8751, 8789, 8808, 8816, 8827,
   8846, 8884, 8903, 8922, 8941, 8971, 9036, 9066, 9085, 9104, 9123, 9142, 9161, 9180, 9199,
   9218, 9256, 9294, 9313, 9324, 9343, 9362, 9381, 9419, 9438, 9476, 9514, 9533, 9544, 9552,
   9563, 9571, 9582, 9601, 9639, 9658, 9666, 9677, 9696, 9734, 9753, 9772, 9791, 9802, 9821,
   9886, 9897, 9916, 9935, 9954, 9973, 9992]

/-- `lunar_python/LunarYear.py` 20-21 `__LEAP_12` -/
def LEAP_12 : List ℤ :=
  [37, 56, 113, 132, 151, 189, 208, 227, 246, 284, 303, 341, 360, 379, 417, 436, 458, 477, 496,
   515, 534, 572, 591, 629, 648, 667, 697, 716, 792, 811, 830, 868, 906, 925, 944, 963, 982,
   1001, 1020, 1039, 1058, 1088, 1153, 1202, 1221, 1240, 1297, 1335, 1392, 1411, 1422, 1430,
   1517, 1525, 1536, 1574, 3358, 3472, 3806, 3988, 4751, 4941, 5066, 5123, 5275, 5343, 5438,
   5457, 5495, 5533, 5552, 5715, 5810, 5829, 5905, 5924, 6421, 6535, 6793, 6812, 6888, 6907,
   7002, 7184, 7260, 7279, 7374, 7556, 7746, 7757, 7776, 7833, 7852, 7871, 7966, 8015, 8110,
   8129, 8148, 8224, 8243, 8338, 8406, 8425, 8482, 8501, 8520, 8558, 8596, 8607, 8615, 8645,
   8740, 8778, 8835, 8865, 8930, 8960, 8979, 8998, 9017, 9055, 9074, 9093, 9112, 9150, 9188,
   9237, 9275, 9332, 9351, 9370, 9408, 9427, 9446, 9457, 9465, 9495, 9560, 9590, 9628, 9647,
   9685, 9715, 9742, 9780, 9810, 9818, 9829, 9848, 9867, 9905, 9924, 9943, 9962, 10000]

end LunarYear
