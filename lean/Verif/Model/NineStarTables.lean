import Verif.Model.Py

/-! # Tables of the nine stars

Generated by `tools/tables.py` from the text of the repository.  -/

namespace NineStar

/-- `lunar_python/NineStar.py` 10 `NUMBER` -/
def NUMBER : List PyStr :=
  [['一'], ['二'], ['三'], ['四'], ['五'], ['六'], ['七'], ['八'], ['九']]

/-- `lunar_python/NineStar.py` 11 `COLOR` -/
def COLOR : List PyStr :=
  [['白'], ['黑'], ['碧'], ['绿'], ['黄'], ['白'], ['赤'], ['白'], ['紫']]

/-- `lunar_python/NineStar.py` 12 `WU_XING` -/
def WU_XING : List PyStr :=
  [['水'], ['土'], ['木'], ['木'], ['土'], ['金'], ['金'], ['土'], ['火']]

/-- `lunar_python/NineStar.py` 13 `POSITION` -/
def POSITION : List PyStr :=
  [['坎'], ['坤'], ['震'], ['巽'], ['中'], ['乾'], ['兑'], ['艮'], ['离']]

/-- `lunar_python/NineStar.py` 14 `NAME_BEI_DOU` -/
def NAME_BEI_DOU : List PyStr :=
  [['天', '枢'], ['天', '璇'], ['天', '玑'], ['天', '权'], ['玉', '衡'], ['开', '阳'], ['摇', '光'],
   ['洞', '明'], ['隐', '元']]

/-- `lunar_python/NineStar.py` 15 `NAME_XUAN_KONG` -/
def NAME_XUAN_KONG : List PyStr :=
  [['贪', '狼'], ['巨', '门'], ['禄', '存'], ['文', '曲'], ['廉', '贞'], ['武', '曲'], ['破', '军'],
   ['左', '辅'], ['右', '弼']]

/-- `lunar_python/NineStar.py` 16 `NAME_QI_MEN` -/
def NAME_QI_MEN : List PyStr :=
  [['天', '蓬'], ['天', '芮'], ['天', '冲'], ['天', '辅'], ['天', '禽'], ['天', '心'], ['天', '柱'],
   ['天', '任'], ['天', '英']]

/-- `lunar_python/NineStar.py` 17 `BA_MEN_QI_MEN` -/
def BA_MEN_QI_MEN : List PyStr :=
  [['休'], ['死'], ['伤'], ['杜'], [], ['开'], ['惊'], ['生'], ['景']]

/-- `lunar_python/NineStar.py` 18 `NAME_TAI_YI` -/
def NAME_TAI_YI : List PyStr :=
  [['太', '乙'], ['摄', '提'], ['轩', '辕'], ['招', '摇'], ['天', '符'], ['青', '龙'], ['咸', '池'],
   ['太', '阴'], ['天', '乙']]

/-- `lunar_python/NineStar.py` 19 `TYPE_TAI_YI` -/
def TYPE_TAI_YI : List PyStr :=
  [['吉', '神'], ['凶', '神'], ['安', '神'], ['安', '神'], ['凶', '神'], ['吉', '神'], ['凶', '神'],
   ['吉', '神'], ['吉', '神']]

/-- `lunar_python/NineStar.py` 20 `SONG_TAI_YI` -/
def SONG_TAI_YI : List PyStr :=
  [['门', '中', '太', '乙', '明', '，', '星', '官', '号', '贪', '狼', '，', '赌', '彩', '财', '喜', '旺', '，', '婚', '姻', '大', '吉', '昌', '，', '出', '入', '无', '阻', '挡', '，', '参', '谒', '见', '贤', '良', '，', '此', '行', '三', '五', '里', '，', '黑', '衣', '别', '阴', '阳', '。'],
   ['门', '前', '见', '摄', '提', '，', '百', '事', '必', '忧', '疑', '，', '相', '生', '犹', '自', '可', '，', '相', '克', '祸', '必', '临', '，', '死', '门', '并', '相', '会', '，', '老', '妇', '哭', '悲', '啼', '，', '求', '谋', '并', '吉', '事', '，', '尽', '皆', '不', '相', '宜', '，', '只', '可', '藏', '隐', '遁', '，', '若', '动', '伤', '身', '疾', '。'],
   ['出', '入', '会', '轩', '辕', '，', '凡', '事', '必', '缠', '牵', '，', '相', '生', '全', '不', '美', '，', '相', '克', '更', '忧', '煎', '，', '远', '行', '多', '不', '利', '，', '博', '彩', '尽', '输', '钱', '，', '九', '天', '玄', '女', '法', '，', '句', '句', '不', '虚', '言', '。'],
   ['招', '摇', '号', '木', '星', '，', '当', '之', '事', '莫', '行', '，', '相', '克', '行', '人', '阻', '，', '阴', '人', '口', '舌', '迎', '，', '梦', '寐', '多', '惊', '惧', '，', '屋', '响', '斧', '自', '鸣', '，', '阴', '阳', '消', '息', '理', '，', '万', '法', '弗', '违', '情', '。'],
   ['五', '鬼', '为', '天', '符', '，', '当', '门', '阴', '女', '谋', '，', '相', '克', '无', '好', '事', '，', '行', '路', '阻', '中', '途', '，', '走', '失', '难', '寻', '觅', '，', '道', '逢', '有', '尼', '姑', '，', '此', '星', '当', '门', '值', '，', '万', '事', '有', '灾', '除', '。'],
   ['神', '光', '跃', '青', '龙', '，', '财', '气', '喜', '重', '重', '，', '投', '入', '有', '酒', '食', '，', '赌', '彩', '最', '兴', '隆', '，', '更', '逢', '相', '生', '旺', '，', '休', '言', '克', '破', '凶', '，', '见', '贵', '安', '营', '寨', '，', '万', '事', '总', '吉', '同', '。'],
   ['吾', '将', '为', '咸', '池', '，', '当', '之', '尽', '不', '宜', '，', '出', '入', '多', '不', '利', '，', '相', '克', '有', '灾', '情', '，', '赌', '彩', '全', '输', '尽', '，', '求', '财', '空', '手', '回', '，', '仙', '人', '真', '妙', '语', '，', '愚', '人', '莫', '与', '知', '，', '动', '用', '虚', '惊', '退', '，', '反', '复', '逆', '风', '吹', '。'],
   ['坐', '临', '太', '阴', '星', '，', '百', '祸', '不', '相', '侵', '，', '求', '谋', '悉', '成', '就', '，', '知', '交', '有', '觅', '寻', '，', '回', '风', '归', '来', '路', '，', '恐', '有', '殃', '伏', '起', '，', '密', '语', '中', '记', '取', '，', '慎', '乎', '莫', '轻', '行', '。'],
   ['迎', '来', '天', '乙', '星', '，', '相', '逢', '百', '事', '兴', '，', '运', '用', '和', '合', '庆', '，', '茶', '酒', '喜', '相', '迎', '，', '求', '谋', '并', '嫁', '娶', '，', '好', '合', '有', '天', '成', '，', '祸', '福', '如', '神', '验', '，', '吉', '凶', '甚', '分', '明', '。']]

/-- `lunar_python/NineStar.py` 21 `LUCK_XUAN_KONG` -/
def LUCK_XUAN_KONG : List PyStr :=
  [['吉'], ['凶'], ['凶'], ['吉'], ['凶'], ['吉'], ['凶'], ['吉'], ['吉']]

/-- `lunar_python/NineStar.py` 22 `LUCK_QI_MEN` -/
def LUCK_QI_MEN : List PyStr :=
  [['大', '凶'], ['大', '凶'], ['小', '吉'], ['大', '吉'], ['大', '吉'], ['大', '吉'], ['小', '凶'],
   ['小', '吉'], ['小', '凶']]

/-- `lunar_python/NineStar.py` 23 `YIN_YANG_QI_MEN` -/
def YIN_YANG_QI_MEN : List PyStr :=
  [['阳'], ['阴'], ['阳'], ['阳'], ['阳'], ['阴'], ['阴'], ['阳'], ['阴']]

end NineStar
