import Verif.Model.Festival

/-! # Tables of `util/FotoUtil.py`

Generated by `tools/tables.py` from the text of the repository (constants used in an entry are written out).  -/

namespace FotoUtil

/-- `lunar_python/util/FotoUtil.py` 11 `DAY_ZHAI_GUAN_YIN` -/
def DAY_ZHAI_GUAN_YIN : List PyStr :=
  [['1', '-', '8'], ['2', '-', '7'], ['2', '-', '9'], ['2', '-', '1', '9'], ['3', '-', '3'],
   ['3', '-', '6'], ['3', '-', '1', '3'], ['4', '-', '2', '2'], ['5', '-', '3'],
   ['5', '-', '1', '7'], ['6', '-', '1', '6'], ['6', '-', '1', '8'], ['6', '-', '1', '9'],
   ['6', '-', '2', '3'], ['7', '-', '1', '3'], ['8', '-', '1', '6'], ['9', '-', '1', '9'],
   ['9', '-', '2', '3'], ['1', '0', '-', '2'], ['1', '1', '-', '1', '9'],
   ['1', '1', '-', '2', '4'], ['1', '2', '-', '2', '5']]

/-- `lunar_python/util/FotoUtil.py` 14 `XIU_27` -/
def XIU_27 : List PyStr :=
  [['角'], ['亢'], ['氐'], ['房'], ['心'], ['尾'], ['箕'], ['斗'], ['女'], ['虚'], ['危'], ['室'], ['壁'],
   ['奎'], ['娄'], ['胃'], ['昴'], ['毕'], ['觜'], ['参'], ['井'], ['鬼'], ['柳'], ['星'], ['张'], ['翼'],
   ['轸']]

/-- `lunar_python/util/FotoUtil.py` 17 `XIU_OFFSET` -/
def XIU_OFFSET : List ℤ :=
  [11, 13, 15, 17, 19, 21, 24, 0, 2, 4, 7, 9]

/-- `lunar_python/util/FotoUtil.py` 270-301 `OTHER_FESTIVAL` -/
def OTHER_FESTIVAL : List (PyStr × List PyStr) :=
  [(['1', '-', '1'], [['弥', '勒', '菩', '萨', '圣', '诞']]),
   (['1', '-', '6'], [['定', '光', '佛', '圣', '诞']]),
   (['2', '-', '8'], [['释', '迦', '牟', '尼', '佛', '出', '家']]),
   (['2', '-', '1', '5'], [['释', '迦', '牟', '尼', '佛', '涅', '槃']]),
   (['2', '-', '1', '9'], [['观', '世', '音', '菩', '萨', '圣', '诞']]),
   (['2', '-', '2', '1'], [['普', '贤', '菩', '萨', '圣', '诞']]),
   (['3', '-', '1', '6'], [['准', '提', '菩', '萨', '圣', '诞']]),
   (['4', '-', '4'], [['文', '殊', '菩', '萨', '圣', '诞']]),
   (['4', '-', '8'], [['释', '迦', '牟', '尼', '佛', '圣', '诞']]),
   (['4', '-', '1', '5'], [['佛', '吉', '祥', '日']]),
   (['4', '-', '2', '8'], [['药', '王', '菩', '萨', '圣', '诞']]),
   (['5', '-', '1', '3'], [['伽', '蓝', '菩', '萨', '圣', '诞']]),
   (['6', '-', '3'], [['韦', '驮', '菩', '萨', '圣', '诞']]),
   (['6', '-', '1', '9'], [['观', '音', '菩', '萨', '成', '道']]),
   (['7', '-', '1', '3'], [['大', '势', '至', '菩', '萨', '圣', '诞']]),
   (['7', '-', '1', '5'], [['佛', '欢', '喜', '日']]),
   (['7', '-', '2', '4'], [['龙', '树', '菩', '萨', '圣', '诞']]),
   (['7', '-', '3', '0'], [['地', '藏', '菩', '萨', '圣', '诞']]),
   (['8', '-', '1', '5'], [['月', '光', '菩', '萨', '圣', '诞']]),
   (['8', '-', '2', '2'], [['燃', '灯', '佛', '圣', '诞']]),
   (['9', '-', '9'], [['摩', '利', '支', '天', '菩', '萨', '圣', '诞']]),
   (['9', '-', '1', '9'], [['观', '世', '音', '菩', '萨', '出', '家']]),
   (['9', '-', '3', '0'], [['药', '师', '琉', '璃', '光', '佛', '圣', '诞']]),
   (['1', '0', '-', '5'], [['达', '摩', '祖', '师', '圣', '诞']]),
   (['1', '0', '-', '2', '0'], [['文', '殊', '菩', '萨', '出', '家']]),
   (['1', '1', '-', '1', '7'], [['阿', '弥', '陀', '佛', '圣', '诞']]),
   (['1', '1', '-', '1', '9'], [['日', '光', '菩', '萨', '圣', '诞']]),
   (['1', '2', '-', '8'], [['释', '迦', '牟', '尼', '佛', '成', '道']]),
   (['1', '2', '-', '2', '3'], [['监', '斋', '菩', '萨', '圣', '诞']]),
   (['1', '2', '-', '2', '9'], [['华', '严', '菩', '萨', '圣', '诞']])]

/-- `lunar_python/util/FotoUtil.py` 48-268 `FESTIVAL` -/
def FESTIVAL : List (PyStr × List FotoFestival) :=
  [(['1', '-', '1'], [⟨['天', '腊', '，', '玉', '帝', '校', '世', '人', '神', '气', '禄', '命'], ['犯', '者', '削', '禄', '夺', '纪'], false, []⟩, ⟨['月', '朔'], ['犯', '者', '夺', '纪'], true, []⟩]),
   (['1', '-', '3'], [⟨['万', '神', '都', '会'], ['犯', '者', '夺', '纪'], false, []⟩, ⟨['斗', '降'], ['犯', '者', '夺', '纪'], true, []⟩]),
   (['1', '-', '5'], [⟨['五', '虚', '忌'], [], false, []⟩]),
   (['1', '-', '6'], [⟨['六', '耗', '忌'], [], false, []⟩, ⟨['雷', '斋', '日'], ['犯', '者', '减', '寿'], true, []⟩]),
   (['1', '-', '7'], [⟨['上', '会', '日'], ['犯', '者', '损', '寿'], false, []⟩]),
   (['1', '-', '8'], [⟨['五', '殿', '阎', '罗', '天', '子', '诞'], ['犯', '者', '夺', '纪'], false, []⟩, ⟨['四', '天', '王', '巡', '行'], [], true, []⟩]),
   (['1', '-', '9'], [⟨['玉', '皇', '上', '帝', '诞'], ['犯', '者', '夺', '纪'], false, []⟩]),
   (['1', '-', '1', '3'], [⟨['杨', '公', '忌'], [], false, []⟩]),
   (['1', '-', '1', '4'], [⟨['三', '元', '降'], ['犯', '者', '减', '寿'], false, []⟩, ⟨['四', '天', '王', '巡', '行'], [], true, []⟩]),
   (['1', '-', '1', '5'], [⟨['三', '元', '降'], ['犯', '者', '减', '寿'], false, []⟩, ⟨['上', '元', '神', '会'], ['犯', '者', '夺', '纪'], false, []⟩, ⟨['月', '望'], ['犯', '者', '夺', '纪'], true, []⟩, ⟨['四', '天', '王', '巡', '行'], [], true, []⟩]),
   (['1', '-', '1', '6'], [⟨['三', '元', '降'], ['犯', '者', '减', '寿'], false, []⟩]),
   (['1', '-', '1', '9'], [⟨['长', '春', '真', '人', '诞'], [], false, []⟩]),
   (['1', '-', '2', '3'], [⟨['三', '尸', '神', '奏', '事'], [], false, []⟩, ⟨['四', '天', '王', '巡', '行'], [], true, []⟩]),
   (['1', '-', '2', '5'], [⟨['月', '晦'], ['犯', '者', '减', '寿'], true, []⟩, ⟨['天', '地', '仓', '开', '日'], ['犯', '者', '损', '寿', '，', '子', '带', '疾'], false, []⟩]),
   (['1', '-', '2', '7'], [⟨['斗', '降'], ['犯', '者', '夺', '纪'], true, []⟩]),
   (['1', '-', '2', '8'], [⟨['人', '神', '在', '阴'], ['犯', '者', '得', '病'], true, ['宜', '先', '一', '日', '即', '戒']⟩]),
   (['1', '-', '2', '9'], [⟨['四', '天', '王', '巡', '行'], [], true, []⟩]),
   (['1', '-', '3', '0'], [⟨['月', '晦'], ['犯', '者', '减', '寿'], true, ['如', '月', '小', '，', '即', '戒', '廿', '九']⟩, ⟨['司', '命', '奏', '事'], ['犯', '者', '减', '寿'], true, ['如', '月', '小', '，', '即', '戒', '廿', '九']⟩, ⟨['四', '天', '王', '巡', '行'], [], true, []⟩]),
   (['2', '-', '1'], [⟨['一', '殿', '秦', '广', '王', '诞'], ['犯', '者', '夺', '纪'], false, []⟩, ⟨['月', '朔'], ['犯', '者', '夺', '纪'], true, []⟩]),
   (['2', '-', '2'], [⟨['万', '神', '都', '会'], ['犯', '者', '夺', '纪'], false, []⟩, ⟨['福', '德', '土', '地', '正', '神', '诞'], ['犯', '者', '得', '祸'], false, []⟩]),
   (['2', '-', '3'], [⟨['文', '昌', '帝', '君', '诞'], ['犯', '者', '削', '禄', '夺', '纪'], false, []⟩, ⟨['斗', '降'], ['犯', '者', '夺', '纪'], true, []⟩]),
   (['2', '-', '6'], [⟨['东', '华', '帝', '君', '诞'], [], false, []⟩, ⟨['雷', '斋', '日'], ['犯', '者', '减', '寿'], true, []⟩]),
   (['2', '-', '8'], [⟨['释', '迦', '牟', '尼', '佛', '出', '家'], ['犯', '者', '夺', '纪'], false, []⟩, ⟨['三', '殿', '宋', '帝', '王', '诞'], ['犯', '者', '夺', '纪'], false, []⟩, ⟨['张', '大', '帝', '诞'], ['犯', '者', '夺', '纪'], false, []⟩, ⟨['四', '天', '王', '巡', '行'], [], true, []⟩]),
   (['2', '-', '1', '1'], [⟨['杨', '公', '忌'], [], false, []⟩]),
   (['2', '-', '1', '4'], [⟨['四', '天', '王', '巡', '行'], [], true, []⟩]),
   (['2', '-', '1', '5'], [⟨['释', '迦', '牟', '尼', '佛', '涅', '槃'], ['犯', '者', '削', '禄', '夺', '纪'], false, []⟩, ⟨['太', '上', '老', '君', '诞'], ['犯', '者', '削', '禄', '夺', '纪'], false, []⟩, ⟨['月', '望'], ['犯', '者', '削', '禄', '夺', '纪'], true, []⟩, ⟨['四', '天', '王', '巡', '行'], [], true, []⟩]),
   (['2', '-', '1', '7'], [⟨['东', '方', '杜', '将', '军', '诞'], [], false, []⟩]),
   (['2', '-', '1', '8'], [⟨['四', '殿', '五', '官', '王', '诞'], ['犯', '者', '削', '禄', '夺', '纪'], false, []⟩, ⟨['至', '圣', '先', '师', '孔', '子', '讳', '辰'], ['犯', '者', '削', '禄', '夺', '纪'], false, []⟩]),
   (['2', '-', '1', '9'], [⟨['观', '音', '大', '士', '诞'], ['犯', '者', '夺', '纪'], false, []⟩]),
   (['2', '-', '2', '1'], [⟨['普', '贤', '菩', '萨', '诞'], [], false, []⟩]),
   (['2', '-', '2', '3'], [⟨['四', '天', '王', '巡', '行'], [], true, []⟩]),
   (['2', '-', '2', '5'], [⟨['月', '晦'], ['犯', '者', '减', '寿'], true, []⟩]),
   (['2', '-', '2', '7'], [⟨['斗', '降'], ['犯', '者', '夺', '纪'], true, []⟩]),
   (['2', '-', '2', '8'], [⟨['人', '神', '在', '阴'], ['犯', '者', '得', '病'], true, ['宜', '先', '一', '日', '即', '戒']⟩]),
   (['2', '-', '2', '9'], [⟨['四', '天', '王', '巡', '行'], [], true, []⟩]),
   (['2', '-', '3', '0'], [⟨['月', '晦'], ['犯', '者', '减', '寿'], true, ['如', '月', '小', '，', '即', '戒', '廿', '九']⟩, ⟨['司', '命', '奏', '事'], ['犯', '者', '减', '寿'], true, ['如', '月', '小', '，', '即', '戒', '廿', '九']⟩, ⟨['四', '天', '王', '巡', '行'], [], true, []⟩]),
   (['3', '-', '1'], [⟨['二', '殿', '楚', '江', '王', '诞'], ['犯', '者', '夺', '纪'], false, []⟩, ⟨['月', '朔'], ['犯', '者', '夺', '纪'], true, []⟩]),
   (['3', '-', '3'], [⟨['玄', '天', '上', '帝', '诞'], ['犯', '者', '夺', '纪'], false, []⟩, ⟨['斗', '降'], ['犯', '者', '夺', '纪'], true, []⟩]),
   (['3', '-', '6'], [⟨['雷', '斋', '日'], ['犯', '者', '减', '寿'], true, []⟩]),
   (['3', '-', '8'], [⟨['六', '殿', '卞', '城', '王', '诞'], ['犯', '者', '夺', '纪'], false, []⟩, ⟨['四', '天', '王', '巡', '行'], [], true, []⟩]),
   (['3', '-', '9'], [⟨['牛', '鬼', '神', '出'], ['犯', '者', '产', '恶', '胎'], false, []⟩, ⟨['杨', '公', '忌'], [], false, []⟩]),
   (['3', '-', '1', '2'], [⟨['中', '央', '五', '道', '诞'], [], false, []⟩]),
   (['3', '-', '1', '4'], [⟨['四', '天', '王', '巡', '行'], [], true, []⟩]),
   (['3', '-', '1', '5'], [⟨['昊', '天', '上', '帝', '诞'], ['犯', '者', '夺', '纪'], false, []⟩, ⟨['玄', '坛', '诞'], ['犯', '者', '夺', '纪'], false, []⟩, ⟨['月', '望'], ['犯', '者', '夺', '纪'], true, []⟩, ⟨['四', '天', '王', '巡', '行'], [], true, []⟩]),
   (['3', '-', '1', '6'], [⟨['准', '提', '菩', '萨', '诞'], ['犯', '者', '夺', '纪'], false, []⟩]),
   (['3', '-', '1', '9'], [⟨['中', '岳', '大', '帝', '诞'], [], false, []⟩, ⟨['后', '土', '娘', '娘', '诞'], [], false, []⟩, ⟨['三', '茅', '降'], [], false, []⟩]),
   (['3', '-', '2', '0'], [⟨['天', '地', '仓', '开', '日'], ['犯', '者', '损', '寿'], false, []⟩, ⟨['子', '孙', '娘', '娘', '诞'], [], false, []⟩]),
   (['3', '-', '2', '3'], [⟨['四', '天', '王', '巡', '行'], [], true, []⟩]),
   (['3', '-', '2', '5'], [⟨['月', '晦'], ['犯', '者', '减', '寿'], true, []⟩]),
   (['3', '-', '2', '7'], [⟨['七', '殿', '泰', '山', '王', '诞'], [], false, []⟩, ⟨['斗', '降'], ['犯', '者', '夺', '纪'], true, []⟩]),
   (['3', '-', '2', '8'], [⟨['人', '神', '在', '阴'], ['犯', '者', '得', '病'], true, ['宜', '先', '一', '日', '即', '戒']⟩, ⟨['苍', '颉', '至', '圣', '先', '师', '诞'], ['犯', '者', '削', '禄', '夺', '纪'], false, []⟩, ⟨['东', '岳', '大', '帝', '诞'], [], false, []⟩]),
   (['3', '-', '2', '9'], [⟨['四', '天', '王', '巡', '行'], [], true, []⟩]),
   (['3', '-', '3', '0'], [⟨['月', '晦'], ['犯', '者', '减', '寿'], true, ['如', '月', '小', '，', '即', '戒', '廿', '九']⟩, ⟨['司', '命', '奏', '事'], ['犯', '者', '减', '寿'], true, ['如', '月', '小', '，', '即', '戒', '廿', '九']⟩, ⟨['四', '天', '王', '巡', '行'], [], true, []⟩]),
   (['4', '-', '1'], [⟨['八', '殿', '都', '市', '王', '诞'], ['犯', '者', '夺', '纪'], false, []⟩, ⟨['月', '朔'], ['犯', '者', '夺', '纪'], true, []⟩]),
   (['4', '-', '3'], [⟨['斗', '降'], ['犯', '者', '夺', '纪'], true, []⟩]),
   (['4', '-', '4'], [⟨['万', '神', '善', '会'], ['犯', '者', '失', '瘼', '夭', '胎'], false, []⟩, ⟨['文', '殊', '菩', '萨', '诞'], [], false, []⟩]),
   (['4', '-', '6'], [⟨['雷', '斋', '日'], ['犯', '者', '减', '寿'], true, []⟩]),
   (['4', '-', '7'], [⟨['南', '斗', '、', '北', '斗', '、', '西', '斗', '同', '降'], ['犯', '者', '减', '寿'], false, []⟩, ⟨['杨', '公', '忌'], [], false, []⟩]),
   (['4', '-', '8'], [⟨['释', '迦', '牟', '尼', '佛', '诞'], ['犯', '者', '夺', '纪'], false, []⟩, ⟨['万', '神', '善', '会'], ['犯', '者', '失', '瘼', '夭', '胎'], false, []⟩, ⟨['善', '恶', '童', '子', '降'], ['犯', '者', '血', '死'], false, []⟩, ⟨['九', '殿', '平', '等', '王', '诞'], [], false, []⟩, ⟨['四', '天', '王', '巡', '行'], [], true, []⟩]),
   (['4', '-', '1', '4'], [⟨['纯', '阳', '祖', '师', '诞'], ['犯', '者', '减', '寿'], false, []⟩, ⟨['四', '天', '王', '巡', '行'], [], true, []⟩]),
   (['4', '-', '1', '5'], [⟨['月', '望'], ['犯', '者', '夺', '纪'], true, []⟩, ⟨['钟', '离', '祖', '师', '诞'], [], false, []⟩, ⟨['四', '天', '王', '巡', '行'], [], true, []⟩]),
   (['4', '-', '1', '6'], [⟨['天', '地', '仓', '开', '日'], ['犯', '者', '损', '寿'], false, []⟩]),
   (['4', '-', '1', '7'], [⟨['十', '殿', '转', '轮', '王', '诞'], ['犯', '者', '夺', '纪'], false, []⟩]),
   (['4', '-', '1', '8'], [⟨['天', '地', '仓', '开', '日'], ['犯', '者', '损', '寿'], false, []⟩, ⟨['紫', '徽', '大', '帝', '诞'], ['犯', '者', '损', '寿'], false, []⟩]),
   (['4', '-', '2', '0'], [⟨['眼', '光', '圣', '母', '诞'], [], false, []⟩]),
   (['4', '-', '2', '3'], [⟨['四', '天', '王', '巡', '行'], [], true, []⟩]),
   (['4', '-', '2', '5'], [⟨['月', '晦'], ['犯', '者', '减', '寿'], true, []⟩]),
   (['4', '-', '2', '7'], [⟨['斗', '降'], ['犯', '者', '夺', '纪'], true, []⟩]),
   (['4', '-', '2', '8'], [⟨['人', '神', '在', '阴'], ['犯', '者', '得', '病'], true, ['宜', '先', '一', '日', '即', '戒']⟩]),
   (['4', '-', '2', '9'], [⟨['四', '天', '王', '巡', '行'], [], true, []⟩]),
   (['4', '-', '3', '0'], [⟨['月', '晦'], ['犯', '者', '减', '寿'], true, ['如', '月', '小', '，', '即', '戒', '廿', '九']⟩, ⟨['司', '命', '奏', '事'], ['犯', '者', '减', '寿'], true, ['如', '月', '小', '，', '即', '戒', '廿', '九']⟩, ⟨['四', '天', '王', '巡', '行'], [], true, []⟩]),
   (['5', '-', '1'], [⟨['南', '极', '长', '生', '大', '帝', '诞'], ['犯', '者', '夺', '纪'], false, []⟩, ⟨['月', '朔'], ['犯', '者', '夺', '纪'], true, []⟩]),
   (['5', '-', '3'], [⟨['斗', '降'], ['犯', '者', '夺', '纪'], true, []⟩]),
   (['5', '-', '5'], [⟨['地', '腊'], ['犯', '者', '削', '禄', '夺', '纪'], false, []⟩, ⟨['五', '帝', '校', '定', '生', '人', '官', '爵'], ['犯', '者', '削', '禄', '夺', '纪'], false, []⟩, ⟨['九', '毒', '日'], ['犯', '者', '夭', '亡', '，', '奇', '祸', '不', '测'], false, []⟩, ⟨['杨', '公', '忌'], [], false, []⟩]),
   (['5', '-', '6'], [⟨['九', '毒', '日'], ['犯', '者', '夭', '亡', '，', '奇', '祸', '不', '测'], false, []⟩, ⟨['雷', '斋', '日'], ['犯', '者', '减', '寿'], true, []⟩]),
   (['5', '-', '7'], [⟨['九', '毒', '日'], ['犯', '者', '夭', '亡', '，', '奇', '祸', '不', '测'], false, []⟩]),
   (['5', '-', '8'], [⟨['南', '方', '五', '道', '诞'], [], false, []⟩, ⟨['四', '天', '王', '巡', '行'], [], true, []⟩]),
   (['5', '-', '1', '1'], [⟨['天', '地', '仓', '开', '日'], ['犯', '者', '损', '寿'], false, []⟩, ⟨['天', '下', '都', '城', '隍', '诞'], [], false, []⟩]),
   (['5', '-', '1', '2'], [⟨['炳', '灵', '公', '诞'], [], false, []⟩]),
   (['5', '-', '1', '3'], [⟨['关', '圣', '降'], ['犯', '者', '削', '禄', '夺', '纪'], false, []⟩]),
   (['5', '-', '1', '4'], [⟨['夜', '子', '时', '为', '天', '地', '交', '泰'], ['犯', '者', '三', '年', '内', '夫', '妇', '俱', '亡'], false, []⟩, ⟨['四', '天', '王', '巡', '行'], [], true, []⟩]),
   (['5', '-', '1', '5'], [⟨['月', '望'], ['犯', '者', '夺', '纪'], true, []⟩, ⟨['九', '毒', '日'], ['犯', '者', '夭', '亡', '，', '奇', '祸', '不', '测'], false, []⟩, ⟨['四', '天', '王', '巡', '行'], [], true, []⟩]),
   (['5', '-', '1', '6'], [⟨['九', '毒', '日'], ['犯', '者', '三', '年', '内', '夫', '妇', '俱', '亡'], false, []⟩, ⟨['天', '地', '元', '气', '造', '化', '万', '物', '之', '辰'], ['犯', '者', '三', '年', '内', '夫', '妇', '俱', '亡'], false, []⟩]),
   (['5', '-', '1', '7'], [⟨['九', '毒', '日'], ['犯', '者', '夭', '亡', '，', '奇', '祸', '不', '测'], false, []⟩]),
   (['5', '-', '1', '8'], [⟨['张', '天', '师', '诞'], [], false, []⟩]),
   (['5', '-', '2', '2'], [⟨['孝', '娥', '神', '诞'], ['犯', '者', '夺', '纪'], false, []⟩]),
   (['5', '-', '2', '3'], [⟨['四', '天', '王', '巡', '行'], [], true, []⟩]),
   (['5', '-', '2', '5'], [⟨['九', '毒', '日'], ['犯', '者', '夭', '亡', '，', '奇', '祸', '不', '测'], false, []⟩, ⟨['月', '晦'], ['犯', '者', '减', '寿'], true, []⟩]),
   (['5', '-', '2', '6'], [⟨['九', '毒', '日'], ['犯', '者', '夭', '亡', '，', '奇', '祸', '不', '测'], false, []⟩]),
   (['5', '-', '2', '7'], [⟨['九', '毒', '日'], ['犯', '者', '夭', '亡', '，', '奇', '祸', '不', '测'], false, []⟩, ⟨['斗', '降'], ['犯', '者', '夺', '纪'], true, []⟩]),
   (['5', '-', '2', '8'], [⟨['人', '神', '在', '阴'], ['犯', '者', '得', '病'], true, ['宜', '先', '一', '日', '即', '戒']⟩]),
   (['5', '-', '2', '9'], [⟨['四', '天', '王', '巡', '行'], [], true, []⟩]),
   (['5', '-', '3', '0'], [⟨['月', '晦'], ['犯', '者', '减', '寿'], true, ['如', '月', '小', '，', '即', '戒', '廿', '九']⟩, ⟨['司', '命', '奏', '事'], ['犯', '者', '减', '寿'], true, ['如', '月', '小', '，', '即', '戒', '廿', '九']⟩, ⟨['四', '天', '王', '巡', '行'], [], true, []⟩]),
   (['6', '-', '1'], [⟨['月', '朔'], ['犯', '者', '夺', '纪'], true, []⟩]),
   (['6', '-', '3'], [⟨['韦', '驮', '菩', '萨', '圣', '诞'], [], false, []⟩, ⟨['斗', '降'], ['犯', '者', '夺', '纪'], true, []⟩, ⟨['杨', '公', '忌'], [], false, []⟩]),
   (['6', '-', '5'], [⟨['南', '赡', '部', '洲', '转', '大', '轮'], ['犯', '者', '损', '寿'], false, []⟩]),
   (['6', '-', '6'], [⟨['天', '地', '仓', '开', '日'], ['犯', '者', '损', '寿'], false, []⟩, ⟨['雷', '斋', '日'], ['犯', '者', '减', '寿'], true, []⟩]),
   (['6', '-', '8'], [⟨['四', '天', '王', '巡', '行'], [], true, []⟩]),
   (['6', '-', '1', '0'], [⟨['金', '粟', '如', '来', '诞'], [], false, []⟩]),
   (['6', '-', '1', '4'], [⟨['四', '天', '王', '巡', '行'], [], true, []⟩]),
   (['6', '-', '1', '5'], [⟨['月', '望'], ['犯', '者', '夺', '纪'], true, []⟩, ⟨['四', '天', '王', '巡', '行'], [], true, []⟩]),
   (['6', '-', '1', '9'], [⟨['观', '世', '音', '菩', '萨', '成', '道'], ['犯', '者', '夺', '纪'], false, []⟩]),
   (['6', '-', '2', '3'], [⟨['南', '方', '火', '神', '诞'], ['犯', '者', '遭', '回', '禄'], false, []⟩, ⟨['四', '天', '王', '巡', '行'], [], true, []⟩]),
   (['6', '-', '2', '4'], [⟨['雷', '祖', '诞'], ['犯', '者', '削', '禄', '夺', '纪'], false, []⟩, ⟨['关', '帝', '诞'], ['犯', '者', '削', '禄', '夺', '纪'], false, []⟩]),
   (['6', '-', '2', '5'], [⟨['月', '晦'], ['犯', '者', '减', '寿'], true, []⟩]),
   (['6', '-', '2', '7'], [⟨['斗', '降'], ['犯', '者', '夺', '纪'], true, []⟩]),
   (['6', '-', '2', '8'], [⟨['人', '神', '在', '阴'], ['犯', '者', '得', '病'], true, ['宜', '先', '一', '日', '即', '戒']⟩]),
   (['6', '-', '2', '9'], [⟨['四', '天', '王', '巡', '行'], [], true, []⟩]),
   (['6', '-', '3', '0'], [⟨['月', '晦'], ['犯', '者', '减', '寿'], true, ['如', '月', '小', '，', '即', '戒', '廿', '九']⟩, ⟨['司', '命', '奏', '事'], ['犯', '者', '减', '寿'], true, ['如', '月', '小', '，', '即', '戒', '廿', '九']⟩, ⟨['四', '天', '王', '巡', '行'], [], true, []⟩]),
   (['7', '-', '1'], [⟨['月', '朔'], ['犯', '者', '夺', '纪'], true, []⟩, ⟨['杨', '公', '忌'], [], false, []⟩]),
   (['7', '-', '3'], [⟨['斗', '降'], ['犯', '者', '夺', '纪'], true, []⟩]),
   (['7', '-', '5'], [⟨['中', '会', '日'], ['犯', '者', '损', '寿'], false, ['一', '作', '初', '七']⟩]),
   (['7', '-', '6'], [⟨['雷', '斋', '日'], ['犯', '者', '减', '寿'], true, []⟩]),
   (['7', '-', '7'], [⟨['道', '德', '腊'], ['犯', '者', '削', '禄', '夺', '纪'], false, []⟩, ⟨['五', '帝', '校', '生', '人', '善', '恶'], ['犯', '者', '削', '禄', '夺', '纪'], false, []⟩, ⟨['魁', '星', '诞'], ['犯', '者', '削', '禄', '夺', '纪'], false, []⟩]),
   (['7', '-', '8'], [⟨['四', '天', '王', '巡', '行'], [], true, []⟩]),
   (['7', '-', '1', '0'], [⟨['阴', '毒', '日'], [], false, ['大', '忌']⟩]),
   (['7', '-', '1', '2'], [⟨['长', '真', '谭', '真', '人', '诞'], [], false, []⟩]),
   (['7', '-', '1', '3'], [⟨['大', '势', '至', '菩', '萨', '诞'], ['犯', '者', '减', '寿'], false, []⟩]),
   (['7', '-', '1', '4'], [⟨['三', '元', '降'], ['犯', '者', '减', '寿'], false, []⟩, ⟨['四', '天', '王', '巡', '行'], [], true, []⟩]),
   (['7', '-', '1', '5'], [⟨['月', '望'], ['犯', '者', '夺', '纪'], true, []⟩, ⟨['三', '元', '降'], ['犯', '者', '夺', '纪'], false, []⟩, ⟨['地', '官', '校', '籍'], ['犯', '者', '夺', '纪'], false, []⟩, ⟨['四', '天', '王', '巡', '行'], [], true, []⟩]),
   (['7', '-', '1', '6'], [⟨['三', '元', '降'], ['犯', '者', '减', '寿'], false, []⟩]),
   (['7', '-', '1', '8'], [⟨['西', '王', '母', '诞'], ['犯', '者', '夺', '纪'], false, []⟩]),
   (['7', '-', '1', '9'], [⟨['太', '岁', '诞'], ['犯', '者', '夺', '纪'], false, []⟩]),
   (['7', '-', '2', '2'], [⟨['增', '福', '财', '神', '诞'], ['犯', '者', '削', '禄', '夺', '纪'], false, []⟩]),
   (['7', '-', '2', '3'], [⟨['四', '天', '王', '巡', '行'], [], true, []⟩]),
   (['7', '-', '2', '5'], [⟨['月', '晦'], ['犯', '者', '减', '寿'], true, []⟩]),
   (['7', '-', '2', '7'], [⟨['斗', '降'], ['犯', '者', '夺', '纪'], true, []⟩]),
   (['7', '-', '2', '8'], [⟨['人', '神', '在', '阴'], ['犯', '者', '得', '病'], true, ['宜', '先', '一', '日', '即', '戒']⟩]),
   (['7', '-', '2', '9'], [⟨['杨', '公', '忌'], [], false, []⟩, ⟨['四', '天', '王', '巡', '行'], [], true, []⟩]),
   (['7', '-', '3', '0'], [⟨['地', '藏', '菩', '萨', '诞'], ['犯', '者', '夺', '纪'], false, []⟩, ⟨['月', '晦'], ['犯', '者', '减', '寿'], true, ['如', '月', '小', '，', '即', '戒', '廿', '九']⟩, ⟨['司', '命', '奏', '事'], ['犯', '者', '减', '寿'], true, ['如', '月', '小', '，', '即', '戒', '廿', '九']⟩, ⟨['四', '天', '王', '巡', '行'], [], true, []⟩]),
   (['8', '-', '1'], [⟨['月', '朔'], ['犯', '者', '夺', '纪'], true, []⟩, ⟨['许', '真', '君', '诞'], [], false, []⟩]),
   (['8', '-', '3'], [⟨['斗', '降'], ['犯', '者', '夺', '纪'], true, []⟩, ⟨['北', '斗', '诞'], ['犯', '者', '削', '禄', '夺', '纪'], false, []⟩, ⟨['司', '命', '灶', '君', '诞'], ['犯', '者', '遭', '回', '禄'], false, []⟩]),
   (['8', '-', '5'], [⟨['雷', '声', '大', '帝', '诞'], ['犯', '者', '夺', '纪'], false, []⟩]),
   (['8', '-', '6'], [⟨['雷', '斋', '日'], ['犯', '者', '减', '寿'], true, []⟩]),
   (['8', '-', '8'], [⟨['四', '天', '王', '巡', '行'], [], true, []⟩]),
   (['8', '-', '1', '0'], [⟨['北', '斗', '大', '帝', '诞'], [], false, []⟩]),
   (['8', '-', '1', '2'], [⟨['西', '方', '五', '道', '诞'], [], false, []⟩]),
   (['8', '-', '1', '4'], [⟨['四', '天', '王', '巡', '行'], [], true, []⟩]),
   (['8', '-', '1', '5'], [⟨['月', '望'], ['犯', '者', '夺', '纪'], true, []⟩, ⟨['太', '明', '朝', '元'], ['犯', '者', '暴', '亡'], false, ['宜', '焚', '香', '守', '夜']⟩, ⟨['四', '天', '王', '巡', '行'], [], true, []⟩]),
   (['8', '-', '1', '6'], [⟨['天', '曹', '掠', '刷', '真', '君', '降'], ['犯', '者', '贫', '夭'], false, []⟩]),
   (['8', '-', '1', '8'], [⟨['天', '人', '兴', '福', '之', '辰'], [], false, ['宜', '斋', '戒', '，', '存', '想', '吉', '事']⟩]),
   (['8', '-', '2', '3'], [⟨['汉', '恒', '候', '张', '显', '王', '诞'], [], false, []⟩, ⟨['四', '天', '王', '巡', '行'], [], true, []⟩]),
   (['8', '-', '2', '4'], [⟨['灶', '君', '夫', '人', '诞'], [], false, []⟩]),
   (['8', '-', '2', '5'], [⟨['月', '晦'], ['犯', '者', '减', '寿'], true, []⟩]),
   (['8', '-', '2', '7'], [⟨['斗', '降'], ['犯', '者', '夺', '纪'], true, []⟩, ⟨['至', '圣', '先', '师', '孔', '子', '诞'], ['犯', '者', '削', '禄', '夺', '纪'], false, []⟩, ⟨['杨', '公', '忌'], [], false, []⟩]),
   (['8', '-', '2', '8'], [⟨['人', '神', '在', '阴'], ['犯', '者', '得', '病'], true, ['宜', '先', '一', '日', '即', '戒']⟩, ⟨['四', '天', '会', '事'], [], false, []⟩]),
   (['8', '-', '2', '9'], [⟨['四', '天', '王', '巡', '行'], [], true, []⟩]),
   (['8', '-', '3', '0'], [⟨['诸', '神', '考', '校'], ['犯', '者', '夺', '算'], false, []⟩, ⟨['月', '晦'], ['犯', '者', '减', '寿'], true, ['如', '月', '小', '，', '即', '戒', '廿', '九']⟩, ⟨['司', '命', '奏', '事'], ['犯', '者', '减', '寿'], true, ['如', '月', '小', '，', '即', '戒', '廿', '九']⟩, ⟨['四', '天', '王', '巡', '行'], [], true, []⟩]),
   (['9', '-', '1'], [⟨['月', '朔'], ['犯', '者', '夺', '纪'], true, []⟩, ⟨['南', '斗', '诞'], ['犯', '者', '削', '禄', '夺', '纪'], false, []⟩, ⟨['北', '斗', '九', '星', '降', '世'], ['犯', '者', '夺', '纪'], false, ['此', '九', '日', '俱', '宜', '斋', '戒']⟩]),
   (['9', '-', '3'], [⟨['斗', '降'], ['犯', '者', '夺', '纪'], true, []⟩, ⟨['五', '瘟', '神', '诞'], [], false, []⟩]),
   (['9', '-', '6'], [⟨['雷', '斋', '日'], ['犯', '者', '减', '寿'], true, []⟩]),
   (['9', '-', '8'], [⟨['四', '天', '王', '巡', '行'], [], true, []⟩]),
   (['9', '-', '9'], [⟨['斗', '母', '诞'], ['犯', '者', '削', '禄', '夺', '纪'], false, []⟩, ⟨['酆', '都', '大', '帝', '诞'], [], false, []⟩, ⟨['玄', '天', '上', '帝', '飞', '升'], [], false, []⟩]),
   (['9', '-', '1', '0'], [⟨['斗', '母', '降'], ['犯', '者', '夺', '纪'], false, []⟩]),
   (['9', '-', '1', '1'], [⟨['宜', '戒'], [], false, []⟩]),
   (['9', '-', '1', '3'], [⟨['孟', '婆', '尊', '神', '诞'], [], false, []⟩]),
   (['9', '-', '1', '4'], [⟨['四', '天', '王', '巡', '行'], [], true, []⟩]),
   (['9', '-', '1', '5'], [⟨['月', '望'], ['犯', '者', '夺', '纪'], true, []⟩, ⟨['四', '天', '王', '巡', '行'], [], true, []⟩]),
   (['9', '-', '1', '7'], [⟨['金', '龙', '四', '大', '王', '诞'], ['犯', '者', '遭', '水', '厄'], false, []⟩]),
   (['9', '-', '1', '9'], [⟨['日', '宫', '月', '宫', '会', '合'], ['犯', '者', '减', '寿'], false, []⟩, ⟨['观', '世', '音', '菩', '萨', '诞'], ['犯', '者', '减', '寿'], false, []⟩]),
   (['9', '-', '2', '3'], [⟨['四', '天', '王', '巡', '行'], [], true, []⟩]),
   (['9', '-', '2', '5'], [⟨['月', '晦'], ['犯', '者', '减', '寿'], true, []⟩, ⟨['杨', '公', '忌'], [], false, []⟩]),
   (['9', '-', '2', '7'], [⟨['斗', '降'], ['犯', '者', '夺', '纪'], true, []⟩]),
   (['9', '-', '2', '8'], [⟨['人', '神', '在', '阴'], ['犯', '者', '得', '病'], true, ['宜', '先', '一', '日', '即', '戒']⟩]),
   (['9', '-', '2', '9'], [⟨['四', '天', '王', '巡', '行'], [], true, []⟩]),
   (['9', '-', '3', '0'], [⟨['药', '师', '琉', '璃', '光', '佛', '诞'], ['犯', '者', '危', '疾'], false, []⟩, ⟨['月', '晦'], ['犯', '者', '减', '寿'], true, ['如', '月', '小', '，', '即', '戒', '廿', '九']⟩, ⟨['司', '命', '奏', '事'], ['犯', '者', '减', '寿'], true, ['如', '月', '小', '，', '即', '戒', '廿', '九']⟩, ⟨['四', '天', '王', '巡', '行'], [], true, []⟩]),
   (['1', '0', '-', '1'], [⟨['月', '朔'], ['犯', '者', '夺', '纪'], true, []⟩, ⟨['民', '岁', '腊'], ['犯', '者', '夺', '纪'], false, []⟩, ⟨['四', '天', '王', '降'], ['犯', '者', '一', '年', '内', '死'], false, []⟩]),
   (['1', '0', '-', '3'], [⟨['斗', '降'], ['犯', '者', '夺', '纪'], true, []⟩, ⟨['三', '茅', '诞'], [], false, []⟩]),
   (['1', '0', '-', '5'], [⟨['下', '会', '日'], ['犯', '者', '减', '寿'], false, []⟩, ⟨['达', '摩', '祖', '师', '诞'], ['犯', '者', '减', '寿'], false, []⟩]),
   (['1', '0', '-', '6'], [⟨['雷', '斋', '日'], ['犯', '者', '减', '寿'], true, []⟩, ⟨['天', '曹', '考', '察'], ['犯', '者', '夺', '纪'], false, []⟩]),
   (['1', '0', '-', '8'], [⟨['佛', '涅', '槃', '日'], [], false, ['大', '忌', '色', '欲']⟩, ⟨['四', '天', '王', '巡', '行'], [], true, []⟩]),
   (['1', '0', '-', '1', '0'], [⟨['四', '天', '王', '降'], ['犯', '者', '一', '年', '内', '死'], false, []⟩]),
   (['1', '0', '-', '1', '1'], [⟨['宜', '戒'], [], false, []⟩]),
   (['1', '0', '-', '1', '4'], [⟨['三', '元', '降'], ['犯', '者', '减', '寿'], false, []⟩, ⟨['四', '天', '王', '巡', '行'], [], true, []⟩]),
   (['1', '0', '-', '1', '5'], [⟨['月', '望'], ['犯', '者', '夺', '纪'], true, []⟩, ⟨['三', '元', '降'], ['犯', '者', '夺', '纪'], false, []⟩, ⟨['下', '元', '水', '府', '校', '籍'], ['犯', '者', '夺', '纪'], false, []⟩, ⟨['四', '天', '王', '巡', '行'], [], true, []⟩]),
   (['1', '0', '-', '1', '6'], [⟨['三', '元', '降'], ['犯', '者', '减', '寿'], false, []⟩, ⟨['四', '天', '王', '巡', '行'], [], true, []⟩]),
   (['1', '0', '-', '2', '3'], [⟨['杨', '公', '忌'], [], false, []⟩, ⟨['四', '天', '王', '巡', '行'], [], true, []⟩]),
   (['1', '0', '-', '2', '5'], [⟨['月', '晦'], ['犯', '者', '减', '寿'], true, []⟩]),
   (['1', '0', '-', '2', '7'], [⟨['斗', '降'], ['犯', '者', '夺', '纪'], true, []⟩, ⟨['北', '极', '紫', '徽', '大', '帝', '降'], [], false, []⟩]),
   (['1', '0', '-', '2', '8'], [⟨['人', '神', '在', '阴'], ['犯', '者', '得', '病'], true, ['宜', '先', '一', '日', '即', '戒']⟩]),
   (['1', '0', '-', '2', '9'], [⟨['四', '天', '王', '巡', '行'], [], true, []⟩]),
   (['1', '0', '-', '3', '0'], [⟨['月', '晦'], ['犯', '者', '减', '寿'], true, ['如', '月', '小', '，', '即', '戒', '廿', '九']⟩, ⟨['司', '命', '奏', '事'], ['犯', '者', '减', '寿'], true, ['如', '月', '小', '，', '即', '戒', '廿', '九']⟩, ⟨['四', '天', '王', '巡', '行'], [], true, []⟩]),
   (['1', '1', '-', '1'], [⟨['月', '朔'], ['犯', '者', '夺', '纪'], true, []⟩]),
   (['1', '1', '-', '3'], [⟨['斗', '降'], ['犯', '者', '夺', '纪'], true, []⟩]),
   (['1', '1', '-', '4'], [⟨['至', '圣', '先', '师', '孔', '子', '诞'], ['犯', '者', '削', '禄', '夺', '纪'], false, []⟩]),
   (['1', '1', '-', '6'], [⟨['西', '岳', '大', '帝', '诞'], [], false, []⟩]),
   (['1', '1', '-', '8'], [⟨['四', '天', '王', '巡', '行'], [], true, []⟩]),
   (['1', '1', '-', '1', '1'], [⟨['天', '地', '仓', '开', '日'], ['犯', '者', '夺', '纪'], false, []⟩, ⟨['太', '乙', '救', '苦', '天', '尊', '诞'], ['犯', '者', '夺', '纪'], false, []⟩]),
   (['1', '1', '-', '1', '4'], [⟨['四', '天', '王', '巡', '行'], [], true, []⟩]),
   (['1', '1', '-', '1', '5'], [⟨['月', '望'], ['上', '半', '夜', '犯', '男', '死', ' ', '下', '半', '夜', '犯', '女', '死'], false, []⟩, ⟨['四', '天', '王', '巡', '行'], ['上', '半', '夜', '犯', '男', '死', ' ', '下', '半', '夜', '犯', '女', '死'], false, []⟩]),
   (['1', '1', '-', '1', '7'], [⟨['阿', '弥', '陀', '佛', '诞'], [], false, []⟩]),
   (['1', '1', '-', '1', '9'], [⟨['太', '阳', '日', '宫', '诞'], ['犯', '者', '得', '奇', '祸'], false, []⟩]),
   (['1', '1', '-', '2', '1'], [⟨['杨', '公', '忌'], [], false, []⟩]),
   (['1', '1', '-', '2', '3'], [⟨['张', '仙', '诞'], ['犯', '者', '绝', '嗣'], false, []⟩, ⟨['四', '天', '王', '巡', '行'], [], true, []⟩]),
   (['1', '1', '-', '2', '5'], [⟨['掠', '刷', '大', '夫', '降'], ['犯', '者', '遭', '大', '凶'], false, []⟩, ⟨['月', '晦'], ['犯', '者', '减', '寿'], true, []⟩]),
   (['1', '1', '-', '2', '6'], [⟨['北', '方', '五', '道', '诞'], [], false, []⟩]),
   (['1', '1', '-', '2', '7'], [⟨['斗', '降'], ['犯', '者', '夺', '纪'], true, []⟩]),
   (['1', '1', '-', '2', '8'], [⟨['人', '神', '在', '阴'], ['犯', '者', '得', '病'], true, ['宜', '先', '一', '日', '即', '戒']⟩]),
   (['1', '1', '-', '2', '9'], [⟨['四', '天', '王', '巡', '行'], [], true, []⟩]),
   (['1', '1', '-', '3', '0'], [⟨['月', '晦'], ['犯', '者', '减', '寿'], true, ['如', '月', '小', '，', '即', '戒', '廿', '九']⟩, ⟨['司', '命', '奏', '事'], ['犯', '者', '减', '寿'], true, ['如', '月', '小', '，', '即', '戒', '廿', '九']⟩, ⟨['四', '天', '王', '巡', '行'], [], true, []⟩]),
   (['1', '2', '-', '1'], [⟨['月', '朔'], ['犯', '者', '夺', '纪'], true, []⟩]),
   (['1', '2', '-', '3'], [⟨['斗', '降'], ['犯', '者', '夺', '纪'], true, []⟩]),
   (['1', '2', '-', '6'], [⟨['天', '地', '仓', '开', '日'], ['犯', '者', '减', '寿'], false, []⟩, ⟨['雷', '斋', '日'], ['犯', '者', '减', '寿'], true, []⟩]),
   (['1', '2', '-', '7'], [⟨['掠', '刷', '大', '夫', '降'], ['犯', '者', '得', '恶', '疾'], false, []⟩]),
   (['1', '2', '-', '8'], [⟨['王', '侯', '腊'], ['犯', '者', '夺', '纪'], false, []⟩, ⟨['释', '迦', '如', '来', '成', '佛', '之', '辰'], [], false, []⟩, ⟨['四', '天', '王', '巡', '行'], [], true, []⟩, ⟨['初', '旬', '内', '戊', '日', '，', '亦', '名', '王', '侯', '腊'], ['犯', '者', '夺', '纪'], false, []⟩]),
   (['1', '2', '-', '1', '2'], [⟨['太', '素', '三', '元', '君', '朝', '真'], [], false, []⟩]),
   (['1', '2', '-', '1', '4'], [⟨['四', '天', '王', '巡', '行'], [], true, []⟩]),
   (['1', '2', '-', '1', '5'], [⟨['月', '望'], ['犯', '者', '夺', '纪'], true, []⟩, ⟨['四', '天', '王', '巡', '行'], [], true, []⟩]),
   (['1', '2', '-', '1', '6'], [⟨['南', '岳', '大', '帝', '诞'], [], false, []⟩]),
   (['1', '2', '-', '1', '9'], [⟨['杨', '公', '忌'], [], false, []⟩]),
   (['1', '2', '-', '2', '0'], [⟨['天', '地', '交', '道'], ['犯', '者', '促', '寿'], false, []⟩]),
   (['1', '2', '-', '2', '1'], [⟨['天', '猷', '上', '帝', '诞'], [], false, []⟩]),
   (['1', '2', '-', '2', '3'], [⟨['五', '岳', '诞', '降'], [], false, []⟩, ⟨['四', '天', '王', '巡', '行'], [], true, []⟩]),
   (['1', '2', '-', '2', '4'], [⟨['司', '今', '朝', '天', '奏', '人', '善', '恶'], ['犯', '者', '得', '大', '祸'], false, []⟩]),
   (['1', '2', '-', '2', '5'], [⟨['三', '清', '玉', '帝', '同', '降', '，', '考', '察', '善', '恶'], ['犯', '者', '得', '奇', '祸'], false, []⟩, ⟨['月', '晦'], ['犯', '者', '减', '寿'], true, []⟩]),
   (['1', '2', '-', '2', '7'], [⟨['斗', '降'], ['犯', '者', '夺', '纪'], true, []⟩]),
   (['1', '2', '-', '2', '8'], [⟨['人', '神', '在', '阴'], ['犯', '者', '得', '病'], true, ['宜', '先', '一', '日', '即', '戒']⟩]),
   (['1', '2', '-', '2', '9'], [⟨['华', '严', '菩', '萨', '诞'], [], false, []⟩, ⟨['四', '天', '王', '巡', '行'], [], true, []⟩]),
   (['1', '2', '-', '3', '0'], [⟨['诸', '神', '下', '降', '，', '察', '访', '善', '恶'], ['犯', '者', '男', '女', '俱', '亡'], false, []⟩])]

end FotoUtil
