import Verif.Model.Festival

/-! # Tables of `util/TaoUtil.py`

Generated by `tools/tables.py` from the text of the repository (constants used in an entry are written out).  -/

namespace TaoUtil

/-- `lunar_python/util/TaoUtil.py` 11 `SAN_HUI` -/
def SAN_HUI : List PyStr :=
  [['1', '-', '7'], ['7', '-', '7'], ['1', '0', '-', '1', '5']]

/-- `lunar_python/util/TaoUtil.py` 14 `SAN_YUAN` -/
def SAN_YUAN : List PyStr :=
  [['1', '-', '1', '5'], ['7', '-', '1', '5'], ['1', '0', '-', '1', '5']]

/-- `lunar_python/util/TaoUtil.py` 17 `WU_LA` -/
def WU_LA : List PyStr :=
  [['1', '-', '1'], ['5', '-', '5'], ['7', '-', '7'], ['1', '0', '-', '1'],
   ['1', '2', '-', '8']]

/-- `lunar_python/util/TaoUtil.py` 20 `AN_WU` -/
def AN_WU : List PyStr :=
  [['未'], ['戌'], ['辰'], ['寅'], ['午'], ['子'], ['酉'], ['申'], ['巳'], ['亥'], ['卯'], ['丑']]

/-- `lunar_python/util/TaoUtil.py` 23-32 `BA_HUI` -/
def BA_HUI : List (PyStr × PyStr) :=
  [(['丙', '午'], ['天', '会']), (['壬', '午'], ['地', '会']), (['壬', '子'], ['人', '会']),
   (['庚', '午'], ['日', '会']), (['庚', '申'], ['月', '会']), (['辛', '酉'], ['星', '辰', '会']),
   (['甲', '辰'], ['五', '行', '会']), (['甲', '戌'], ['四', '时', '会'])]

/-- `lunar_python/util/TaoUtil.py` 35-44 `BA_JIE` -/
def BA_JIE : List (PyStr × PyStr) :=
  [(['立', '春'], ['东', '北', '方', '度', '仙', '上', '圣', '天', '尊', '同', '梵', '炁', '始', '青', '天', '君', '下', '降']),
   (['春', '分'], ['东', '方', '玉', '宝', '星', '上', '天', '尊', '同', '青', '帝', '九', '炁', '天', '君', '下', '降']),
   (['立', '夏'], ['东', '南', '方', '好', '生', '度', '命', '天', '尊', '同', '梵', '炁', '始', '丹', '天', '君', '下', '降']),
   (['夏', '至'], ['南', '方', '玄', '真', '万', '福', '天', '尊', '同', '赤', '帝', '三', '炁', '天', '君', '下', '降']),
   (['立', '秋'], ['西', '南', '方', '太', '灵', '虚', '皇', '天', '尊', '同', '梵', '炁', '始', '素', '天', '君', '下', '降']),
   (['秋', '分'], ['西', '方', '太', '妙', '至', '极', '天', '尊', '同', '白', '帝', '七', '炁', '天', '君', '下', '降']),
   (['立', '冬'], ['西', '北', '方', '无', '量', '太', '华', '天', '尊', '同', '梵', '炁', '始', '玄', '天', '君', '下', '降']),
   (['冬', '至'], ['北', '方', '玄', '上', '玉', '宸', '天', '尊', '同', '黑', '帝', '五', '炁', '天', '君', '下', '降'])]

/-- `lunar_python/util/TaoUtil.py` 47-144 `FESTIVAL` -/
def FESTIVAL : List (PyStr × List TaoFestival) :=
  [(['1', '-', '1'], [⟨['天', '腊', '之', '辰'], ['天', '腊', '，', '此', '日', '五', '帝', '会', '于', '东', '方', '九', '炁', '青', '天']⟩]),
   (['1', '-', '3'], [⟨['郝', '真', '人', '圣', '诞'], []⟩, ⟨['孙', '真', '人', '圣', '诞'], []⟩]),
   (['1', '-', '5'], [⟨['孙', '祖', '清', '静', '元', '君', '诞'], []⟩]),
   (['1', '-', '7'], [⟨['举', '迁', '赏', '会'], ['此', '日', '上', '元', '赐', '福', '，', '天', '官', '同', '地', '水', '二', '官', '考', '校', '罪', '福']⟩]),
   (['1', '-', '9'], [⟨['玉', '皇', '上', '帝', '圣', '诞'], []⟩]),
   (['1', '-', '1', '3'], [⟨['关', '圣', '帝', '君', '飞', '升'], []⟩]),
   (['1', '-', '1', '5'], [⟨['上', '元', '天', '官', '圣', '诞'], []⟩, ⟨['老', '祖', '天', '师', '圣', '诞'], []⟩]),
   (['1', '-', '1', '9'], [⟨['长', '春', '邱', '真', '人', '(', '邱', '处', '机', ')', '圣', '诞'], []⟩]),
   (['1', '-', '2', '8'], [⟨['许', '真', '君', '(', '许', '逊', '天', '师', ')', '圣', '诞'], []⟩]),
   (['2', '-', '1'], [⟨['勾', '陈', '天', '皇', '大', '帝', '圣', '诞'], []⟩, ⟨['长', '春', '刘', '真', '人', '(', '刘', '渊', '然', ')', '圣', '诞'], []⟩]),
   (['2', '-', '2'], [⟨['土', '地', '正', '神', '诞'], []⟩, ⟨['姜', '太', '公', '圣', '诞'], []⟩]),
   (['2', '-', '3'], [⟨['文', '昌', '梓', '潼', '帝', '君', '圣', '诞'], []⟩]),
   (['2', '-', '6'], [⟨['东', '华', '帝', '君', '圣', '诞'], []⟩]),
   (['2', '-', '1', '3'], [⟨['度', '人', '无', '量', '葛', '真', '君', '圣', '诞'], []⟩]),
   (['2', '-', '1', '5'], [⟨['太', '清', '道', '德', '天', '尊', '(', '太', '上', '老', '君', ')', '圣', '诞'], []⟩]),
   (['2', '-', '1', '9'], [⟨['慈', '航', '真', '人', '圣', '诞'], []⟩]),
   (['3', '-', '1'], [⟨['谭', '祖', '(', '谭', '处', '端', ')', '长', '真', '真', '人', '圣', '诞'], []⟩]),
   (['3', '-', '3'], [⟨['玄', '天', '上', '帝', '圣', '诞'], []⟩]),
   (['3', '-', '6'], [⟨['眼', '光', '娘', '娘', '圣', '诞'], []⟩]),
   (['3', '-', '1', '5'], [⟨['天', '师', '张', '大', '真', '人', '圣', '诞'], []⟩, ⟨['财', '神', '赵', '公', '元', '帅', '圣', '诞'], []⟩]),
   (['3', '-', '1', '6'], [⟨['三', '茅', '真', '君', '得', '道', '之', '辰'], []⟩, ⟨['中', '岳', '大', '帝', '圣', '诞'], []⟩]),
   (['3', '-', '1', '8'], [⟨['王', '祖', '(', '王', '处', '一', ')', '玉', '阳', '真', '人', '圣', '诞'], []⟩, ⟨['后', '土', '娘', '娘', '圣', '诞'], []⟩]),
   (['3', '-', '1', '9'], [⟨['太', '阳', '星', '君', '圣', '诞'], []⟩]),
   (['3', '-', '2', '0'], [⟨['子', '孙', '娘', '娘', '圣', '诞'], []⟩]),
   (['3', '-', '2', '3'], [⟨['天', '后', '妈', '祖', '圣', '诞'], []⟩]),
   (['3', '-', '2', '6'], [⟨['鬼', '谷', '先', '师', '诞'], []⟩]),
   (['3', '-', '2', '8'], [⟨['东', '岳', '大', '帝', '圣', '诞'], []⟩]),
   (['4', '-', '1'], [⟨['长', '生', '谭', '真', '君', '成', '道', '之', '辰'], []⟩]),
   (['4', '-', '1', '0'], [⟨['何', '仙', '姑', '圣', '诞'], []⟩]),
   (['4', '-', '1', '4'], [⟨['吕', '祖', '纯', '阳', '祖', '师', '圣', '诞'], []⟩]),
   (['4', '-', '1', '5'], [⟨['钟', '离', '祖', '师', '圣', '诞'], []⟩]),
   (['4', '-', '1', '8'], [⟨['北', '极', '紫', '微', '大', '帝', '圣', '诞'], []⟩, ⟨['泰', '山', '圣', '母', '碧', '霞', '元', '君', '诞'], []⟩, ⟨['华', '佗', '神', '医', '先', '师', '诞'], []⟩]),
   (['4', '-', '2', '0'], [⟨['眼', '光', '圣', '母', '娘', '娘', '诞'], []⟩]),
   (['4', '-', '2', '8'], [⟨['神', '农', '先', '帝', '诞'], []⟩]),
   (['5', '-', '1'], [⟨['南', '极', '长', '生', '大', '帝', '圣', '诞'], []⟩]),
   (['5', '-', '5'], [⟨['地', '腊', '之', '辰'], ['地', '腊', '，', '此', '日', '五', '帝', '会', '于', '南', '方', '三', '炁', '丹', '天']⟩, ⟨['南', '方', '雷', '祖', '圣', '诞'], []⟩, ⟨['地', '祗', '温', '元', '帅', '圣', '诞'], []⟩, ⟨['雷', '霆', '邓', '天', '君', '圣', '诞'], []⟩]),
   (['5', '-', '1', '1'], [⟨['城', '隍', '爷', '圣', '诞'], []⟩]),
   (['5', '-', '1', '3'], [⟨['关', '圣', '帝', '君', '降', '神'], []⟩, ⟨['关', '平', '太', '子', '圣', '诞'], []⟩]),
   (['5', '-', '1', '8'], [⟨['张', '天', '师', '圣', '诞'], []⟩]),
   (['5', '-', '2', '0'], [⟨['马', '祖', '丹', '阳', '真', '人', '圣', '诞'], []⟩]),
   (['5', '-', '2', '9'], [⟨['紫', '青', '白', '祖', '师', '圣', '诞'], []⟩]),
   (['6', '-', '1'], [⟨['南', '斗', '星', '君', '下', '降'], []⟩]),
   (['6', '-', '2'], [⟨['南', '斗', '星', '君', '下', '降'], []⟩]),
   (['6', '-', '3'], [⟨['南', '斗', '星', '君', '下', '降'], []⟩]),
   (['6', '-', '4'], [⟨['南', '斗', '星', '君', '下', '降'], []⟩]),
   (['6', '-', '5'], [⟨['南', '斗', '星', '君', '下', '降'], []⟩]),
   (['6', '-', '6'], [⟨['南', '斗', '星', '君', '下', '降'], []⟩]),
   (['6', '-', '1', '0'], [⟨['刘', '海', '蟾', '祖', '师', '圣', '诞'], []⟩]),
   (['6', '-', '1', '5'], [⟨['灵', '官', '王', '天', '君', '圣', '诞'], []⟩]),
   (['6', '-', '1', '9'], [⟨['慈', '航', '(', '观', '音', ')', '成', '道', '日'], []⟩]),
   (['6', '-', '2', '3'], [⟨['火', '神', '圣', '诞'], []⟩]),
   (['6', '-', '2', '4'], [⟨['南', '极', '大', '帝', '中', '方', '雷', '祖', '圣', '诞'], []⟩, ⟨['关', '圣', '帝', '君', '圣', '诞'], []⟩]),
   (['6', '-', '2', '6'], [⟨['二', '郎', '真', '君', '圣', '诞'], []⟩]),
   (['7', '-', '7'], [⟨['道', '德', '腊', '之', '辰'], ['道', '德', '腊', '，', '此', '日', '五', '帝', '会', '于', '西', '方', '七', '炁', '素', '天']⟩, ⟨['庆', '生', '中', '会'], ['此', '日', '中', '元', '赦', '罪', '，', '地', '官', '同', '天', '水', '二', '官', '考', '校', '罪', '福']⟩]),
   (['7', '-', '1', '2'], [⟨['西', '方', '雷', '祖', '圣', '诞'], []⟩]),
   (['7', '-', '1', '5'], [⟨['中', '元', '地', '官', '大', '帝', '圣', '诞'], []⟩]),
   (['7', '-', '1', '8'], [⟨['王', '母', '娘', '娘', '圣', '诞'], []⟩]),
   (['7', '-', '2', '0'], [⟨['刘', '祖', '(', '刘', '处', '玄', ')', '长', '生', '真', '人', '圣', '诞'], []⟩]),
   (['7', '-', '2', '2'], [⟨['财', '帛', '星', '君', '文', '财', '神', '增', '福', '相', '公', '李', '诡', '祖', '圣', '诞'], []⟩]),
   (['7', '-', '2', '6'], [⟨['张', '三', '丰', '祖', '师', '圣', '诞'], []⟩]),
   (['8', '-', '1'], [⟨['许', '真', '君', '飞', '升', '日'], []⟩]),
   (['8', '-', '3'], [⟨['九', '天', '司', '命', '灶', '君', '诞'], []⟩]),
   (['8', '-', '5'], [⟨['北', '方', '雷', '祖', '圣', '诞'], []⟩]),
   (['8', '-', '1', '0'], [⟨['北', '岳', '大', '帝', '诞', '辰'], []⟩]),
   (['8', '-', '1', '5'], [⟨['太', '阴', '星', '君', '诞'], []⟩]),
   (['9', '-', '1'], [⟨['北', '斗', '九', '皇', '降', '世', '之', '辰'], []⟩]),
   (['9', '-', '2'], [⟨['北', '斗', '九', '皇', '降', '世', '之', '辰'], []⟩]),
   (['9', '-', '3'], [⟨['北', '斗', '九', '皇', '降', '世', '之', '辰'], []⟩]),
   (['9', '-', '4'], [⟨['北', '斗', '九', '皇', '降', '世', '之', '辰'], []⟩]),
   (['9', '-', '5'], [⟨['北', '斗', '九', '皇', '降', '世', '之', '辰'], []⟩]),
   (['9', '-', '6'], [⟨['北', '斗', '九', '皇', '降', '世', '之', '辰'], []⟩]),
   (['9', '-', '7'], [⟨['北', '斗', '九', '皇', '降', '世', '之', '辰'], []⟩]),
   (['9', '-', '8'], [⟨['北', '斗', '九', '皇', '降', '世', '之', '辰'], []⟩]),
   (['9', '-', '9'], [⟨['北', '斗', '九', '皇', '降', '世', '之', '辰'], []⟩, ⟨['斗', '姥', '元', '君', '圣', '诞'], []⟩, ⟨['重', '阳', '帝', '君', '圣', '诞'], []⟩, ⟨['玄', '天', '上', '帝', '飞', '升'], []⟩, ⟨['酆', '都', '大', '帝', '圣', '诞'], []⟩]),
   (['9', '-', '2', '2'], [⟨['增', '福', '财', '神', '诞'], []⟩]),
   (['9', '-', '2', '3'], [⟨['萨', '翁', '真', '君', '圣', '诞'], []⟩]),
   (['9', '-', '2', '8'], [⟨['五', '显', '灵', '官', '马', '元', '帅', '圣', '诞'], []⟩]),
   (['1', '0', '-', '1'], [⟨['民', '岁', '腊', '之', '辰'], ['民', '岁', '腊', '，', '此', '日', '五', '帝', '会', '于', '北', '方', '五', '炁', '黑', '天']⟩, ⟨['东', '皇', '大', '帝', '圣', '诞'], []⟩]),
   (['1', '0', '-', '3'], [⟨['三', '茅', '应', '化', '真', '君', '圣', '诞'], []⟩]),
   (['1', '0', '-', '6'], [⟨['天', '曹', '诸', '司', '五', '岳', '五', '帝', '圣', '诞'], []⟩]),
   (['1', '0', '-', '1', '5'], [⟨['下', '元', '水', '官', '大', '帝', '圣', '诞'], []⟩, ⟨['建', '生', '大', '会'], ['此', '日', '下', '元', '解', '厄', '，', '水', '官', '同', '天', '地', '二', '官', '考', '校', '罪', '福']⟩]),
   (['1', '0', '-', '1', '8'], [⟨['地', '母', '娘', '娘', '圣', '诞'], []⟩]),
   (['1', '0', '-', '1', '9'], [⟨['长', '春', '邱', '真', '君', '飞', '升'], []⟩]),
   (['1', '0', '-', '2', '0'], [⟨['虚', '靖', '天', '师', '(', '即', '三', '十', '代', '天', '师', '弘', '悟', '张', '真', '人', ')', '诞'], []⟩]),
   (['1', '1', '-', '6'], [⟨['西', '岳', '大', '帝', '圣', '诞'], []⟩]),
   (['1', '1', '-', '9'], [⟨['湘', '子', '韩', '祖', '圣', '诞'], []⟩]),
   (['1', '1', '-', '1', '1'], [⟨['太', '乙', '救', '苦', '天', '尊', '圣', '诞'], []⟩]),
   (['1', '1', '-', '2', '6'], [⟨['北', '方', '五', '道', '圣', '诞'], []⟩]),
   (['1', '2', '-', '8'], [⟨['王', '侯', '腊', '之', '辰'], ['王', '侯', '腊', '，', '此', '日', '五', '帝', '会', '于', '上', '方', '玄', '都', '玉', '京']⟩]),
   (['1', '2', '-', '1', '6'], [⟨['南', '岳', '大', '帝', '圣', '诞'], []⟩, ⟨['福', '德', '正', '神', '诞'], []⟩]),
   (['1', '2', '-', '2', '0'], [⟨['鲁', '班', '先', '师', '圣', '诞'], []⟩]),
   (['1', '2', '-', '2', '1'], [⟨['天', '猷', '上', '帝', '圣', '诞'], []⟩]),
   (['1', '2', '-', '2', '2'], [⟨['重', '阳', '祖', '师', '圣', '诞'], []⟩]),
   (['1', '2', '-', '2', '3'], [⟨['祭', '灶', '王'], ['最', '适', '宜', '谢', '旧', '年', '太', '岁', '，', '开', '启', '拜', '新', '年', '太', '岁']⟩]),
   (['1', '2', '-', '2', '5'], [⟨['玉', '帝', '巡', '天'], []⟩, ⟨['天', '神', '下', '降'], []⟩]),
   (['1', '2', '-', '2', '9'], [⟨['清', '静', '孙', '真', '君', '(', '孙', '不', '二', ')', '成', '道'], []⟩])]

end TaoUtil
