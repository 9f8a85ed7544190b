import Verif.Model.Py

/-! # Tables of the mansions and of the solar calendar

Generated by `tools/tables.py` from the text of the repository.  -/

namespace LunarUtil

/-- `lunar_python/util/LunarUtil.py` 282-311 `XIU_SONG` -/
def XIU_SONG : List (PyStr × PyStr) :=
  [(['角'], ['角', '星', '造', '作', '主', '荣', '昌', '，', '外', '进', '田', '财', '及', '女', '郎', '，', '嫁', '娶', '婚', '姻', '出', '贵', '子', '，', '文', '人', '及', '第', '见', '君', '王', '，', '惟', '有', '埋', '葬', '不', '可', '用', '，', '三', '年', '之', '后', '主', '瘟', '疫', '，', '起', '工', '修', '筑', '坟', '基', '地', '，', '堂', '前', '立', '见', '主', '人', '凶', '。']),
   (['亢'], ['亢', '星', '造', '作', '长', '房', '当', '，', '十', '日', '之', '中', '主', '有', '殃', '，', '田', '地', '消', '磨', '官', '失', '职', '，', '接', '运', '定', '是', '虎', '狼', '伤', '，', '嫁', '娶', '婚', '姻', '用', '此', '日', '，', '儿', '孙', '新', '妇', '守', '空', '房', '，', '埋', '葬', '若', '还', '用', '此', '日', '，', '当', '时', '害', '祸', '主', '重', '伤', '。']),
   (['氐'], ['氐', '星', '造', '作', '主', '灾', '凶', '，', '费', '尽', '田', '园', '仓', '库', '空', '，', '埋', '葬', '不', '可', '用', '此', '日', '，', '悬', '绳', '吊', '颈', '祸', '重', '重', '，', '若', '是', '婚', '姻', '离', '别', '散', '，', '夜', '招', '浪', '子', '入', '房', '中', '，', '行', '船', '必', '定', '遭', '沉', '没', '，', '更', '生', '聋', '哑', '子', '孙', '穷', '。']),
   (['房'], ['房', '星', '造', '作', '田', '园', '进', '，', '钱', '财', '牛', '马', '遍', '山', '岗', '，', '更', '招', '外', '处', '田', '庄', '宅', '，', '荣', '华', '富', '贵', '福', '禄', '康', '，', '埋', '葬', '若', '然', '用', '此', '日', '，', '高', '官', '进', '职', '拜', '君', '王', '，', '嫁', '娶', '嫦', '娥', '至', '月', '殿', '，', '三', '年', '抱', '子', '至', '朝', '堂', '。']),
   (['心'], ['心', '星', '造', '作', '大', '为', '凶', '，', '更', '遭', '刑', '讼', '狱', '囚', '中', '，', '忤', '逆', '官', '非', '宅', '产', '退', '，', '埋', '葬', '卒', '暴', '死', '相', '从', '，', '婚', '姻', '若', '是', '用', '此', '日', '，', '子', '死', '儿', '亡', '泪', '满', '胸', '，', '三', '年', '之', '内', '连', '遭', '祸', '，', '事', '事', '教', '君', '没', '始', '终', '。']),
   (['尾'], ['尾', '星', '造', '作', '主', '天', '恩', '，', '富', '贵', '荣', '华', '福', '禄', '增', '，', '招', '财', '进', '宝', '兴', '家', '宅', '，', '和', '合', '婚', '姻', '贵', '子', '孙', '，', '埋', '葬', '若', '能', '依', '此', '日', '，', '男', '清', '女', '正', '子', '孙', '兴', '，', '开', '门', '放', '水', '招', '田', '宅', '，', '代', '代', '公', '侯', '远', '播', '名', '。']),
   (['箕'], ['箕', '星', '造', '作', '主', '高', '强', '，', '岁', '岁', '年', '年', '大', '吉', '昌', '，', '埋', '葬', '修', '坟', '大', '吉', '利', '，', '田', '蚕', '牛', '马', '遍', '山', '岗', '，', '开', '门', '放', '水', '招', '田', '宅', '，', '箧', '满', '金', '银', '谷', '满', '仓', '，', '福', '荫', '高', '官', '加', '禄', '位', '，', '六', '亲', '丰', '禄', '乐', '安', '康', '。']),
   (['斗'], ['斗', '星', '造', '作', '主', '招', '财', '，', '文', '武', '官', '员', '位', '鼎', '台', '，', '田', '宅', '家', '财', '千', '万', '进', '，', '坟', '堂', '修', '筑', '贵', '富', '来', '，', '开', '门', '放', '水', '招', '牛', '马', '，', '旺', '蚕', '男', '女', '主', '和', '谐', '，', '遇', '此', '吉', '宿', '来', '照', '护', '，', '时', '支', '福', '庆', '永', '无', '灾', '。']),
   (['牛'], ['牛', '星', '造', '作', '主', '灾', '危', '，', '九', '横', '三', '灾', '不', '可', '推', '，', '家', '宅', '不', '安', '人', '口', '退', '，', '田', '蚕', '不', '利', '主', '人', '衰', '，', '嫁', '娶', '婚', '姻', '皆', '自', '损', '，', '金', '银', '财', '谷', '渐', '无', '之', '，', '若', '是', '开', '门', '并', '放', '水', '，', '牛', '猪', '羊', '马', '亦', '伤', '悲', '。']),
   (['女'], ['女', '星', '造', '作', '损', '婆', '娘', '，', '兄', '弟', '相', '嫌', '似', '虎', '狼', '，', '埋', '葬', '生', '灾', '逢', '鬼', '怪', '，', '颠', '邪', '疾', '病', '主', '瘟', '惶', '，', '为', '事', '遭', '官', '财', '失', '散', '，', '泻', '利', '留', '连', '不', '可', '当', '，', '开', '门', '放', '水', '用', '此', '日', '，', '全', '家', '财', '散', '主', '离', '乡', '。']),
   (['虚'], ['虚', '星', '造', '作', '主', '灾', '殃', '，', '男', '女', '孤', '眠', '不', '一', '双', '，', '内', '乱', '风', '声', '无', '礼', '节', '，', '儿', '孙', '媳', '妇', '伴', '人', '床', '，', '开', '门', '放', '水', '遭', '灾', '祸', '，', '虎', '咬', '蛇', '伤', '又', '卒', '亡', '，', '三', '三', '五', '五', '连', '年', '病', '，', '家', '破', '人', '亡', '不', '可', '当', '。']),
   (['危'], ['危', '星', '不', '可', '造', '高', '楼', '，', '自', '遭', '刑', '吊', '见', '血', '光', '，', '三', '年', '孩', '子', '遭', '水', '厄', '，', '后', '生', '出', '外', '永', '不', '还', '，', '埋', '葬', '若', '还', '逢', '此', '日', '，', '周', '年', '百', '日', '取', '高', '堂', '，', '三', '年', '两', '载', '一', '悲', '伤', '，', '开', '门', '放', '水', '到', '官', '堂', '。']),
   (['室'], ['室', '星', '修', '造', '进', '田', '牛', '，', '儿', '孙', '代', '代', '近', '王', '侯', '，', '家', '贵', '荣', '华', '天', '上', '至', '，', '寿', '如', '彭', '祖', '八', '千', '秋', '，', '开', '门', '放', '水', '招', '财', '帛', '，', '和', '合', '婚', '姻', '生', '贵', '儿', '，', '埋', '葬', '若', '能', '依', '此', '日', '，', '门', '庭', '兴', '旺', '福', '无', '休', '。']),
   (['壁'], ['壁', '星', '造', '作', '主', '增', '财', '，', '丝', '蚕', '大', '熟', '福', '滔', '天', '，', '奴', '婢', '自', '来', '人', '口', '进', '，', '开', '门', '放', '水', '出', '英', '贤', '，', '埋', '葬', '招', '财', '官', '品', '进', '，', '家', '中', '诸', '事', '乐', '陶', '然', '，', '婚', '姻', '吉', '利', '主', '贵', '子', '，', '早', '播', '名', '誉', '著', '祖', '鞭', '。']),
   (['奎'], ['奎', '星', '造', '作', '得', '祯', '祥', '，', '家', '内', '荣', '和', '大', '吉', '昌', '，', '若', '是', '埋', '葬', '阴', '卒', '死', '，', '当', '年', '定', '主', '两', '三', '伤', '，', '看', '看', '军', '令', '刑', '伤', '到', '，', '重', '重', '官', '事', '主', '瘟', '惶', '，', '开', '门', '放', '水', '遭', '灾', '祸', '，', '三', '年', '两', '次', '损', '儿', '郎', '。']),
   (['娄'], ['娄', '星', '修', '造', '起', '门', '庭', '，', '财', '旺', '家', '和', '事', '事', '兴', '，', '外', '进', '钱', '财', '百', '日', '进', '，', '一', '家', '兄', '弟', '播', '高', '名', '，', '婚', '姻', '进', '益', '生', '贵', '子', '，', '玉', '帛', '金', '银', '箱', '满', '盈', '，', '放', '水', '开', '门', '皆', '吉', '利', '，', '男', '荣', '女', '贵', '寿', '康', '宁', '。']),
   (['胃'], ['胃', '星', '造', '作', '事', '如', '何', '，', '家', '贵', '荣', '华', '喜', '气', '多', '，', '埋', '葬', '贵', '临', '官', '禄', '位', '，', '夫', '妇', '齐', '眉', '永', '保', '康', '，', '婚', '姻', '遇', '此', '家', '富', '贵', '，', '三', '灾', '九', '祸', '不', '逢', '他', '，', '从', '此', '门', '前', '多', '吉', '庆', '，', '儿', '孙', '代', '代', '拜', '金', '阶', '。']),
   (['昴'], ['昴', '星', '造', '作', '进', '田', '牛', '，', '埋', '葬', '官', '灾', '不', '得', '休', '，', '重', '丧', '二', '日', '三', '人', '死', '，', '尽', '卖', '田', '园', '不', '记', '增', '，', '开', '门', '放', '水', '招', '灾', '祸', '，', '三', '岁', '孩', '儿', '白', '了', '头', '，', '婚', '姻', '不', '可', '逢', '此', '日', '，', '死', '别', '生', '离', '是', '可', '愁', '。']),
   (['毕'], ['毕', '星', '造', '作', '主', '光', '前', '，', '买', '得', '田', '园', '有', '余', '钱', '，', '埋', '葬', '此', '日', '添', '官', '职', '，', '田', '蚕', '大', '熟', '永', '丰', '年', '，', '开', '门', '放', '水', '多', '吉', '庆', '，', '合', '家', '人', '口', '得', '安', '然', '，', '婚', '姻', '若', '得', '逢', '此', '日', '，', '生', '得', '孩', '儿', '福', '寿', '全', '。']),
   (['觜'], ['觜', '星', '造', '作', '有', '徒', '刑', '，', '三', '年', '必', '定', '主', '伶', '丁', '，', '埋', '葬', '卒', '死', '多', '因', '此', '，', '取', '定', '寅', '年', '使', '杀', '人', '，', '三', '丧', '不', '止', '皆', '由', '此', '，', '一', '人', '药', '毒', '二', '人', '身', '，', '家', '门', '田', '地', '皆', '退', '败', '，', '仓', '库', '金', '银', '化', '作', '尘', '。']),
   (['参'], ['参', '星', '造', '作', '旺', '人', '家', '，', '文', '星', '照', '耀', '大', '光', '华', '，', '只', '因', '造', '作', '田', '财', '旺', '，', '埋', '葬', '招', '疾', '哭', '黄', '沙', '，', '开', '门', '放', '水', '加', '官', '职', '，', '房', '房', '子', '孙', '见', '田', '加', '，', '婚', '姻', '许', '遁', '遭', '刑', '克', '，', '男', '女', '朝', '开', '幕', '落', '花', '。']),
   (['井'], ['井', '星', '造', '作', '旺', '蚕', '田', '，', '金', '榜', '题', '名', '第', '一', '光', '，', '埋', '葬', '须', '防', '惊', '卒', '死', '，', '狂', '颠', '风', '疾', '入', '黄', '泉', '，', '开', '门', '放', '水', '招', '财', '帛', '，', '牛', '马', '猪', '羊', '旺', '莫', '言', '，', '贵', '人', '田', '塘', '来', '入', '宅', '，', '儿', '孙', '兴', '旺', '有', '余', '钱', '。']),
   (['鬼'], ['鬼', '星', '起', '造', '卒', '人', '亡', '，', '堂', '前', '不', '见', '主', '人', '郎', '，', '埋', '葬', '此', '日', '官', '禄', '至', '，', '儿', '孙', '代', '代', '近', '君', '王', '，', '开', '门', '放', '水', '须', '伤', '死', '，', '嫁', '娶', '夫', '妻', '不', '久', '长', '，', '修', '土', '筑', '墙', '伤', '产', '女', '，', '手', '扶', '双', '女', '泪', '汪', '汪', '。']),
   (['柳'], ['柳', '星', '造', '作', '主', '遭', '官', '，', '昼', '夜', '偷', '闭', '不', '暂', '安', '，', '埋', '葬', '瘟', '惶', '多', '疾', '病', '，', '田', '园', '退', '尽', '守', '冬', '寒', '，', '开', '门', '放', '水', '遭', '聋', '瞎', '，', '腰', '驼', '背', '曲', '似', '弓', '弯', '，', '更', '有', '棒', '刑', '宜', '谨', '慎', '，', '妇', '人', '随', '客', '走', '盘', '桓', '。']),
   (['星'], ['星', '宿', '日', '好', '造', '新', '房', '，', '进', '职', '加', '官', '近', '帝', '王', '，', '不', '可', '埋', '葬', '并', '放', '水', '，', '凶', '星', '临', '位', '女', '人', '亡', '，', '生', '离', '死', '别', '无', '心', '恋', '，', '要', '自', '归', '休', '别', '嫁', '郎', '，', '孔', '子', '九', '曲', '殊', '难', '度', '，', '放', '水', '开', '门', '天', '命', '伤', '。']),
   (['张'], ['张', '星', '日', '好', '造', '龙', '轩', '，', '年', '年', '并', '见', '进', '庄', '田', '，', '埋', '葬', '不', '久', '升', '官', '职', '，', '代', '代', '为', '官', '近', '帝', '前', '，', '开', '门', '放', '水', '招', '财', '帛', '，', '婚', '姻', '和', '合', '福', '绵', '绵', '，', '田', '蚕', '人', '满', '仓', '库', '满', '，', '百', '般', '顺', '意', '自', '安', '然', '。']),
   (['翼'], ['翼', '星', '不', '利', '架', '高', '堂', '，', '三', '年', '二', '载', '见', '瘟', '惶', '，', '埋', '葬', '若', '还', '逢', '此', '日', '，', '子', '孙', '必', '定', '走', '他', '乡', '，', '婚', '姻', '此', '日', '不', '宜', '利', '，', '归', '家', '定', '是', '不', '相', '当', '，', '开', '门', '放', '水', '家', '须', '破', '，', '少', '女', '恋', '花', '贪', '外', '郎', '。']),
   (['轸'], ['轸', '星', '临', '水', '造', '龙', '宫', '，', '代', '代', '为', '官', '受', '皇', '封', '，', '富', '贵', '荣', '华', '增', '寿', '禄', '，', '库', '满', '仓', '盈', '自', '昌', '隆', '，', '埋', '葬', '文', '昌', '来', '照', '助', '，', '宅', '舍', '安', '宁', '不', '见', '凶', '，', '更', '有', '为', '官', '沾', '帝', '宠', '，', '婚', '姻', '龙', '子', '入', '龙', '宫', '。'])]

end LunarUtil

namespace SolarUtil

/-- `lunar_python/util/SolarUtil.py` 11 `WEEK` -/
def WEEK : List PyStr :=
  [['日'], ['一'], ['二'], ['三'], ['四'], ['五'], ['六']]

/-- `lunar_python/util/SolarUtil.py` 17 `XING_ZUO` -/
def XING_ZUO : List PyStr :=
  [['白', '羊'], ['金', '牛'], ['双', '子'], ['巨', '蟹'], ['狮', '子'], ['处', '女'], ['天', '秤'],
   ['天', '蝎'], ['射', '手'], ['摩', '羯'], ['水', '瓶'], ['双', '鱼']]

/-- `lunar_python/util/SolarUtil.py` 20-38 `FESTIVAL` -/
def FESTIVAL : List (PyStr × PyStr) :=
  [(['1', '-', '1'], ['元', '旦', '节']), (['2', '-', '1', '4'], ['情', '人', '节']),
   (['3', '-', '8'], ['妇', '女', '节']), (['3', '-', '1', '2'], ['植', '树', '节']),
   (['3', '-', '1', '5'], ['消', '费', '者', '权', '益', '日']), (['4', '-', '1'], ['愚', '人', '节']),
   (['5', '-', '1'], ['劳', '动', '节']), (['5', '-', '4'], ['青', '年', '节']),
   (['6', '-', '1'], ['儿', '童', '节']), (['7', '-', '1'], ['建', '党', '节']),
   (['8', '-', '1'], ['建', '军', '节']), (['9', '-', '1', '0'], ['教', '师', '节']),
   (['1', '0', '-', '1'], ['国', '庆', '节']), (['1', '2', '-', '2', '4'], ['平', '安', '夜']),
   (['1', '2', '-', '2', '5'], ['圣', '诞', '节']),
   (['1', '0', '-', '3', '1'], ['万', '圣', '节', '前', '夜']),
   (['1', '1', '-', '1'], ['万', '圣', '节'])]

/-- `lunar_python/util/SolarUtil.py` 41-49 `WEEK_FESTIVAL` -/
def WEEK_FESTIVAL : List (PyStr × PyStr) :=
  [(['3', '-', '0', '-', '1'], ['全', '国', '中', '小', '学', '生', '安', '全', '教', '育', '日']),
   (['5', '-', '2', '-', '0'], ['母', '亲', '节']),
   (['5', '-', '3', '-', '0'], ['全', '国', '助', '残', '日']),
   (['6', '-', '3', '-', '0'], ['父', '亲', '节']),
   (['9', '-', '3', '-', '6'], ['全', '民', '国', '防', '教', '育', '日']),
   (['1', '0', '-', '1', '-', '1'], ['世', '界', '住', '房', '日']),
   (['1', '1', '-', '4', '-', '4'], ['感', '恩', '节'])]

/-- `lunar_python/util/SolarUtil.py` 52-190 `OTHER_FESTIVAL` -/
def OTHER_FESTIVAL : List (PyStr × List PyStr) :=
  [(['1', '-', '8'], [['周', '恩', '来', '逝', '世', '纪', '念', '日']]),
   (['1', '-', '1', '0'], [['中', '国', '人', '民', '警', '察', '节']]),
   (['1', '-', '1', '4'], [['日', '记', '情', '人', '节']]),
   (['1', '-', '2', '1'], [['列', '宁', '逝', '世', '纪', '念', '日']]),
   (['1', '-', '2', '6'], [['国', '际', '海', '关', '日']]),
   (['1', '-', '2', '7'], [['国', '际', '大', '屠', '杀', '纪', '念', '日']]),
   (['2', '-', '2'], [['世', '界', '湿', '地', '日']]),
   (['2', '-', '4'], [['世', '界', '抗', '癌', '日']]),
   (['2', '-', '7'], [['京', '汉', '铁', '路', '罢', '工', '纪', '念', '日']]),
   (['2', '-', '1', '0'], [['国', '际', '气', '象', '节']]),
   (['2', '-', '1', '9'], [['邓', '小', '平', '逝', '世', '纪', '念', '日']]),
   (['2', '-', '2', '0'], [['世', '界', '社', '会', '公', '正', '日']]),
   (['2', '-', '2', '1'], [['国', '际', '母', '语', '日']]),
   (['2', '-', '2', '4'], [['第', '三', '世', '界', '青', '年', '日']]),
   (['3', '-', '1'], [['国', '际', '海', '豹', '日']]),
   (['3', '-', '3'], [['世', '界', '野', '生', '动', '植', '物', '日'], ['全', '国', '爱', '耳', '日']]),
   (['3', '-', '5'], [['周', '恩', '来', '诞', '辰', '纪', '念', '日'], ['中', '国', '青', '年', '志', '愿', '者', '服', '务', '日']]),
   (['3', '-', '6'], [['世', '界', '青', '光', '眼', '日']]), (['3', '-', '7'], [['女', '生', '节']]),
   (['3', '-', '1', '2'], [['孙', '中', '山', '逝', '世', '纪', '念', '日']]),
   (['3', '-', '1', '4'], [['马', '克', '思', '逝', '世', '纪', '念', '日'], ['白', '色', '情', '人', '节']]),
   (['3', '-', '1', '7'], [['国', '际', '航', '海', '日']]),
   (['3', '-', '1', '8'], [['全', '国', '科', '技', '人', '才', '活', '动', '日'], ['全', '国', '爱', '肝', '日']]),
   (['3', '-', '2', '0'], [['国', '际', '幸', '福', '日']]),
   (['3', '-', '2', '1'], [['世', '界', '森', '林', '日'], ['世', '界', '睡', '眠', '日'], ['国', '际', '消', '除', '种', '族', '歧', '视', '日']]),
   (['3', '-', '2', '2'], [['世', '界', '水', '日']]),
   (['3', '-', '2', '3'], [['世', '界', '气', '象', '日']]),
   (['3', '-', '2', '4'], [['世', '界', '防', '治', '结', '核', '病', '日']]),
   (['3', '-', '2', '9'], [['中', '国', '黄', '花', '岗', '七', '十', '二', '烈', '士', '殉', '难', '纪', '念', '日']]),
   (['4', '-', '2'], [['国', '际', '儿', '童', '图', '书', '日'], ['世', '界', '自', '闭', '症', '日']]),
   (['4', '-', '4'], [['国', '际', '地', '雷', '行', '动', '日']]),
   (['4', '-', '7'], [['世', '界', '卫', '生', '日']]),
   (['4', '-', '8'], [['国', '际', '珍', '稀', '动', '物', '保', '护', '日']]),
   (['4', '-', '1', '2'], [['世', '界', '航', '天', '日']]),
   (['4', '-', '1', '4'], [['黑', '色', '情', '人', '节']]),
   (['4', '-', '1', '5'], [['全', '民', '国', '家', '安', '全', '教', '育', '日']]),
   (['4', '-', '2', '2'], [['世', '界', '地', '球', '日'], ['列', '宁', '诞', '辰', '纪', '念', '日']]),
   (['4', '-', '2', '3'], [['世', '界', '读', '书', '日']]),
   (['4', '-', '2', '4'], [['中', '国', '航', '天', '日']]),
   (['4', '-', '2', '5'], [['儿', '童', '预', '防', '接', '种', '宣', '传', '日']]),
   (['4', '-', '2', '6'], [['世', '界', '知', '识', '产', '权', '日'], ['全', '国', '疟', '疾', '日']]),
   (['4', '-', '2', '8'], [['世', '界', '安', '全', '生', '产', '与', '健', '康', '日']]),
   (['4', '-', '3', '0'], [['全', '国', '交', '通', '安', '全', '反', '思', '日']]),
   (['5', '-', '2'], [['世', '界', '金', '枪', '鱼', '日']]),
   (['5', '-', '3'], [['世', '界', '新', '闻', '自', '由', '日']]),
   (['5', '-', '5'], [['马', '克', '思', '诞', '辰', '纪', '念', '日']]),
   (['5', '-', '8'], [['世', '界', '红', '十', '字', '日']]),
   (['5', '-', '1', '1'], [['世', '界', '肥', '胖', '日']]),
   (['5', '-', '1', '2'], [['全', '国', '防', '灾', '减', '灾', '日'], ['护', '士', '节']]),
   (['5', '-', '1', '4'], [['玫', '瑰', '情', '人', '节']]),
   (['5', '-', '1', '5'], [['国', '际', '家', '庭', '日']]),
   (['5', '-', '1', '9'], [['中', '国', '旅', '游', '日']]),
   (['5', '-', '2', '0'], [['网', '络', '情', '人', '节']]),
   (['5', '-', '2', '2'], [['国', '际', '生', '物', '多', '样', '性', '日']]),
   (['5', '-', '2', '5'], [['5', '2', '5', '心', '理', '健', '康', '节']]),
   (['5', '-', '2', '7'], [['上', '海', '解', '放', '日']]),
   (['5', '-', '2', '9'], [['国', '际', '维', '和', '人', '员', '日']]),
   (['5', '-', '3', '0'], [['中', '国', '五', '卅', '运', '动', '纪', '念', '日']]),
   (['5', '-', '3', '1'], [['世', '界', '无', '烟', '日']]),
   (['6', '-', '3'], [['世', '界', '自', '行', '车', '日']]),
   (['6', '-', '5'], [['世', '界', '环', '境', '日']]),
   (['6', '-', '6'], [['全', '国', '爱', '眼', '日']]),
   (['6', '-', '8'], [['世', '界', '海', '洋', '日']]),
   (['6', '-', '1', '1'], [['中', '国', '人', '口', '日']]),
   (['6', '-', '1', '4'], [['世', '界', '献', '血', '日'], ['亲', '亲', '情', '人', '节']]),
   (['6', '-', '1', '7'], [['世', '界', '防', '治', '荒', '漠', '化', '与', '干', '旱', '日']]),
   (['6', '-', '2', '0'], [['世', '界', '难', '民', '日']]),
   (['6', '-', '2', '1'], [['国', '际', '瑜', '伽', '日']]),
   (['6', '-', '2', '5'], [['全', '国', '土', '地', '日']]),
   (['6', '-', '2', '6'], [['国', '际', '禁', '毒', '日'], ['联', '合', '国', '宪', '章', '日']]),
   (['7', '-', '1'], [['香', '港', '回', '归', '纪', '念', '日']]),
   (['7', '-', '6'], [['国', '际', '接', '吻', '日'], ['朱', '德', '逝', '世', '纪', '念', '日']]),
   (['7', '-', '7'], [['七', '七', '事', '变', '纪', '念', '日']]),
   (['7', '-', '1', '1'], [['世', '界', '人', '口', '日'], ['中', '国', '航', '海', '日']]),
   (['7', '-', '1', '4'], [['银', '色', '情', '人', '节']]),
   (['7', '-', '1', '8'], [['曼', '德', '拉', '国', '际', '日']]),
   (['7', '-', '3', '0'], [['国', '际', '友', '谊', '日']]), (['8', '-', '3'], [['男', '人', '节']]),
   (['8', '-', '5'], [['恩', '格', '斯', '逝', '世', '纪', '念', '日']]),
   (['8', '-', '6'], [['国', '际', '电', '影', '节']]),
   (['8', '-', '8'], [['全', '民', '健', '身', '日']]),
   (['8', '-', '9'], [['国', '际', '土', '著', '人', '日']]),
   (['8', '-', '1', '2'], [['国', '际', '青', '年', '节']]),
   (['8', '-', '1', '4'], [['绿', '色', '情', '人', '节']]),
   (['8', '-', '1', '9'], [['世', '界', '人', '道', '主', '义', '日'], ['中', '国', '医', '师', '节']]),
   (['8', '-', '2', '2'], [['邓', '小', '平', '诞', '辰', '纪', '念', '日']]),
   (['8', '-', '2', '9'], [['全', '国', '测', '绘', '法', '宣', '传', '日']]),
   (['9', '-', '3'], [['中', '国', '抗', '日', '战', '争', '胜', '利', '纪', '念', '日']]),
   (['9', '-', '5'], [['中', '华', '慈', '善', '日']]),
   (['9', '-', '8'], [['世', '界', '扫', '盲', '日']]),
   (['9', '-', '9'], [['毛', '泽', '东', '逝', '世', '纪', '念', '日'], ['全', '国', '拒', '绝', '酒', '驾', '日']]),
   (['9', '-', '1', '4'], [['世', '界', '清', '洁', '地', '球', '日'], ['相', '片', '情', '人', '节']]),
   (['9', '-', '1', '5'], [['国', '际', '民', '主', '日']]),
   (['9', '-', '1', '6'], [['国', '际', '臭', '氧', '层', '保', '护', '日']]),
   (['9', '-', '1', '7'], [['世', '界', '骑', '行', '日']]),
   (['9', '-', '1', '8'], [['九', '一', '八', '事', '变', '纪', '念', '日']]),
   (['9', '-', '2', '0'], [['全', '国', '爱', '牙', '日']]),
   (['9', '-', '2', '1'], [['国', '际', '和', '平', '日']]),
   (['9', '-', '2', '7'], [['世', '界', '旅', '游', '日']]),
   (['9', '-', '3', '0'], [['中', '国', '烈', '士', '纪', '念', '日']]),
   (['1', '0', '-', '1'], [['国', '际', '老', '年', '人', '日']]),
   (['1', '0', '-', '2'], [['国', '际', '非', '暴', '力', '日']]),
   (['1', '0', '-', '4'], [['世', '界', '动', '物', '日']]),
   (['1', '0', '-', '1', '1'], [['国', '际', '女', '童', '日']]),
   (['1', '0', '-', '1', '0'], [['辛', '亥', '革', '命', '纪', '念', '日']]),
   (['1', '0', '-', '1', '3'], [['国', '际', '减', '轻', '自', '然', '灾', '害', '日'], ['中', '国', '少', '年', '先', '锋', '队', '诞', '辰', '日']]),
   (['1', '0', '-', '1', '4'], [['葡', '萄', '酒', '情', '人', '节']]),
   (['1', '0', '-', '1', '6'], [['世', '界', '粮', '食', '日']]),
   (['1', '0', '-', '1', '7'], [['全', '国', '扶', '贫', '日']]),
   (['1', '0', '-', '2', '0'], [['世', '界', '统', '计', '日']]),
   (['1', '0', '-', '2', '4'], [['世', '界', '发', '展', '信', '息', '日'], ['程', '序', '员', '节']]),
   (['1', '0', '-', '2', '5'], [['抗', '美', '援', '朝', '纪', '念', '日']]),
   (['1', '1', '-', '5'], [['世', '界', '海', '啸', '日']]),
   (['1', '1', '-', '8'], [['记', '者', '节']]),
   (['1', '1', '-', '9'], [['全', '国', '消', '防', '日']]),
   (['1', '1', '-', '1', '1'], [['光', '棍', '节']]),
   (['1', '1', '-', '1', '2'], [['孙', '中', '山', '诞', '辰', '纪', '念', '日']]),
   (['1', '1', '-', '1', '4'], [['电', '影', '情', '人', '节']]),
   (['1', '1', '-', '1', '6'], [['国', '际', '宽', '容', '日']]),
   (['1', '1', '-', '1', '7'], [['国', '际', '大', '学', '生', '节']]),
   (['1', '1', '-', '1', '9'], [['世', '界', '厕', '所', '日']]),
   (['1', '1', '-', '2', '8'], [['恩', '格', '斯', '诞', '辰', '纪', '念', '日']]),
   (['1', '1', '-', '2', '9'], [['国', '际', '声', '援', '巴', '勒', '斯', '坦', '人', '民', '日']]),
   (['1', '2', '-', '1'], [['世', '界', '艾', '滋', '病', '日']]),
   (['1', '2', '-', '2'], [['全', '国', '交', '通', '安', '全', '日']]),
   (['1', '2', '-', '3'], [['世', '界', '残', '疾', '人', '日']]),
   (['1', '2', '-', '4'], [['全', '国', '法', '制', '宣', '传', '日']]),
   (['1', '2', '-', '5'], [['世', '界', '弱', '能', '人', '士', '日'], ['国', '际', '志', '愿', '人', '员', '日']]),
   (['1', '2', '-', '7'], [['国', '际', '民', '航', '日']]),
   (['1', '2', '-', '9'], [['世', '界', '足', '球', '日'], ['国', '际', '反', '腐', '败', '日']]),
   (['1', '2', '-', '1', '0'], [['世', '界', '人', '权', '日']]),
   (['1', '2', '-', '1', '1'], [['国', '际', '山', '岳', '日']]),
   (['1', '2', '-', '1', '2'], [['西', '安', '事', '变', '纪', '念', '日']]),
   (['1', '2', '-', '1', '3'], [['国', '家', '公', '祭', '日']]),
   (['1', '2', '-', '1', '4'], [['拥', '抱', '情', '人', '节']]),
   (['1', '2', '-', '1', '8'], [['国', '际', '移', '徙', '者', '日']]),
   (['1', '2', '-', '2', '6'], [['毛', '泽', '东', '诞', '辰', '纪', '念', '日']])]

end SolarUtil
