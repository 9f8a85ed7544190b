import Verif.Spec.GanZhi
import Mathlib.Data.Nat.Notation

/-! # Rules of the traditional day almanac -/

namespace Spec

/-- the twelve animals -/
def animals : List Char := ['鼠', '牛', '虎', '兔', '龙', '蛇', '马', '羊', '猴', '鸡', '狗', '猪']

/-- the animal of branch number `n` -/
def animal (n : ℤ) : Char := animals.getD (n % 12).toNat '?'

/-- the direction of the evil (煞): opposite to the triad of the branch (申子辰 south, 巳酉丑 east, 寅午戌 north,
亥卯未 west) -/
def sha (n : ℤ) : Char := ['南', '东', '北', '西'].getD (n % 4).toNat '?'

/-- the twelve officers of the days, 建 除 ... -/
def officer (n : ℤ) : Char :=
  ['建', '除', '满', '平', '定', '执', '破', '危', '成', '收', '开', '闭'].getD (n % 12).toNat '?'

/-- the twelve spirits, beginning with 青龙 -/
def spirit (n : ℤ) : List Char :=
  [['青', '龙'], ['明', '堂'], ['天', '刑'], ['朱', '雀'], ['金', '匮'], ['天', '德'], ['白', '虎'], ['玉', '堂'],
   ['天', '牢'], ['玄', '武'], ['司', '命'], ['勾', '陈']].getD (n % 12).toNat []

/-- the branch at which 青龙 stands, for the branch of the month (of the day, for the hours): 子 for 寅申, 寅 for 卯酉,
辰 for 辰戌, 午 for 巳亥, 申 for 子午, 戌 for 丑未 -/
def dragonBranch (m : ℤ) : ℤ := 2 * ((m - 2) % 6)

/-- the spirits of the yellow road -/
def Yellow (n : ℤ) : Prop := n % 12 = 0 ∨ n % 12 = 1 ∨ n % 12 = 4 ∨ n % 12 = 5 ∨ n % 12 = 7 ∨ n % 12 = 10

instance (n : ℤ) : Decidable (Yellow n) := by unfold Yellow; infer_instance

/-- the eight trigrams clockwise from north -/
def trigrams : List Char := ['坎', '艮', '震', '巽', '离', '坤', '兑', '乾']

/-- the eight directions clockwise from north -/
def directions : List (List Char) :=
  [['正', '北'], ['东', '北'], ['正', '东'], ['东', '南'], ['正', '南'], ['西', '南'], ['正', '西'], ['西', '北']]

/-- direction `k` (clockwise from north) as a trigram -/
def trigram (k : ℤ) : Char := trigrams.getD (k % 8).toNat '?'
/-- direction `k` (clockwise from north) in words -/
def direction (k : ℤ) : List Char := directions.getD (k % 8).toNat []

/-- the god of joy: 甲己 northeast, 乙庚 northwest, 丙辛 southwest, 丁壬 south, 戊癸 southeast -/
def joy (n : ℤ) : ℤ := [1, 7, 5, 4, 3].getD (n % 5).toNat 0

/-- the god of wealth: 甲乙 northeast, 丙丁 southwest, 戊己 north, 庚辛 east, 壬癸 south -/
def wealth (n : ℤ) : ℤ := [1, 5, 0, 2, 4].getD (n % 10 / 2).toNat 0

/-- the god of fortune: 甲己 north, 乙庚 southwest, 丙辛 northwest, 丁壬 southeast, 戊癸 northeast -/
def fortune (n : ℤ) : ℤ := [0, 5, 7, 3, 1].getD (n % 5).toNat 0

/-- the god of fortune in the other tradition (`sect` 1): 甲乙 southeast, 丙丁 east, 戊 north, 己 south, 庚辛 southwest,
壬 northwest, 癸 west -/
def fortune1 (n : ℤ) : ℤ := [3, 3, 2, 2, 0, 4, 5, 5, 7, 6].getD (n % 10).toNat 0

/-- the noble by day: 甲戊坤艮位，乙己是坤坎，庚辛居离艮，丙丁兑与乾，震巽属何日，壬癸贵神安 -/
def nobleDay (n : ℤ) : ℤ := [5, 5, 6, 7, 1, 0, 4, 1, 2, 3].getD (n % 10).toNat 0

/-- the stem that shares a line of that song -/
def nobleMate (n : ℤ) : ℤ := [4, 5, 3, 2, 0, 1, 7, 6, 9, 8].getD (n % 10).toNat 0

/-- the branch at which a stem has its salary (禄): 甲寅 乙卯 丙戊巳 丁己午 庚申 辛酉 壬亥 癸子 -/
def luBranch (n : ℤ) : ℤ := [2, 3, 5, 6, 5, 6, 8, 9, 11, 0].getD (n % 10).toNat 0

/-- the six days (六曜) -/
def sixDay (n : ℤ) : List Char :=
  [['先', '胜'], ['友', '引'], ['先', '负'], ['佛', '灭'], ['大', '安'], ['赤', '口']].getD (n % 6).toNat []

/-- the part of the house of the womb god by stem (甲己 door, 乙庚 mill, 丙辛 stove, 丁壬 store, 戊癸 bed) -/
def wombStem (n : ℤ) : List Char :=
  [['占', '门'], ['碓', '磨'], ['厨', '灶'], ['仓', '库'], ['房', '床']].getD (n % 5).toNat []

/-- and by branch (子午 mill, 丑未 privy, 寅申 oven, 卯酉 door, 辰戌 roost, 巳亥 bed) -/
def wombBranch (n : ℤ) : Char := ['碓', '厕', '炉', '门', '栖', '床'].getD (n % 6).toNat '?'

/-- both together; when the two name the same thing it is 占碓磨, 占大门, 占房床 -/
def womb (n : ℤ) : List Char :=
  if wombBranch n ∈ wombStem n then
    if wombBranch n = '门' then ['占', '大', '门'] else '占' :: wombStem n
  else wombStem n ++ [wombBranch n]

/-- where the womb god stays on day `n` of the sixty: outside, going round from the southeast, and inside the house -/
def wombPlace (n : ℤ) : List Char :=
  let k := n % 60
  if k < 2 then ['外', '东', '南'] else if k < 7 then ['外', '正', '南'] else if k < 13 then ['外', '西', '南']
  else if k < 18 then ['外', '正', '西'] else if k < 24 then ['外', '西', '北'] else if k < 29 then ['外', '正', '北']
  else if k < 34 then ['房', '内', '北'] else if k < 36 then ['房', '内', '中'] else if k < 39 then ['房', '内', '南']
  else if k < 40 then ['房', '内', '西'] else if k < 44 then ['房', '内', '东'] else if k < 45 then ['房', '内', '中']
  else if k < 51 then ['外', '东', '北'] else if k < 56 then ['外', '正', '东'] else ['外', '东', '南']

/-- the words for a trigram or the centre -/
def place (c : Char) : List Char := if c = '中' then ['中', '宫'] else directions.getD (trigrams.idxOf c) []

/-- the place of the great year god (太岁) in a year of branch `n`: the trigram of the direction of the branch, with 戌 and
亥 counted with 子 -/
def taiSuiYear (n : ℤ) : Char :=
  ['坎', '艮', '艮', '震', '巽', '巽', '离', '坤', '坤', '兑', '坎', '坎'].getD (n % 12).toNat '?'

/-- the five places of the stems: 甲乙 east, 丙丁 south, 戊己 centre, 庚辛 west, 壬癸 north -/
def stemPlace (n : ℤ) : Char := ['震', '离', '中', '兑', '坎'].getD (n % 10 / 2).toNat '?'

/-- and in month number `n`: 寅午戌 northeast, 申子辰 southwest, 巳酉丑 southeast, 亥卯未 by the stem -/
def taiSuiMonth (n : ℤ) : Char :=
  if n % 4 = 2 then '艮' else if n % 4 = 0 then '坤' else if n % 4 = 1 then '巽' else stemPlace n

/-- and on day number `n` of the sixty in a year of branch `y`: in each round of the branches beginning with 子 it is away
for the six days from 子 to 巳, east in the first round (甲子), then south, centre, west, north; and at home afterwards -/
def taiSuiDay (y n : ℤ) : Char :=
  if n % 12 < 6 then ['震', '离', '中', '兑', '坎'].getD (n % 60 / 12).toNat '?' else taiSuiYear y

/-- the stems with their salary at branch `n`, joined by commas -/
def luStems (n : ℤ) : List Char :=
  List.intercalate [','] (((List.range 10).filter (fun s : ℕ => luBranch s = n % 12)).map (fun s : ℕ => [stem s]))

end Spec
