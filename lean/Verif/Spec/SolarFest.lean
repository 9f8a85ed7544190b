import Verif.Spec.Weeks

/-! # Specification of the festivals of the solar calendar and of the signs of the zodiac -/

namespace Spec

/-- festivals with a fixed date: month, day, name -/
def fixedFestivals : List ((ℤ × ℤ) × List Char) :=
  [((1, 1), ['元', '旦', '节']), ((2, 14), ['情', '人', '节']), ((3, 8), ['妇', '女', '节']), ((3, 12), ['植', '树', '节']),
   ((3, 15), ['消', '费', '者', '权', '益', '日']), ((4, 1), ['愚', '人', '节']), ((5, 1), ['劳', '动', '节']),
   ((5, 4), ['青', '年', '节']), ((6, 1), ['儿', '童', '节']), ((7, 1), ['建', '党', '节']), ((8, 1), ['建', '军', '节']),
   ((9, 10), ['教', '师', '节']), ((10, 1), ['国', '庆', '节']), ((12, 24), ['平', '安', '夜']), ((12, 25), ['圣', '诞', '节']),
   ((10, 31), ['万', '圣', '节', '前', '夜']), ((11, 1), ['万', '圣', '节'])]

/-- festivals on the `k`-th weekday `w` of a month (`k = 0`: the last one): month, `k`, `w`, name -/
def weekdayFestivals : List ((ℤ × ℤ × ℤ) × List Char) :=
  [((3, 0, 1), ['全', '国', '中', '小', '学', '生', '安', '全', '教', '育', '日']), ((5, 2, 0), ['母', '亲', '节']),
   ((5, 3, 0), ['全', '国', '助', '残', '日']), ((6, 3, 0), ['父', '亲', '节']), ((9, 3, 6), ['全', '民', '国', '防', '教', '育', '日']),
   ((10, 1, 1), ['世', '界', '住', '房', '日']), ((11, 4, 4), ['感', '恩', '节'])]

/-- `x` is the `k`-th weekday `w` of month `m`, or the last one if `k = 0` -/
def OnWeekday (m k w : ℤ) (x : Date) : Prop :=
  x.m = m ∧ (k ≠ 0 → KthWeekday k w x) ∧ (k = 0 → LastWeekday w x)

/-- the sign that begins in month `m`, and the day on which it begins -/
def sign : List (ℤ × List Char) :=
  [(20, ['水', '瓶']), (19, ['双', '鱼']), (21, ['白', '羊']), (20, ['金', '牛']), (21, ['双', '子']), (22, ['巨', '蟹']),
   (23, ['狮', '子']), (23, ['处', '女']), (23, ['天', '秤']), (24, ['天', '蝎']), (23, ['射', '手']), (22, ['摩', '羯'])]

/-- the sign of the zodiac on day `d` of month `m`: that of the month if it has begun, else that of the month before -/
def signOn (m d : ℤ) : List Char :=
  let this := sign.getD (m - 1).toNat (0, [])
  if this.1 ≤ d then this.2 else (sign.getD ((m + 10) % 12).toNat (0, [])).2

/-- the names of the weekdays, Sunday first -/
def weekdayName (w : ℤ) : Char := (['日', '一', '二', '三', '四', '五', '六']).getD w.toNat '?'

/-- a list of remarks in brackets -/
def brackets : List (List Char) → List Char
  | [] => []
  | f :: fs => ' ' :: '(' :: (f ++ ')' :: brackets fs)

end Spec
