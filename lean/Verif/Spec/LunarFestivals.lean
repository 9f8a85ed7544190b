import Verif.Spec.GanZhi
import Verif.Spec.JulianDate

/-! # Festivals of the lunar calendar -/

namespace Spec

/-- festivals on a fixed day of a month (leap months have none) -/
def lunarFestivals : List ((ℤ × ℤ) × List Char) :=
  [((1, 1), ['春', '节']), ((1, 15), ['元', '宵', '节']), ((2, 2), ['龙', '头', '节']), ((5, 5), ['端', '午', '节']),
   ((7, 7), ['七', '夕', '节']), ((8, 15), ['中', '秋', '节']), ((9, 9), ['重', '阳', '节']), ((12, 8), ['腊', '八', '节'])]

/-- the name of the festival on a day, if there is one -/
def lunarFestival (m d : ℤ) : Option (List Char) := (lunarFestivals.find? (fun p => p.1 = (m, d))).map Prod.snd

/-- further days with a name -/
def otherFestivals : List ((ℤ × ℤ) × List (List Char)) :=
  [((1, 4), [['接', '神', '日']]), ((1, 5), [['隔', '开', '日']]), ((1, 7), [['人', '日']]), ((1, 8), [['谷', '日'], ['顺', '星', '节']]),
   ((1, 9), [['天', '日']]), ((1, 10), [['地', '日']]), ((1, 20), [['天', '穿', '节']]), ((1, 25), [['填', '仓', '节']]),
   ((1, 30), [['正', '月', '晦']]), ((2, 1), [['中', '和', '节']]), ((2, 2), [['社', '日', '节']]), ((3, 3), [['上', '巳', '节']]),
   ((5, 20), [['分', '龙', '节']]), ((5, 25), [['会', '龙', '节']]), ((6, 6), [['天', '贶', '节']]), ((6, 24), [['观', '莲', '节']]),
   ((6, 25), [['五', '谷', '母', '节']]), ((7, 15), [['中', '元', '节']]), ((7, 22), [['财', '神', '节']]), ((7, 29), [['地', '藏', '节']]),
   ((8, 1), [['天', '灸', '日']]), ((10, 1), [['寒', '衣', '节']]), ((10, 10), [['十', '成', '节']]), ((10, 15), [['下', '元', '节']]),
   ((12, 7), [['驱', '傩', '日']]), ((12, 16), [['尾', '牙']]), ((12, 24), [['祭', '灶', '日']])]

/-- their names on a day -/
def otherFestival (m d : ℤ) : List (List Char) := ((otherFestivals.find? (fun p => p.1 = (m, d))).map Prod.snd).getD []

/-- day `n` (a Julian day number) is a 戊 day -/
def IsWu (n : ℤ) : Prop := stem (n - 11) = '戊'

/-- day `n` is the fifth 戊 day from day `a` on (the days of the earth god, 社日): every tenth day is one -/
def FifthWu (a n : ℤ) : Prop := IsWu n ∧ a + 40 ≤ n ∧ n < a + 50

instance (n : ℤ) : Decidable (IsWu n) := by unfold IsWu; infer_instance
instance (a n : ℤ) : Decidable (FifthWu a n) := by unfold FifthWu; infer_instance

end Spec
