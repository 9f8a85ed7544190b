import Mathlib.Data.Int.Notation

/-! # What belongs to the twenty-eight mansions

Number `k` of the mansions in their order from 角 (0) to 轸 (27): seven in each quarter, the seven luminaries in turn. -/

namespace Spec

/-- the quarter of the sky -/
def quarter (k : ℤ) : Char := ['东', '北', '西', '南'].getD (k % 28 / 7).toNat '?'

/-- the beast of the quarter -/
def beast (k : ℤ) : List Char := [['青', '龙'], ['玄', '武'], ['白', '虎'], ['朱', '雀']].getD (k % 28 / 7).toNat []

/-- the luminaries of the days of the week, from Sunday -/
def luminary (w : ℤ) : Char := ['日', '月', '火', '水', '木', '金', '土'].getD (w % 7).toNat '?'

/-- the animals of the mansions -/
def mansionAnimals : List Char :=
  ['蛟', '龙', '貉', '兔', '狐', '虎', '豹', '獬', '牛', '蝠', '鼠', '燕', '猪', '獝', '狼', '狗', '彘', '鸡', '乌', '猴', '猿',
   '犴', '羊', '獐', '马', '鹿', '蛇', '蚓']

/-- the animal of a mansion -/
def mansionAnimal (k : ℤ) : Char := mansionAnimals.getD (k % 28).toNat '?'

/-- the lucky mansions -/
def luckyMansions : List ℤ := [0, 3, 5, 6, 7, 12, 13, 15, 16, 18, 20, 21, 25, 27]

end Spec
