import Mathlib.Data.Int.Notation

/-! # The sexagenary cycle, the five phases -/

namespace Spec

/-- the ten stems -/
def stems : List Char := ['甲', '乙', '丙', '丁', '戊', '己', '庚', '辛', '壬', '癸']

/-- the twelve branches -/
def branches : List Char := ['子', '丑', '寅', '卯', '辰', '巳', '午', '未', '申', '酉', '戌', '亥']

/-- stem number `n` (cyclic) -/
def stem (n : ℤ) : Char := stems.getD (n % 10).toNat '?'

/-- branch number `n` (cyclic) -/
def branch (n : ℤ) : Char := branches.getD (n % 12).toNat '?'

/-- the `n`-th stem-branch pair, 甲子 being number 0 (and 60, ...) -/
def ganZhi (n : ℤ) : List Char := [stem n, branch n]

/-- phase of a stem: 0 wood, 1 fire, 2 earth, 3 metal, 4 water -/
def stemPhase (g : ℤ) : ℤ := g % 10 / 2

/-- phase `a` generates phase `b` (wood, fire, earth, metal, water, wood) -/
def Generates (a b : ℤ) : Prop := b % 5 = (a + 1) % 5

/-- phase `a` overcomes phase `b` (wood, earth, water, fire, metal, wood) -/
def Overcomes (a b : ℤ) : Prop := b % 5 = (a + 2) % 5

/-- The ten gods: relation of stem `o` to the day stem `g`. `same` polarity first. -/
def IsTenGod (g o : ℤ) (s : List Char) : Prop :=
  let a := stemPhase g
  let b := stemPhase o
  let same := (g - o) % 2 = 0
  (a = b ∧ same ∧ s = ['比', '肩']) ∨ (a = b ∧ ¬ same ∧ s = ['劫', '财']) ∨
  (Generates a b ∧ same ∧ s = ['食', '神']) ∨ (Generates a b ∧ ¬ same ∧ s = ['伤', '官']) ∨
  (Overcomes a b ∧ same ∧ s = ['偏', '财']) ∨ (Overcomes a b ∧ ¬ same ∧ s = ['正', '财']) ∨
  (Overcomes b a ∧ same ∧ s = ['七', '杀']) ∨ (Overcomes b a ∧ ¬ same ∧ s = ['正', '官']) ∨
  (Generates b a ∧ same ∧ s = ['偏', '印']) ∨ (Generates b a ∧ ¬ same ∧ s = ['正', '印'])

/-- the twelve life stages in order -/
def lifeStages : List (List Char) :=
  [['长', '生'], ['沐', '浴'], ['冠', '带'], ['临', '官'], ['帝', '旺'], ['衰'], ['病'], ['死'], ['墓'],
   ['绝'], ['胎'], ['养']]

/-- life stage number `n` (cyclic) -/
def lifeStage (n : ℤ) : List Char := lifeStages.getD (n % 12).toNat []

/-- the branch at which a stem is born (长生): 甲亥 丙寅 戊寅 庚巳 壬申, 乙午 丁酉 己酉 辛子 癸卯 -/
def birthBranch (g : ℤ) : ℤ := [11, 6, 2, 9, 2, 9, 5, 0, 8, 3].getD (g % 10).toNat 0

/-- the stems hidden in a branch, main one first (numbers as in `stems`) -/
def hiddenStems (b : ℤ) : List ℤ :=
  [[9], [5, 9, 7], [0, 2, 4], [1], [4, 1, 9], [2, 6, 4], [3, 5], [5, 3, 1], [6, 8, 4], [7], [4, 7, 3],
   [8, 0]].getD (b % 12).toNat []

/-- names of the phases -/
def phaseName (p : ℤ) : Char := ['木', '火', '土', '金', '水'].getD (p % 5).toNat '?'

/-- phase of a branch: spring wood, summer fire, autumn metal, winter water, the third month of each
season earth -/
def branchPhase (b : ℤ) : ℤ :=
  if b % 3 = 1 then 2 else [0, 1, 3, 4].getD ((b - 2) % 12 / 3).toNat 0

/-- the counting rule for the phase of a pair: stems 甲乙 1 ... 壬癸 5, branches 子丑午未 1, 寅卯申酉 2,
辰巳戌亥 3; the sum modulo 5 is 1 wood, 2 metal, 3 water, 4 fire, 0 earth -/
def pairPhase (n : ℤ) : Char :=
  ['土', '木', '金', '水', '火'].getD ((n % 10 / 2 + 1 + (n % 6 / 2 + 1)) % 5).toNat '?'

/-- position of a branch in the months of a year, 寅 being 1 and 丑 12 -/
def monthOrd (b : ℤ) : ℤ := (b - 2) % 12 + 1

end Spec
