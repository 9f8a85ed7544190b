import Mathlib.Data.Int.Notation
import Mathlib.Data.Nat.Notation

/-! # The 24 solar terms -/

namespace Spec

/-- the terms in order from the winter solstice; principal terms (气) at even places, the others (节) at
odd places -/
def terms24 : List (List Char) :=
  [['冬', '至'], ['小', '寒'], ['大', '寒'], ['立', '春'], ['雨', '水'], ['惊', '蛰'], ['春', '分'], ['清', '明'],
   ['谷', '雨'], ['立', '夏'], ['小', '满'], ['芒', '种'], ['夏', '至'], ['小', '暑'], ['大', '暑'], ['立', '秋'],
   ['处', '暑'], ['白', '露'], ['秋', '分'], ['寒', '露'], ['霜', '降'], ['立', '冬'], ['小', '雪'], ['大', '雪']]

/-- the name of entry `i` of a table of terms that begins with 大雪 -/
def termName (i : ℕ) : List Char := terms24.getD ((i + 23) % 24) []

/-- which terms a search looks at: all, only 节 (even entries of the table), only 气 (odd entries) -/
inductive TermKind
  | all | jie | qi
  deriving DecidableEq, Repr

/-- entry `i` of the table is of the kind -/
def TermKind.has : TermKind → ℕ → Prop
  | .all, _ => True
  | .jie, i => i % 2 = 0
  | .qi, i => i % 2 = 1

instance (k : TermKind) (i : ℕ) : Decidable (k.has i) := by cases k <;> unfold TermKind.has <;> infer_instance

/-- the distance between neighbouring entries of the kind -/
def TermKind.step : TermKind → ℕ
  | .all => 1
  | .jie => 2
  | .qi => 2

end Spec
