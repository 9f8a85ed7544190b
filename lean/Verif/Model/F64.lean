import Mathlib.Data.Int.Log
import Mathlib.Algebra.Order.Floor.Ring
import Mathlib.Data.Rat.Floor

/-!
# Binary64 arithmetic

Python `float` operations as used by `lunar_python/Solar.py` 42-79 and 231-249 (and the few
`int(a / b)`, `ceil(a * 1.0 / b)` sites).  A finite double is a rational; every arithmetic
operation is the exact rational result rounded to 53 significant bits, ties to even.
Simplification: the exponent is unbounded (no overflow, no subnormals), no NaN/infinity.
-/

namespace F64

/-- Round to the nearest integer, ties to even: CPython `round(x)` on a float
(used at `lunar_python/Solar.py` 68) and the rounding step of IEEE-754. -/
def roundHalfEven (x : ℚ) : ℤ :=
  let f := ⌊x⌋
  if x - f < 1 / 2 then f
  else if 1 / 2 < x - f then f + 1
  else if f % 2 = 0 then f else f + 1

/-- Exponent of the last place of the binary64 number nearest to `x` (53-bit significand). -/
def ulpExp (x : ℚ) : ℤ := Int.log 2 |x| - 52

/-- Round a rational to binary64 (IEEE-754 round-to-nearest-even, exponent unbounded):
the result of any single float operation in `lunar_python/Solar.py` 42-79, 231-249. -/
def rnd (x : ℚ) : ℚ := (roundHalfEven (x / 2 ^ ulpExp x) : ℚ) * 2 ^ ulpExp x

/-- Python `int(x)` on a float: truncation toward zero (`lunar_python/Solar.py` 43, 46, ...). -/
def trunc (x : ℚ) : ℤ := if 0 ≤ x then ⌊x⌋ else ⌈x⌉

/-- Python `a + b` on floats. -/
def add (a b : ℚ) : ℚ := rnd (a + b)
/-- Python `a - b` on floats. -/
def sub (a b : ℚ) : ℚ := rnd (a - b)
/-- Python `a * b` on floats. -/
def mul (a b : ℚ) : ℚ := rnd (a * b)
/-- Python `a / b` on floats, or true division of ints (correctly rounded). -/
def div (a b : ℚ) : ℚ := rnd (a / b)

end F64
