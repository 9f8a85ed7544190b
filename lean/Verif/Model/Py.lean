import Mathlib.Data.Int.Notation
import Mathlib.Data.Nat.Notation

/-!
# Python primitives

Python built-ins used by the modelled code: exceptions, `range`, `%d` formatting, string order.
-/

/-- Python exceptions as values; messages are dropped.
`exception`: `raise Exception(...)` as in `lunar_python/Solar.py` 18-29,
`indexError`, `keyError`, `typeError`, `attributeError`, `valueError`: raised by the interpreter. -/
inductive PyErr
  | exception | indexError | keyError | typeError | attributeError | valueError
  deriving DecidableEq, Repr

instance {α : Type} [DecidableEq α] : DecidableEq (Except PyErr α) := fun a b =>
  match a, b with
  | .error a, .error b => if h : a = b then .isTrue (by rw [h]) else .isFalse (by simpa using h)
  | .ok a, .ok b => if h : a = b then .isTrue (by rw [h]) else .isFalse (by simpa using h)
  | .error _, .ok _ => .isFalse (by simp)
  | .ok _, .error _ => .isFalse (by simp)

/-- Python `range(a, b)` as a list (e.g. `lunar_python/util/SolarUtil.py` 234, 263). -/
def pyRange (a b : ℤ) : List ℤ := (List.range (b - a).toNat).map (fun (i : ℕ) => a + i)

/-- Python strings as lists of code points. -/
abbrev PyStr := List Char

/-- Python `a < b` on strings: lexicographic by code point (e.g. `lunar_python/Lunar.py` 65-70). -/
def strLt : PyStr → PyStr → Bool
  | _, [] => false
  | [], _ :: _ => true
  | a :: as, b :: bs => if a.toNat < b.toNat then true else if b.toNat < a.toNat then false else strLt as bs

/-- Python `a <= b` on strings. -/
def strLe (a b : PyStr) : Bool := !strLt b a

/-- Left-pad with zeros to a width. -/
def padZero (w : ℕ) (s : PyStr) : PyStr := List.replicate (w - s.length) '0' ++ s

/-- Python `"%0wd" % n` (`lunar_python/Solar.py` 337, 340); a minus sign counts towards the width. -/
def fmtD (w : ℕ) (n : ℤ) : PyStr :=
  if n < 0 then '-' :: padZero (w - 1) (Nat.toDigits 10 n.natAbs)
  else padZero w (Nat.toDigits 10 n.natAbs)

/-- Python indexing `l[i]` with negative indices counted from the end. -/
def pyIndex {α : Type} (l : List α) (i : ℤ) : Except PyErr α :=
  let j := if i < 0 then i + l.length else i
  if j < 0 then .error .indexError
  else match l[j.toNat]? with
    | some x => .ok x
    | none => .error .indexError

/-- Python `int(ceil(a / 7.0))`, `int(ceil(a * 1.0 / b))` for ints `a`, `b > 0`
(`lunar_python/Solar.py` 180, `lunar_python/SolarWeek.py` 63, 73, `lunar_python/SolarSeason.py` 46):
ceiling division.  The double in between is exact enough for `|a| < 2^53`
(`F64.ceil_div_eq`). -/
def pyCeilDiv (a b : ℤ) : ℤ := -((-a) / b)
