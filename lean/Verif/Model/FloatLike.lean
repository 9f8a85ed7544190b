import Verif.Model.F64
import Verif.Model.ShouXingTables

/-! # The float operations used by `util/ShouXingUtil.py`

The functions of `util/ShouXingUtil.py` are written once, for any type with these operations.  On `Fl M` they are the
program: doubles, with `math.sin` and `math.cos` given by `M`.  The proofs also run them on enclosures of doubles. -/

/-- operations of `lunar_python/util/ShouXingUtil.py` on floats -/
class FloatLike (α : Type) extends Add α, Sub α, Mul α, Div α where
  /-- the literal `m / 10 ^ e` -/
  lit : ℤ → ℕ → α
  /-- `math.sin` -/
  sin : α → α
  /-- `math.cos` -/
  cos : α → α
  /-- `x if a < b else y` -/
  sel : α → α → α → α → α
  /-- `x % 1` -/
  frac : α → α
  /-- `eGroup n i t`: the sum `c` of group `i` of `__XL0` in `eLon` (`lunar_python/util/ShouXingUtil.py` 386-400) -/
  eGroup : ℤ → ℕ → α → α
  /-- `mGroup n i t t2 t3 t4`: the sum `c` for `__XL1[i]` in `mLon` (`lunar_python/util/ShouXingUtil.py` 433-443) -/
  mGroup : ℤ → ℕ → α → α → α → α → α

namespace ShouXing

/-- the rows of group `i` of `__XL0` (`lunar_python/util/ShouXingUtil.py` 383-385) -/
def XL0 : ℕ → List (ℤ × ℤ × ℤ)
  | 0 => XL0_0
  | 1 => XL0_1
  | 2 => XL0_2
  | 3 => XL0_3
  | 4 => XL0_4
  | 5 => XL0_5
  | _ => []

/-- the rows of `__XL1[i]` (`lunar_python/util/ShouXingUtil.py` 434) -/
def XL1 : ℕ → List (ℤ × ℤ × ℤ × ℤ × ℤ × ℤ)
  | 0 => XL1_0
  | 1 => XL1_1
  | 2 => XL1_2
  | 3 => XL1_3
  | _ => []

/-- how many of the `len` rows of group `i` the loop of `lunar_python/util/ShouXingUtil.py` 399-400 reads (386-397; `m0` is
558, `n1` and `n2` are three times the numbers of rows) -/
def eCount (n : ℤ) (i len : ℕ) : ℕ :=
  if n < 0 then len
  else
    let m := F64.trunc (F64.add (F64.div (3 * n * (3 * len) : ℤ) 558) (1 / 2))
    let m := if i ≠ 0 then m + 3 else m
    let m := if m > 3 * len then (3 * len : ℤ) else m
    ((m + 2) / 3).toNat

/-- how many of the `len` rows of `__XL1[i]` the loop of `lunar_python/util/ShouXingUtil.py` 442-443 reads (430-441; `obl` is
2652 and `size` six times the number of rows) -/
def mCount (n : ℤ) (i len : ℕ) : ℕ :=
  let n := if n * 6 < 0 then 2652 else n * 6
  let m := F64.trunc (F64.add (F64.div (n * (6 * len) : ℤ) 2652) (1 / 2))
  let m := if i > 0 then m + 6 else m
  let m := if m ≥ 6 * len then (6 * len : ℤ) else m
  ((m + 5) / 6).toNat

end ShouXing

/-- the functions `sin` and `cos` imported from `math` (`lunar_python/util/ShouXingUtil.py` 2), left abstract -/
structure Libm where
  sin : ℚ → ℚ
  cos : ℚ → ℚ

/-- a Python float of a program that is linked with `M` (finite, see `Model/F64.lean`) -/
structure Fl (M : Libm) where
  v : ℚ

namespace Fl
open ShouXing F64
variable {M : Libm}

/-- a row of `__XL0` (`lunar_python/util/ShouXingUtil.py` 400) -/
def eTerm (t : Fl M) : ℤ × ℤ × ℤ → ℚ
  | (a, p, q) => mul (rnd a) (M.cos (add (rnd (p / 10 ^ 9)) (mul t.v (rnd (q / 10 ^ 9)))))

/-- a row of `__XL1[i]` (`lunar_python/util/ShouXingUtil.py` 443) -/
def mTerm (t t2 t3 t4 : Fl M) : ℤ × ℤ × ℤ × ℤ × ℤ × ℤ → ℚ
  | (a, p, q, r, s, u) => mul (rnd (a / 10 ^ 7)) (M.cos (add (add (add (add (rnd (p / 10 ^ 8)) (mul t.v (rnd (q / 10 ^ 9))))
      (mul t2.v (rnd (r / 10 ^ 7)))) (mul t3.v (rnd (s / 10 ^ 4)))) (mul t4.v (rnd (u / 10 ^ 6)))))

/-- Python floats; `x % 1` is `fmod(x, 1)`, with 1 added when that is negative -/
instance (M : Libm) : FloatLike (Fl M) where
  add x y := ⟨F64.add x.v y.v⟩
  sub x y := ⟨F64.sub x.v y.v⟩
  mul x y := ⟨F64.mul x.v y.v⟩
  div x y := ⟨F64.div x.v y.v⟩
  lit m e := ⟨F64.rnd (m / 10 ^ e)⟩
  sin x := ⟨M.sin x.v⟩
  cos x := ⟨M.cos x.v⟩
  sel a b x y := if a.v < b.v then x else y
  frac x := ⟨F64.rnd (x.v - ⌊x.v⌋)⟩
  eGroup n i t := ⟨(((XL0 i).take (eCount n i (XL0 i).length)).map (eTerm t)).foldl F64.add 0⟩
  mGroup n i t t2 t3 t4 := ⟨(((XL1 i).take (mCount n i (XL1 i).length)).map (mTerm t t2 t3 t4)).foldl F64.add 0⟩

end Fl
