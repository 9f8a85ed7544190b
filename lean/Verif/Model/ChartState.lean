import Verif.Model.LunarDay

/-! # The chart of a `Lunar` as an object

`Lunar.getEightChar` keeps the chart it makes (`lunar_python/Lunar.py` 686-689), and `EightChar.setSect` changes the object, so the answers of
`Lunar.getBaZi...` depend on earlier calls.  Here: one `Lunar` and all the charts made from it, known by the order in which they were made. -/

/-- the charts made from one `Lunar`, by their fields `__sect` (`lunar_python/EightChar.py` 28), and the position of the one that the `Lunar` keeps
(`lunar_python/Lunar.py` 32: `None` at first) -/
structure ChartHeap where
  sects : List ℤ := []
  kept : Option ℕ := none
  deriving DecidableEq, Repr

namespace ChartHeap

/-- `lunar_python/EightChar.py` 27-33 the constructor and `fromLunar`: a new chart -/
def fromLunar (h : ChartHeap) : ChartHeap × ℕ := ({ h with sects := h.sects ++ [2] }, h.sects.length)

/-- `lunar_python/Lunar.py` 686-689 `getEightChar` -/
def getEightChar (h : ChartHeap) : ChartHeap × ℕ :=
  match h.kept with
  | some i => (h, i)
  | none =>
    let (h', i) := h.fromLunar
    ({ h' with kept := some i }, i)

/-- `lunar_python/EightChar.py` 44-45 `setSect` of the chart made as number `i` -/
def setSect (h : ChartHeap) (i : ℕ) (sect : ℤ) : ChartHeap := { h with sects := h.sects.set i sect }

/-- the object number `i` as `EightChar` (`lunar_python/EightChar.py` 27-29) -/
def chart (h : ChartHeap) (l : Lunar) (i : ℕ) : EightChar := ⟨h.sects.getD i 2, l⟩

/-- `lunar_python/Lunar.py` 691-693 `getBaZi`, which calls `getEightChar` -/
def getBaZi (h : ChartHeap) (l : Lunar) : ChartHeap × Except PyErr (List PyStr) :=
  let (h', i) := h.getEightChar
  let e := h'.chart l i
  (h', do return [← e.get .year, ← e.get .month, ← e.get .day, ← e.get .time])

/-- `lunar_python/Lunar.py` 711-721 `getBaZiShiShenYearZhi` and the three others, which call `getEightChar` -/
def getBaZiShiShenOfZhi (h : ChartHeap) (l : Lunar) (p : Pos) : ChartHeap × Except PyErr (List (Option PyStr)) :=
  let (h', i) := h.getEightChar
  (h', (h'.chart l i).getShiShenZhi p)

/-- calls by a program: making a chart, asking the `Lunar` for its chart or for the pillars, `setSect` of a chart made before -/
inductive Call
  | fromLunar
  | getEightChar
  | getBaZi
  | setSect (i : ℕ) (sect : ℤ)

/-- one call (`lunar_python/Lunar.py` 686-693, `lunar_python/EightChar.py` 31-45) -/
def call (h : ChartHeap) : Call → ChartHeap
  | .fromLunar => h.fromLunar.1
  | .getEightChar => h.getEightChar.1
  | .getBaZi => h.getEightChar.1
  | .setSect i sect => h.setSect i sect

/-- a program -/
def run (h : ChartHeap) (cs : List Call) : ChartHeap := cs.foldl call h

end ChartHeap
