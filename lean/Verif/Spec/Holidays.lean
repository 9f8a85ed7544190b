import Mathlib.Data.List.Basic
import Mathlib.Data.Int.Notation

/-!
# What a holiday table is

A table is a list of records; its text is the concatenation of the 18-character texts
`YYYYMMDD` name-index work-flag `YYYYMMDD` (documentation of `HolidayUtil.fix`).
-/

namespace Spec

/-- one record -/
structure HRec where
  /-- day, `YYYYMMDD` -/
  day : List Char
  /-- name index as a character counted from `'0'` -/
  nameCh : Char
  /-- `'0'` = working day -/
  workCh : Char
  /-- day of the festival, `YYYYMMDD` -/
  target : List Char
  deriving DecidableEq

/-- the 18 characters of a record -/
def HRec.text (r : HRec) : List Char := r.day ++ r.nameCh :: r.workCh :: r.target

/-- the text of a table -/
def tableText (t : List HRec) : List Char := (t.map HRec.text).flatten

/-- a well-formed record for `k` names -/
structure HRec.Ok (k : ℕ) (r : HRec) : Prop where
  dayLen : r.day.length = 8
  targetLen : r.target.length = 8
  dayDash : '-' ∉ r.day
  targetDash : '-' ∉ r.target
  lo : 48 ≤ r.nameCh.toNat
  hi : r.nameCh.toNat < 48 + k

/-- `YYYY-MM-DD` -/
def dashed (s : List Char) : List Char := s.take 4 ++ '-' :: ((s.drop 4).take 2 ++ '-' :: s.drop 6)

/-- decimal digit -/
def digitCh (n : ℤ) : Char := Char.ofNat (48 + (n % 10).toNat)

/-- `YYYYMMDD` of a date with a 4-digit year -/
def ymd8 (y m d : ℤ) : List Char :=
  [digitCh (y / 1000), digitCh (y / 100), digitCh (y / 10), digitCh y,
    digitCh (m / 10), digitCh m, digitCh (d / 10), digitCh d]

end Spec
