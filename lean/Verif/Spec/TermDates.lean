import Mathlib.Data.Int.Notation
import Mathlib.Data.Nat.Notation

/-! # On which days of the solar year the 24 terms fall

The first and the last possible day of the month, in the order of the year: entries `2 k - 2` and `2 k - 1` are the two terms of
solar month `k` (小寒 and 大寒 of January, 立春 and 雨水 of February, ...). -/

namespace Spec

/-- in the years 1961 to 2099 -/
def usualDays : List (ℕ × ℕ) :=
  [(4, 6), (19, 21), (3, 5), (18, 20), (4, 6), (19, 21), (4, 5), (19, 21), (4, 6), (20, 22), (4, 6), (20, 22),
   (6, 8), (21, 24), (6, 8), (22, 24), (6, 8), (22, 24), (7, 9), (22, 24), (6, 8), (21, 23), (6, 8), (21, 22)]

/-- in the years 1584 to 2731 -/
def rareDays : List (ℕ × ℕ) :=
  [(4, 7), (19, 22), (3, 5), (18, 20), (4, 7), (19, 22), (3, 6), (19, 21), (4, 7), (19, 22), (4, 7), (20, 23),
   (5, 8), (21, 24), (6, 9), (21, 24), (6, 9), (21, 24), (7, 10), (22, 25), (6, 9), (21, 23), (6, 8), (20, 23)]

/-- in the years 1584 to 6891 -/
def possibleDays : List (ℕ × ℕ) :=
  [(3, 7), (18, 22), (2, 5), (17, 20), (3, 7), (18, 22), (2, 6), (17, 21), (2, 7), (17, 22), (1, 7), (16, 23),
   (1, 8), (16, 24), (1, 9), (16, 24), (1, 9), (16, 24), (2, 10), (18, 25), (2, 9), (18, 23), (3, 8), (19, 23)]

end Spec
