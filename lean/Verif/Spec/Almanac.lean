import Verif.Model.LunarYear
import Verif.Spec.JulianDate
import Verif.Proof.Pillars

/-! # What is assumed of the astronomical functions

`LunarYear.compute` lists 15 months for each year, and neighbouring lists overlap.  The conversions
between the calendars are right only if the lists are cut from one sequence of months.  That depends on
the astronomical series of `ShouXingUtil.py`, so it is stated here as a hypothesis on `A : Astro` for a range of years.
`Sample.almanac` shows in a simple way that it can be met; C84 (`Props/Library.lean`) proves it of the functions of the
library itself for the years 1584 to 6890. -/

open Spec

/-- The lists of the years `lo .. hi` are windows of one sequence of lunar months, numbered by
integers `k`: `key k` is the name (year, number) of month `k`, `first k` the Julian day number of its
first day, `start Y` the number of the month with which the list of year `Y` begins. -/
structure Almanac (A : Astro) (lo hi : ℤ) where
  key : ℤ → ℤ × ℤ
  first : ℤ → ℤ
  start : ℤ → ℤ
  /-- months have at least one day -/
  first_lt : ∀ k, first k < first (k + 1)
  /-- no two months have the same name -/
  key_inj : ∀ j k, key j = key k → j = k
  /-- the list of a year is a stretch of the sequence -/
  window : ∀ Y, lo ≤ Y → Y ≤ hi → ∀ i : ℕ, i < 15 → ∃ m, (LunarYear.make A Y).months[i]? = some m ∧
    (m.year, m.month) = key (start Y + i) ∧ m.firstJulianDay = first (start Y + i) ∧
    m.dayCount = first (start Y + i + 1) - first (start Y + i)
  /-- the months of a lunar year are in the list of that year -/
  home : ∀ k, lo ≤ (key k).1 → (key k).1 ≤ hi → start (key k).1 ≤ k ∧ k < start (key k).1 + 15
  /-- neighbouring lists overlap -/
  overlap : ∀ Y, lo ≤ Y → Y < hi → start Y < start (Y + 1) ∧ start (Y + 1) ≤ start Y + 14
  /-- the days of solar year `Y` are in the months of the list of year `Y` -/
  covers : ∀ Y, lo ≤ Y → Y ≤ hi → ∀ x n, x.Valid → x.y = Y → IsDay n x →
    first (start Y) ≤ n ∧ n < first (start Y + 15)
  /-- these months belong to the lunar years `Y - 1`, `Y`, `Y + 1` -/
  near : ∀ Y, lo ≤ Y → Y ≤ hi → ∀ i : ℕ, i < 15 → Y - 1 ≤ (key (start Y + i)).1 ∧ (key (start Y + i)).1 ≤ Y + 1
  /-- the days of lunar year `Y` lie in the solar years `Y - 1`, `Y`, `Y + 1` -/
  near' : ∀ k, lo ≤ (key k).1 → (key k).1 ≤ hi → ∀ x n, x.Valid → IsDay n x → first k ≤ n → n < first (k + 1) →
    (key k).1 - 1 ≤ x.y ∧ x.y ≤ (key k).1 + 1
  /-- no Julian day number is negative -/
  nonneg : ∀ Y, lo ≤ Y → Y ≤ hi → 0 ≤ first (start Y)
  /-- the instants of the solar terms make a proper table -/
  terms : ∀ Y, lo ≤ Y → Y ≤ hi → ∃ jq, Lunar.computeJieQi (LunarYear.make A Y).jieQiJulianDays = .ok jq ∧
    Lunar.TermTable Y jq
