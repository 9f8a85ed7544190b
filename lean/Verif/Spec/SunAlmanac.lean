import Verif.Spec.Almanac

/-! # What is assumed of the solar terms of neighbouring years

`Solar.fromBaZi` starts from the table of one year and checks what it finds with the table of another.  That the tables
agree depends on the astronomical series of `ShouXingUtil.py`, so it is stated here as a
hypothesis on `A : Astro`.  `Sample.sunAlmanac` shows that it can be met, C84 that the library meets it in 1584-6890. -/

open Spec

/-- The tables of the years `lo .. hi` are cut from one sequence of solar terms, and lunar years begin in the solar
year of the same number. -/
structure SunAlmanac {A : Astro} {lo hi : ℤ} (H : Almanac A lo hi) : Prop where
  /-- the last seven terms of a table are the first seven of the next -/
  overlap : ∀ Y, lo ≤ Y → Y < hi → ∀ jq jq', Lunar.computeJieQi (LunarYear.make A Y).jieQiJulianDays = .ok jq →
    Lunar.computeJieQi (LunarYear.make A (Y + 1)).jieQiJulianDays = .ok jq' → ∀ i : ℕ, i < 7 → jq[24 + i]? = jq'[i]?
  /-- a table begins in the year before its own, and its second Li Chun is in the year after -/
  ends : ∀ Y, lo ≤ Y → Y ≤ hi → ∀ jq, Lunar.computeJieQi (LunarYear.make A Y).jieQiJulianDays = .ok jq →
    (∀ s, jq[0]? = some s → s.year = Y - 1) ∧ ∀ s, jq[28]? = some s → s.year = Y + 1
  /-- there are less than 59 days from one Jie to the next -/
  short : ∀ Y, lo ≤ Y → Y ≤ hi → ∀ jq, Lunar.computeJieQi (LunarYear.make A Y).jieQiJulianDays = .ok jq →
    ∀ (i : ℕ) (a b : Solar) (n : ℤ), jq[2 * i]? = some a → jq[2 * i + 2]? = some b → DaysAfter n a.date b.date → n < 59
  /-- the first month of a lunar year begins in the solar year of the same number -/
  newYear : ∀ Y, lo ≤ Y → Y ≤ hi → ∃ k x, H.key k = (Y, 1) ∧ x.Valid ∧ IsDay (H.first k) x ∧ x.y = Y
  /-- the days of solar year `Y` belong to the lunar years `Y - 1` and `Y` -/
  behind : ∀ Y, lo ≤ Y → Y ≤ hi → ∀ k x n, x.Valid → x.y = Y → IsDay n x → H.first k ≤ n → n < H.first (k + 1) →
    (H.key k).1 = Y ∨ (H.key k).1 = Y - 1
