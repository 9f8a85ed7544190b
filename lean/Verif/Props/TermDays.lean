import Verif.Proof.SunDay.Recent
import Verif.Props.LeapRule
import Verif.Props.Library

/-! # C117: the months follow the dates of the table of solar terms

The months are laid out with the days `calcQi` gives the principal terms, found with a short series unless the term comes out
near midnight; the table a caller gets is computed with the long one.  The two agree on the day from 1961 on, unless the
instant the table tells is within 20 seconds of midnight; from 1961 to 2099 they always agree. -/

section
open Spec LunarYear ShouXing

variable {M : Libm}

/-- **C117** the date of a principal term in the table is the day the months are laid out with, unless it is within 20 seconds of midnight;
then it can be the next day if just after midnight, the day before if just before -/
theorem C117_days (hM : M.Good) (s : Solar) (hs : s.Valid) (h1 : 1961 ≤ s.year) (h2 : s.year ≤ 2998) (l : Lunar)
    (hl : Lunar.fromSolar (astro M) s = .ok l) (j : ℕ) (hj : j ≤ 12) (p : Solar) (hp : l.jieQi[2 * j + 1]? = some p) :
    IsDay (principal (astro M) s.year j) p.date ∨
    IsDay (principal (astro M) s.year j + 1) p.date ∧ p.hour = 0 ∧ p.minute = 0 ∧ p.second < 20 ∨
    IsDay (principal (astro M) s.year j - 1) p.date ∧ p.hour = 23 ∧ p.minute = 59 ∧ 40 ≤ p.second := by
  obtain ⟨v, h⟩ := SunDay.principal_day hM hs h1 h2 hl hj hp
  rw [isDay_iff v.1, isDay_iff v.1, isDay_iff v.1]
  have c := v.2
  unfold ClockOk at c
  omega

/-- **C117** so for a term clear of midnight the day is the same -/
theorem C117_same_day (hM : M.Good) (s : Solar) (hs : s.Valid) (h1 : 1961 ≤ s.year) (h2 : s.year ≤ 2998) (l : Lunar)
    (hl : Lunar.fromSolar (astro M) s = .ok l) (j : ℕ) (hj : j ≤ 12) (p : Solar) (hp : l.jieQi[2 * j + 1]? = some p) (hc : ClearOfMidnight p) :
    IsDay (principal (astro M) s.year j) p.date := by
  unfold ClearOfMidnight at hc
  rcases C117_days hM s hs h1 h2 l hl j hj p hp with a | ⟨-, a⟩ | ⟨-, a⟩
  · exact a
  · omega
  · omega

private theorem solstice (hM : M.Good) (s : Solar) (hs : s.Valid) (h1 : 1961 ≤ s.year) (h2 : s.year ≤ 2998) (l : Lunar)
    (hl : Lunar.fromSolar (astro M) s = .ok l) (p : Solar) (hp : l.jieQi[25]? = some p) (d : IsDay (principal (astro M) s.year 12) p.date) :
    ∃ l', Lunar.fromSolar (astro M) p = .ok l' ∧ l'.year = s.year ∧ l'.month = 11 := by
  obtain ⟨v, -⟩ := SunDay.principal_day hM hs h1 h2 hl (j := 12) le_rfl hp
  have d' := (isDay_iff v.1).1 d
  have B := (Ephem.full hM).toFacts
  -- the year of the solstice
  have py : 1584 < p.year ∧ p.year < 6890 := by
    obtain ⟨-, -, -, -, t⟩ := Ephem.made hM hs (by omega) (by omega) hl
    rw [t 25 (by norm_num)] at hp
    cases hp
    have n1 : (1961 : ℚ) ≤ s.year := by exact_mod_cast h1
    have n2 : (s.year : ℚ) ≤ 2998 := by exact_mod_cast h2
    constructor
    · have := Ephem.moment_ge (Ephem.full hM) (n := 24 * (s.year - 2000) + 17 + (25 : ℕ)) (y := 1961 - 1) (by omega) (by omega) (by norm_num) (by norm_num)
        (by push_cast; linarith)
      omega
    · have := Ephem.moment_le (Ephem.full hM) (n := 24 * (s.year - 2000) + 17 + (25 : ℕ)) (y := 3000) (by omega) (by omega) (by norm_num) (by norm_num)
        (by push_cast; linarith)
      omega
  obtain ⟨l', e, -, -, -, -, k, f4, f5, f6, f7⟩ := C38_round_trip (Ephem.almanac (Ephem.full hM)) p v py.1 py.2
  obtain ⟨n, a, -, -, c, -⟩ := Ephem.leap_rule B (Y := s.year) (by omega) (by omega)
  obtain ⟨m, w1, w2, w3, w4⟩ := Ephem.window B (Y := s.year) (by omega) (by omega) (i := n) (by omega)
  obtain ⟨c1, c2, c3⟩ := c m w1
  rw [isDay_iff v.1] at f7
  rw [c1] at w2
  -- the months are the same
  have mono := (Ephem.almanac (Ephem.full hM)).first_lt
  have g1 : (Ephem.almanac (Ephem.full hM)).first = Ephem.first B := rfl
  have g2 : (Ephem.almanac (Ephem.full hM)).key = Ephem.key B := rfl
  rw [g1] at f6 f7 mono
  rw [g2] at f4
  have sm : StrictMono (Ephem.first B) := strictMono_int_of_lt_succ mono
  have q1 : Ephem.first B k < Ephem.first B (Ephem.start B s.year + n + 1) := by omega
  have q2 : Ephem.first B (Ephem.start B s.year + n) < Ephem.first B (k + 1) := by omega
  have q1 := sm.lt_iff_lt.1 q1
  have q2 := sm.lt_iff_lt.1 q2
  have : k = Ephem.start B s.year + n := by omega
  rw [this, ← w2, Prod.mk.injEq] at f4
  exact ⟨l', e, f4⟩

private theorem leap_rule (hM : M.Good) (s : Solar) (hs : s.Valid) (h1 : 1961 ≤ s.year) (h2 : s.year ≤ 2998) (l : Lunar)
    (hl : Lunar.fromSolar (astro M) s = .ok l) (hc : ∀ j ≤ 12, ∀ p, l.jieQi[2 * j + 1]? = some p → IsDay (principal (astro M) s.year j) p.date) :
    ∃ n : ℕ, (n = 12 ∨ n = 13) ∧
      (n = 13 → ∃ i m, i < 13 ∧ (make (astro M) s.year).months[i]? = some m ∧ m.isLeap = true) ∧
      ∀ i < n, ∀ m, (make (astro M) s.year).months[i]? = some m → (m.isLeap = true ↔ n = 13 ∧ ¬ HoldsTerm l m ∧
        ∀ i' < i, ∀ m', (make (astro M) s.year).months[i']? = some m' → HoldsTerm l m') := by
  obtain ⟨n, a, -, -, b, c⟩ := C85_leap_rule hM s.year (by omega) (by omega)
  have key : ∀ m, HoldsTerm l m ↔ HasPrincipal (astro M) s.year m := by
    intro m
    obtain ⟨-, -, -, -, t⟩ := Ephem.made hM hs (by omega) (by omega) hl
    constructor
    · rintro ⟨j, hj, p, d, hp, hd, hm⟩
      obtain ⟨v, -⟩ := SunDay.principal_day hM hs h1 h2 hl hj hp
      have e := hc j hj p hp
      rw [isDay_iff v.1] at e hd
      exact ⟨j, hj, by rw [e, ← hd]; exact hm⟩
    · rintro ⟨j, hj, hm⟩
      have hp := t (2 * j + 1) (by omega)
      exact ⟨j, hj, _, _, hp, hc j hj _ hp, hm⟩
  refine ⟨n, a, b, fun i hi m hm => ?_⟩
  rw [c i hi m hm, key]
  simp only [key]

/-- **C117** the lunar date of the winter solstice of a year is in the eleventh month of that year, which is no leap month -/
theorem C117_solstice (hM : M.Good) (s : Solar) (hs : s.Valid) (h1 : 1961 ≤ s.year) (h2 : s.year ≤ 2998) (l : Lunar)
    (hl : Lunar.fromSolar (astro M) s = .ok l) (p : Solar) (hp : l.jieQi[25]? = some p) (hc : ClearOfMidnight p) :
    ∃ l', Lunar.fromSolar (astro M) p = .ok l' ∧ l'.year = s.year ∧ l'.month = 11 := by
  exact solstice hM s hs h1 h2 l hl p hp (C117_same_day hM s hs h1 h2 l hl 12 le_rfl p hp hc)

/-- **C117** the rule for leap months by the dates of the table, in a year whose principal terms are all clear of midnight: from one
solstice to the next there are twelve or thirteen months; if thirteen, the leap month is the first of them that holds none of the terms -/
theorem C117_leap_rule (hM : M.Good) (s : Solar) (hs : s.Valid) (h1 : 1961 ≤ s.year) (h2 : s.year ≤ 2998) (l : Lunar)
    (hl : Lunar.fromSolar (astro M) s = .ok l) (hc : ∀ j ≤ 12, ∀ p, l.jieQi[2 * j + 1]? = some p → ClearOfMidnight p) :
    ∃ n : ℕ, (n = 12 ∨ n = 13) ∧
      (n = 13 → ∃ i m, i < 13 ∧ (make (astro M) s.year).months[i]? = some m ∧ m.isLeap = true) ∧
      ∀ i < n, ∀ m, (make (astro M) s.year).months[i]? = some m → (m.isLeap = true ↔ n = 13 ∧ ¬ HoldsTerm l m ∧
        ∀ i' < i, ∀ m', (make (astro M) s.year).months[i']? = some m' → HoldsTerm l m') := by
  exact leap_rule hM s hs h1 h2 l hl (fun j hj p hp => C117_same_day hM s hs h1 h2 l hl j hj p hp (hc j hj p hp))

/-- **C117** from 1961 to 2099 the day is always the same -/
theorem C117_recent_days (hM : M.Good) (s : Solar) (hs : s.Valid) (h1 : 1961 ≤ s.year) (h2 : s.year ≤ 2099) (l : Lunar)
    (hl : Lunar.fromSolar (astro M) s = .ok l) (j : ℕ) (hj : j ≤ 12) (p : Solar) (hp : l.jieQi[2 * j + 1]? = some p) :
    IsDay (principal (astro M) s.year j) p.date := by
  obtain ⟨v, -⟩ := SunDay.principal_day hM hs h1 (by omega) hl hj hp
  exact (isDay_iff v.1).2 (SunDay.principal_recent hM hs h1 h2 hl hj hp).symm

/-- **C117** and the winter solstice always in the eleventh month -/
theorem C117_recent_solstice (hM : M.Good) (s : Solar) (hs : s.Valid) (h1 : 1961 ≤ s.year) (h2 : s.year ≤ 2099) (l : Lunar)
    (hl : Lunar.fromSolar (astro M) s = .ok l) (p : Solar) (hp : l.jieQi[25]? = some p) :
    ∃ l', Lunar.fromSolar (astro M) p = .ok l' ∧ l'.year = s.year ∧ l'.month = 11 :=
  solstice hM s hs h1 (by omega) l hl p hp (C117_recent_days hM s hs h1 h2 l hl 12 le_rfl p hp)

/-- **C117** and the leap months are by the dates of the table -/
theorem C117_recent_leap_rule (hM : M.Good) (s : Solar) (hs : s.Valid) (h1 : 1961 ≤ s.year) (h2 : s.year ≤ 2099) (l : Lunar)
    (hl : Lunar.fromSolar (astro M) s = .ok l) :
    ∃ n : ℕ, (n = 12 ∨ n = 13) ∧
      (n = 13 → ∃ i m, i < 13 ∧ (make (astro M) s.year).months[i]? = some m ∧ m.isLeap = true) ∧
      ∀ i < n, ∀ m, (make (astro M) s.year).months[i]? = some m → (m.isLeap = true ↔ n = 13 ∧ ¬ HoldsTerm l m ∧
        ∀ i' < i, ∀ m', (make (astro M) s.year).months[i']? = some m' → HoldsTerm l m') :=
  leap_rule hM s hs h1 (by omega) l hl (fun j hj p hp => C117_recent_days hM s hs h1 h2 l hl j hj p hp)

/-- in 2028 the principal terms are all clear of midnight, by the hours they fall in -/
private theorem clear_2028 (l : Lunar) (hl : Lunar.fromSolar (astro Libm.cut) ⟨2028, 7, 1, 12, 0, 0⟩ = .ok l) :
    ∀ j ≤ 12, ∀ p, l.jieQi[2 * j + 1]? = some p → ClearOfMidnight p := by
  intro j hj p hp
  have H : ∀ j ≤ 12, SunDay.hourOk (690 + 2 * (j : ℕ)) ([245218, 245925, 246635, 247354, 248085, 248828, 249580, 250334, 251086, 251827, 252557, 253274, 253984].getD j 0) = true ∧
      1 ≤ [245218, 245925, 246635, 247354, 248085, 248828, 249580, 250334, 251086, 251827, 252557, 253274, 253984].getD j (0 : ℤ) % 24 ∧
      [245218, 245925, 246635, 247354, 248085, 248828, 249580, 250334, 251086, 251827, 252557, 253274, 253984].getD j (0 : ℤ) % 24 ≤ 22 := by decide +kernel
  obtain ⟨a, b, c⟩ := H j hj
  obtain ⟨-, -, -, -, t⟩ := Ephem.made Libm.cut_good (by decide) (by decide) (by decide) hl
  clear H
  rw [t _ (by omega)] at hp
  have hp := Option.some.inj hp
  have e : (24 * ((2028 : ℤ) - 2000) + 17 + ((2 * j + 1 : ℕ) : ℤ)) = 690 + 2 * j := by push_cast; ring
  rw [← hp, e]
  exact SunDay.clear_of_hour Libm.cut_good (by rw [abs_le]; constructor <;> omega) (by omega) a b c

/-- the months of 2028, with its leap fifth month, follow the dates of the table -/
example : ∃ l n, Lunar.fromSolar (astro Libm.cut) ⟨2028, 7, 1, 12, 0, 0⟩ = .ok l ∧ (n = 12 ∨ n = 13) ∧
    ∀ i < n, ∀ m, (make (astro Libm.cut) 2028).months[i]? = some m → (m.isLeap = true ↔ n = 13 ∧ ¬ HoldsTerm l m ∧
        ∀ i' < i, ∀ m', (make (astro Libm.cut) 2028).months[i']? = some m' → HoldsTerm l m') := by
  obtain ⟨l, e, -⟩ := C84_round_trip Libm.cut_good ⟨2028, 7, 1, 12, 0, 0⟩ (by decide) (by decide) (by decide)
  obtain ⟨n, a, -, b⟩ := C117_leap_rule Libm.cut_good _ (by decide) (by decide) (by decide) l e (clear_2028 l e)
  exact ⟨l, n, e, a, b⟩

/-- the winter solstice of 2028 is in the eleventh month -/
example : ∃ l p l', Lunar.fromSolar (astro Libm.cut) ⟨2028, 7, 1, 12, 0, 0⟩ = .ok l ∧ l.jieQi[25]? = some p ∧
    Lunar.fromSolar (astro Libm.cut) p = .ok l' ∧ l'.year = 2028 ∧ l'.month = 11 := by
  obtain ⟨l, e, -⟩ := C84_round_trip Libm.cut_good ⟨2028, 7, 1, 12, 0, 0⟩ (by decide) (by decide) (by decide)
  obtain ⟨-, -, -, -, t⟩ := Ephem.made Libm.cut_good (by decide) (by decide) (by decide) e
  obtain ⟨l', a⟩ := C117_solstice Libm.cut_good _ (by decide) (by decide) (by decide) l e _ (t 25 (by norm_num))
    (clear_2028 l e 12 le_rfl _ (t 25 (by norm_num)))
  exact ⟨l, _, l', e, t 25 (by norm_num), a⟩

/-- the great cold of 1980, five seconds before midnight, is on the day the months were laid out with, and the months of 1980 follow the table -/
example : ∃ l p n, Lunar.fromSolar (astro Libm.cut) ⟨1980, 7, 1, 12, 0, 0⟩ = .ok l ∧ l.jieQi[3]? = some p ∧ IsDay (principal (astro Libm.cut) 1980 1) p.date ∧
    (n = 12 ∨ n = 13) ∧ ∀ i < n, ∀ m, (make (astro Libm.cut) 1980).months[i]? = some m → (m.isLeap = true ↔ n = 13 ∧ ¬ HoldsTerm l m ∧
        ∀ i' < i, ∀ m', (make (astro Libm.cut) 1980).months[i']? = some m' → HoldsTerm l m') := by
  obtain ⟨l, e, -⟩ := C84_round_trip Libm.cut_good ⟨1980, 7, 1, 12, 0, 0⟩ (by decide) (by decide) (by decide)
  obtain ⟨-, -, -, -, t⟩ := Ephem.made Libm.cut_good (by decide) (by decide) (by decide) e
  obtain ⟨n, a, -, b⟩ := C117_recent_leap_rule Libm.cut_good _ (by decide) (by decide) (by decide) l e
  exact ⟨l, _, n, e, t 3 (by norm_num), C117_recent_days Libm.cut_good _ (by decide) (by decide) (by decide) l e 1 (by norm_num) _ (t 3 (by norm_num)), a, b⟩

end
