import Verif.Props.YearLength

/-! # C124: how often there is a leap month

Twelve lunar months are some eleven days short of a year, so that leap months have to make up for seven lunar months in nineteen years.
The library has no rule of this kind: it looks for a month without a principal term, year by year.  That the leap years nevertheless come
as often as they should, and neither two in a row nor four years late, is a fact about all years together. -/

section
open Spec LunarYear ShouXing Ephem

variable {M : Libm}

/-- how many of the `n` lunar years from `Y` on have a leap month: `LunarYear.getLeapMonth`, `lunar_python/LunarYear.py` 186-194 -/
def leapYears (A : Astro) (Y : ℤ) (n : ℕ) : ℕ := ((List.range n).filter fun i : ℕ => (make A (Y + i)).getLeapMonth ≠ 0).length

theorem leapYears_succ (A : Astro) (Y : ℤ) (n : ℕ) :
    leapYears A Y (n + 1) = leapYears A Y n + if (make A (Y + n)).getLeapMonth ≠ 0 then 1 else 0 := by
  unfold leapYears
  rw [List.range_succ, List.filter_append, List.length_append]
  congr 1
  by_cases h : (make A (Y + n)).getLeapMonth = 0 <;> simp [h]

/-- the New Year of `Y` in the sequence of all months -/
private theorem newYear (hM : M.Good) {Y : ℤ} (h1 : 1585 ≤ Y) (h2 : Y ≤ 4999) {k : ℤ} (hk : (almanac (full hM)).key k = (Y, 1)) :
    JD.jdn ⟨Y, 1, 1⟩ + 18 ≤ (almanac (full hM)).first k ∧ (almanac (full hM)).first k ≤ JD.jdn ⟨Y, 1, 1⟩ + 51 ∧
    29.5306 * (k : ℚ) + 0.6 ≤ (almanac (full hM)).first k - 2451545 ∧ ((almanac (full hM)).first k : ℚ) - 2451545 ≤ 29.5306 * k + 7.4 := by
  obtain ⟨k0, hk0, r1, r2, -⟩ := newYear_possible hM h1 h2
  obtain ⟨k1, n, n12, s1, s2, -, -, hk1, -⟩ := lunar_year hM h1 (by omega : Y ≤ 6888)
  obtain rfl : k0 = k := (almanac (full hM)).key_inj _ _ (hk0.trans hk.symm)
  obtain rfl : k1 = k0 := (almanac (full hM)).key_inj _ _ (hk1.trans hk.symm)
  have B := (full hM).toFacts
  have e := first_eq B (Y := Y) (by omega) (by omega) (i := k1 - start B Y) (by omega) (by omega)
  rw [add_sub_cancel] at e
  obtain ⟨-, -, q1, q2, -⟩ := start_spec B (Y := Y) (by omega) (by omega)
  have y1 : (1585 : ℚ) ≤ Y := by exact_mod_cast h1
  have y2 : (Y : ℚ) ≤ 4999 := by exact_mod_cast h2
  have s1 : (start B Y : ℚ) ≤ k1 := by exact_mod_cast s1
  have s2 : (k1 : ℚ) ≤ start B Y + 3 := by
    have : k1 ≤ start B Y + 3 := by omega
    exact_mod_cast this
  obtain ⟨b1, b2⟩ := B.toBins.n k1 (by push_cast; linarith) (by push_cast; linarith)
  change _ ∧ _ ∧ _ ≤ ((first B k1 : ℤ) : ℚ) - 2451545 ∧ ((first B k1 : ℤ) : ℚ) - 2451545 ≤ _
  refine ⟨r1, r2, ?_, ?_⟩ <;> rw [e] <;> unfold J2000 <;> push_cast <;> linarith

/-- `n` lunar years -/
theorem Ephem.years_months (hM : M.Good) {Y : ℤ} (h1 : 1585 ≤ Y) (n : ℕ) (h2 : Y + n ≤ 4999) : ∃ k k' : ℤ,
    (almanac (full hM)).key k = (Y, 1) ∧ (almanac (full hM)).key k' = (Y + n, 1) ∧ k' = k + 12 * n + leapYears (astro M) Y n ∧
    353 * (n : ℤ) + 30 * leapYears (astro M) Y n ≤ (almanac (full hM)).first k' - (almanac (full hM)).first k ∧
    (almanac (full hM)).first k' - (almanac (full hM)).first k ≤ 355 * (n : ℤ) + 30 * leapYears (astro M) Y n := by
  induction n with
  | zero =>
    obtain ⟨k, -, hk, -⟩ := (sunAlmanac (full hM)).newYear Y (by omega) (by omega)
    have z : leapYears (astro M) Y 0 = 0 := rfl
    refine ⟨k, k, hk, by rw [hk]; simp, by rw [z]; simp, ?_, ?_⟩ <;> rw [z] <;> simp
  | succ n ih =>
    push_cast at h2
    obtain ⟨k, k', e, e', i1, i2, i3⟩ := ih (by omega)
    obtain ⟨j, m, q1, q2, q3, q4, q5⟩ := year_days hM (Y := Y + n) (by omega) (by omega)
    obtain ⟨a, b⟩ := C93_day_count hM (Y + n) (by omega) (by omega)
    obtain rfl : j = k' := (almanac (full hM)).key_inj _ _ (q3.trans e'.symm)
    refine ⟨k, j + m, e, by rw [q4]; push_cast; ring_nf, ?_⟩
    rw [leapYears_succ]
    by_cases h : (make (astro M) (Y + n)).getLeapMonth = 0
    · have := a h
      rw [if_neg (not_not.2 h)]
      push_cast
      omega
    · have := b h
      rw [if_pos h]
      push_cast
      omega

/-- 1 January of a year, within a day and a half -/
private theorem jan (Y : ℤ) (hY : 1584 ≤ Y) :
    146097 * Y + 688424000 - 289 ≤ 400 * JD.jdn ⟨Y, 1, 1⟩ ∧ 400 * JD.jdn ⟨Y, 1, 1⟩ ≤ 146097 * Y + 688424000 + 591 := by
  have key : ∀ y : ℤ, 97 * y - 592 ≤ 400 * (y / 4 - y / 100 + y / 100 / 4) ∧ 400 * (y / 4 - y / 100 + y / 100 / 4) ≤ 97 * y + 288 := by
    intro y
    obtain ⟨c, r, r0, r1, rfl⟩ : ∃ c r : ℤ, 0 ≤ r ∧ r < 100 ∧ y = 100 * c + r := ⟨y / 100, y % 100, by omega, by omega, by omega⟩
    rw [show (100 * c + r) / 4 = 25 * c + r / 4 by omega, show (100 * c + r) / 100 = c by omega]
    omega
  have k := key (Y - 1)
  unfold JD.jdn JD.corr JD.my JD.mm
  rw [JD.h365]
  norm_num
  rw [if_pos (by omega)]
  omega

/-- **C124** among `n` lunar years the number of those with a leap month is that by which `n` years exceed `12 n` months, up to one and a half -/
theorem C124_share (hM : M.Good) (Y : ℤ) (n : ℕ) (h1 : 1585 ≤ Y) (h2 : Y + n ≤ 4999) :
    |29.5306 * (leapYears (astro M) Y n : ℚ) - (365.2425 - 12 * 29.5306) * n| ≤ 42 := by
  obtain ⟨k, k', e, e', a, -⟩ := years_months hM h1 n h2
  obtain ⟨b1, b2, b3, b4⟩ := newYear hM h1 (by omega) e
  obtain ⟨c1, c2, c3, c4⟩ := newYear hM (by omega) h2 e'
  obtain ⟨i1, i2⟩ := jan Y (by omega)
  obtain ⟨j1, j2⟩ := jan (Y + n) (by omega)
  have a : (k' : ℚ) = k + 12 * n + leapYears (astro M) Y n := by exact_mod_cast a
  have d1 : (365 * (n : ℤ) * 400 + 97 * n - 880) - 400 * 33 ≤ 400 * ((almanac (full hM)).first k' - (almanac (full hM)).first k) := by omega
  have d2 : 400 * ((almanac (full hM)).first k' - (almanac (full hM)).first k) ≤ (365 * (n : ℤ) * 400 + 97 * n + 880) + 400 * 33 := by omega
  have d1 : (365 * (n : ℚ) * 400 + 97 * n - 880) - 400 * 33 ≤ 400 * ((almanac (full hM)).first k' - (almanac (full hM)).first k) := by exact_mod_cast d1
  have d2 : 400 * (((almanac (full hM)).first k' : ℚ) - (almanac (full hM)).first k) ≤ (365 * (n : ℚ) * 400 + 97 * n + 880) + 400 * 33 := by exact_mod_cast d2
  rw [abs_le]
  constructor <;> linarith

/-- the three thousand years from 1900 on have 1104, 1105 or 1106 leap months -/
example : 1104 ≤ leapYears (astro Libm.cut) 1900 3000 ∧ leapYears (astro Libm.cut) 1900 3000 ≤ 1106 := by
  have h := abs_le.1 (C124_share Libm.cut_good 1900 3000 (by norm_num) (by norm_num))
  push_cast at h
  generalize leapYears (astro Libm.cut) 1900 3000 = L at h
  constructor
  · by_contra c
    have : (L : ℚ) ≤ 1103 := by exact_mod_cast (by omega : L ≤ 1103)
    linarith
  · by_contra c
    have : (1107 : ℚ) ≤ L := by exact_mod_cast (by omega : 1107 ≤ L)
    linarith

/-- **C124** nineteen lunar years in a row have six, seven or eight leap months -/
theorem C124_nineteen (hM : M.Good) (Y : ℤ) (h1 : 1585 ≤ Y) (h2 : Y ≤ 4980) :
    6 ≤ leapYears (astro M) Y 19 ∧ leapYears (astro M) Y 19 ≤ 8 := by
  have h := abs_le.1 (C124_share hM Y 19 h1 (by push_cast; omega))
  push_cast at h
  generalize leapYears (astro M) Y 19 = L at h
  constructor
  · by_contra c
    have : (L : ℚ) ≤ 5 := by exact_mod_cast (by omega : L ≤ 5)
    linarith
  · by_contra c
    have : (9 : ℚ) ≤ L := by exact_mod_cast (by omega : 9 ≤ L)
    linarith

/-- the years 2020 to 2038 -/
example : 6 ≤ leapYears (astro Libm.cut) 2020 19 := (C124_nineteen Libm.cut_good 2020 (by norm_num) (by norm_num)).1

/-- **C124** after a year with a leap month comes one without -/
theorem C124_never_twice (hM : M.Good) (Y : ℤ) (h1 : 1585 ≤ Y) (h2 : Y ≤ 4997) (h : (make (astro M) Y).getLeapMonth ≠ 0) :
    (make (astro M) (Y + 1)).getLeapMonth = 0 := by
  by_contra c
  obtain ⟨k, k', e, e', -, a, -⟩ := years_months hM h1 2 (by push_cast; omega)
  obtain ⟨b1, -, -, -⟩ := newYear hM h1 (by omega) e
  obtain ⟨-, c2, -, -⟩ := newYear hM (by push_cast; omega) (by push_cast; omega) e'
  have l : leapYears (astro M) Y 2 = 2 := by
    rw [leapYears_succ, leapYears_succ, if_pos (by simpa using h), if_pos (by simpa using c)]
    rfl
  have i := (jan Y (by omega)).1
  have j := (jan (Y + 2) (by omega)).2
  rw [l] at a
  push_cast at a c2
  omega

/-- **C124** of four lunar years in a row one has a leap month -/
theorem C124_within_four (hM : M.Good) (Y : ℤ) (h1 : 1585 ≤ Y) (h2 : Y ≤ 4995) :
    ∃ i : ℕ, i < 4 ∧ (make (astro M) (Y + i)).getLeapMonth ≠ 0 := by
  by_contra c
  push Not at c
  have h := abs_le.1 (C124_share hM Y 4 h1 (by push_cast; omega))
  have l : leapYears (astro M) Y 4 = 0 := by
    unfold leapYears
    rw [List.length_eq_zero_iff, List.filter_eq_nil_iff]
    intro i hi
    simpa using c i (List.mem_range.1 hi)
  rw [l] at h
  push_cast at h
  linarith

/-- a year with a leap month and the next, without one, are among the five from 2500 on -/
example : ∃ Y : ℤ, 2500 ≤ Y ∧ Y < 2504 ∧ (make (astro Libm.cut) Y).getLeapMonth ≠ 0 ∧ (make (astro Libm.cut) (Y + 1)).getLeapMonth = 0 := by
  obtain ⟨i, h, e⟩ := C124_within_four Libm.cut_good 2500 (by norm_num) (by norm_num)
  exact ⟨2500 + i, by omega, by omega, e, C124_never_twice Libm.cut_good _ (by omega) (by omega) e⟩

end
