import Verif.Proof.JulianDay

/-! `getJulianDay`, `getWeek`, `fromJulianDay` versus the integer day number. -/

namespace JD
open F64 Spec Solar Cal

/-- exact (rational) Julian day of a moment -/
def jdQ (s : Solar) : ℚ := (jdn s.date : ℚ) - 1 / 2 + (secs s : ℚ) / 86400

/-- the integer summands of `getJulianDay` -/
def baseZ (x : Date) : ℤ := 1461 * (my x + 4716) / 4 + (306001 * (mm x + 1)) / 10000

theorem getJulianDay_unfold {s : Solar} (h : s.Valid) (h0 : -4715 ≤ s.year) (h1 : s.year ≤ 9999) :
    s.getJulianDay = rnd (rnd (rnd ((baseZ s.date : ℚ) + dayFraction s) + corr s.date) - 3049 / 2) := by
  have ht := trunc_dayFraction h
  have hg := greg_iff h.1
  obtain ⟨⟨m1, m2, d1, d2, d3⟩, _⟩ := h
  unfold getJulianDay
  simp only [ht]
  have e1 : (((if s.month ≤ 2 then s.year - 1 else s.year : ℤ) : ℚ) + 4716)
      = ((my s.date + 4716 : ℤ) : ℚ) := by unfold my Solar.date; push_cast; rfl
  have e2 : (if s.month ≤ 2 then s.month + 12 else s.month) = mm s.date := rfl
  have e3 : (if s.month ≤ 2 then s.year - 1 else s.year) = my s.date := rfl
  have hm3 : 3 ≤ mm s.date ∧ mm s.date ≤ 14 := by
    unfold mm; simp only [Solar.date] at *; split_ifs <;> omega
  have hy : s.year - 1 ≤ my s.date ∧ my s.date ≤ s.year := by
    unfold my; simp only [Solar.date] at *; split_ifs <;> omega
  rw [e1, trunc_365 (by omega) (by omega), e2, trunc_30 hm3.1 hm3.2, e3]
  have hcorr : (if (decide (s.year * 372 + s.month * 31 + s.day ≥ 588829)) = true then
      2 - (my s.date).tdiv 100 + ((my s.date).tdiv 100).tdiv 4 else 0) = corr s.date := by
    have hco : corr s.date = if s.year * 372 + s.month * 31 + s.day ≥ 588829 then
      2 - my s.date / 100 + my s.date / 100 / 4 else 0 := rfl
    have hg' : s.year * 372 + s.month * 31 + s.day ≥ 588829 ↔
      (1582 < s.year ∨ (s.year = 1582 ∧ (10 < s.month ∨ (s.month = 10 ∧ 4 < s.day)))) := hg
    rw [hco]
    by_cases c : s.year * 372 + s.month * 31 + s.day ≥ 588829
    · have hy' : 0 ≤ my s.date := by have := hg'.1 c; omega
      rw [if_pos (by simpa using c), if_pos c, Int.tdiv_eq_ediv_of_nonneg hy',
        Int.tdiv_eq_ediv_of_nonneg (Int.ediv_nonneg hy' (by norm_num))]
    · rw [if_neg (by simpa using c), if_neg c]
  rw [hcorr]
  rfl

theorem jdn_split (x : Date) : jdn x = baseZ x + x.d + corr x - 1524 := rfl

theorem corr_bounds {x : Date} (h0 : -4715 ≤ x.y) (h1 : x.y ≤ 9999) : -100 ≤ corr x ∧ corr x ≤ 100 := by
  unfold corr my; split_ifs <;> omega

theorem baseZ_bounds {x : Date} (h : x.Valid) (h0 : -4715 ≤ x.y) (h1 : x.y ≤ 9999) :
    0 ≤ baseZ x ∧ baseZ x ≤ 5400000 := by
  obtain ⟨m1, m2, d1, d2, d3⟩ := h
  unfold baseZ my mm; split_ifs <;> omega

theorem jd_err {s : Solar} (h : s.Valid) (h0 : -4715 ≤ s.year) (h1 : s.year ≤ 9999) :
    |s.getJulianDay - jdQ s| ≤ 1 / 2 ^ 28 := by
  rw [getJulianDay_unfold h h0 h1]
  have hdf := dayFraction_err h
  have hb := baseZ_bounds h.1 h0 h1
  have hc := corr_bounds (x := s.date) h0 h1
  have hd := day_bounds h
  have hs := secs_bounds h
  have b1 : (0 : ℚ) ≤ baseZ s.date := by exact_mod_cast hb.1
  have b2 : (baseZ s.date : ℚ) ≤ 5400000 := by exact_mod_cast hb.2
  have c1 : (-100 : ℚ) ≤ corr s.date := by exact_mod_cast hc.1
  have c2 : (corr s.date : ℚ) ≤ 100 := by exact_mod_cast hc.2
  have d1 : (1 : ℚ) ≤ s.day := by exact_mod_cast hd.1
  have d2 : (s.day : ℚ) ≤ 31 := by exact_mod_cast hd.2
  have s1 : (0 : ℚ) ≤ secs s := by exact_mod_cast hs.1
  have s2 : (secs s : ℚ) ≤ 86399 := by exact_mod_cast hs.2
  have eJ : jdQ s = baseZ s.date + dayQ s + corr s.date - 3049 / 2 := by
    unfold jdQ dayQ
    rw [jdn_split]
    push_cast
    show (baseZ s.date : ℚ) + (s.day : ℚ) + _ - _ - _ + _ = _
    ring
  have hdq : dayQ s = s.day + (secs s : ℚ) / 86400 := rfl
  rw [abs_le, hdq] at hdf
  have es : (40 : ℚ) / 2 ^ 53 ≤ 1 / 2 ^ 47 := by norm_num
  have es47 : (1 : ℚ) / 2 ^ 47 ≤ 1 / 1000000 := by norm_num
  have n1 : |rnd ((baseZ s.date : ℚ) + dayFraction s) - (baseZ s.date + dayQ s)| ≤ 1 / 2 ^ 47 + 2 ^ 23 / 2 ^ 53 := by
    apply rnd_near
    · rw [hdq, abs_le]; constructor <;> linarith
    · rw [abs_le]; constructor <;> norm_num <;> linarith
  generalize rnd ((baseZ s.date : ℚ) + dayFraction s) = v1 at *
  have e23 : (1 : ℚ) / 2 ^ 47 + 2 ^ 23 / 2 ^ 53 ≤ 1 / 100000000 := by norm_num
  have n2 : |rnd (v1 + corr s.date) - (baseZ s.date + dayQ s + corr s.date)| ≤ (1 / 2 ^ 47 + 2 ^ 23 / 2 ^ 53) + 2 ^ 23 / 2 ^ 53 := by
    apply rnd_near
    · have : v1 + corr s.date - (baseZ s.date + dayQ s + corr s.date) = v1 - (baseZ s.date + dayQ s) := by ring
      rw [this]; exact n1
    · rw [abs_le, hdq] at n1
      rw [abs_le]; constructor <;> norm_num <;> linarith
  generalize rnd (v1 + corr s.date) = v2 at *
  have e24 : (1 / 2 ^ 47 + 2 ^ 23 / 2 ^ 53) + 2 ^ 23 / 2 ^ 53 ≤ (1 / 100000000 : ℚ) := by norm_num
  have n3 : |rnd (v2 - 3049 / 2) - jdQ s| ≤ ((1 / 2 ^ 47 + 2 ^ 23 / 2 ^ 53) + 2 ^ 23 / 2 ^ 53) + 2 ^ 23 / 2 ^ 53 := by
    apply rnd_near
    · have : v2 - 3049 / 2 - jdQ s = v2 - (baseZ s.date + dayQ s + corr s.date) := by rw [eJ]; ring
      rw [this]; exact n2
    · rw [abs_le, hdq] at n2
      rw [abs_le]; constructor <;> norm_num <;> linarith
  refine n3.trans ?_
  norm_num

/-- exactness at midnight, 6:00, noon, 18:00 -/
theorem jd_exact {s : Solar} (h : s.Valid) (h0 : -4715 ≤ s.year) (h1 : s.year ≤ 9999)
    (h6 : s.hour % 6 = 0) (hm : s.minute = 0) (hs : s.second = 0) : s.getJulianDay = jdQ s := by
  rw [getJulianDay_unfold h h0 h1, dayFraction_exact h h6 hm hs]
  have hb := baseZ_bounds h.1 h0 h1
  have hc := corr_bounds (x := s.date) h0 h1
  have hd := day_bounds h
  have hck := h.2
  unfold ClockOk at hck
  obtain ⟨k, hk⟩ : ∃ k, s.hour = 6 * k := ⟨s.hour / 6, by omega⟩
  have hdq : dayQ s = ((4 * s.day + k : ℤ) : ℚ) / 4 := by
    unfold dayQ secs; rw [hm, hs, hk]; push_cast; ring
  have e1 : (baseZ s.date : ℚ) + ((4 * s.day + k : ℤ) : ℚ) / 4 = ((4 * baseZ s.date + (4 * s.day + k) : ℤ) : ℚ) / 4 := by
    push_cast; ring
  rw [hdq, e1, rnd_quarter (by rw [abs_le]; omega)]
  have e2 : ((4 * baseZ s.date + (4 * s.day + k) : ℤ) : ℚ) / 4 + (corr s.date : ℚ)
      = ((4 * baseZ s.date + (4 * s.day + k) + 4 * corr s.date : ℤ) : ℚ) / 4 := by push_cast; ring
  rw [e2, rnd_quarter (by rw [abs_le]; omega)]
  have e3 : ((4 * baseZ s.date + (4 * s.day + k) + 4 * corr s.date : ℤ) : ℚ) / 4 - 3049 / 2
      = ((4 * baseZ s.date + (4 * s.day + k) + 4 * corr s.date - 6098 : ℤ) : ℚ) / 4 := by push_cast; ring
  rw [e3, rnd_quarter (by rw [abs_le]; omega)]
  unfold jdQ secs
  rw [jdn_split, hm, hs, hk]
  show _ = ((baseZ s.date + s.day + corr s.date - 1524 : ℤ) : ℚ) - _ + _
  push_cast
  ring

theorem jdn_bounds {x : Date} (h : x.Valid) (h0 : -4715 ≤ x.y) (h1 : x.y ≤ 9999) :
    -2000 ≤ jdn x ∧ jdn x ≤ 5400000 := by
  have hb := baseZ_bounds h h0 h1
  have hc := corr_bounds h0 h1
  have hlb := lastDay_bounds x.y x.m
  obtain ⟨m1, m2, d1, d2, d3⟩ := h
  rw [jdn_split]; omega

theorem jdn_nonneg {x : Date} (h : x.Valid) (h0 : -4712 ≤ x.y) : 0 ≤ jdn x := by
  obtain ⟨m1, m2, d1, d2, d3⟩ := h
  unfold jdn corr my mm; split_ifs <;> omega

/-- the double `getJulianDay() + 0.5` and its relation to the integer day number -/
theorem jd_half {s : Solar} (h : s.Valid) (h0 : -4712 ≤ s.year) (h1 : s.year ≤ 9999) :
    |add s.getJulianDay (1 / 2) - (jdn s.date + (secs s : ℚ) / 86400)| ≤ 1 / 2 ^ 27 ∧
    (secs s = 0 → add s.getJulianDay (1 / 2) = jdn s.date) := by
  have hjb := jdn_bounds h.1 (by simp only [Solar.date]; omega) h1
  have hs := secs_bounds h
  have j1 : (-2000 : ℚ) ≤ jdn s.date := by exact_mod_cast hjb.1
  have j2 : (jdn s.date : ℚ) ≤ 5400000 := by exact_mod_cast hjb.2
  have s1 : (0 : ℚ) ≤ secs s := by exact_mod_cast hs.1
  have s2 : (secs s : ℚ) ≤ 86399 := by exact_mod_cast hs.2
  constructor
  · have he := jd_err h (by omega) h1
    have hq : jdQ s = (jdn s.date : ℚ) - 1 / 2 + (secs s : ℚ) / 86400 := rfl
    rw [hq, abs_le] at he
    have e28 : (1 : ℚ) / 2 ^ 28 ≤ 1 / 100 := by norm_num
    have : |rnd (s.getJulianDay + 1 / 2) - (jdn s.date + (secs s : ℚ) / 86400)| ≤ 1 / 2 ^ 28 + 2 ^ 23 / 2 ^ 53 := by
      apply rnd_near
      · rw [abs_le]; constructor <;> linarith
      · rw [abs_le]; constructor <;> norm_num <;> linarith
    refine this.trans ?_
    norm_num
  · intro hz
    have hc := h.2
    unfold ClockOk at hc
    have hz' := hz
    unfold secs at hz'
    rw [jd_exact h (by omega) h1 (by omega) (by omega) (by omega)]
    unfold jdQ add
    rw [hz]
    have : (jdn s.date : ℚ) - 1 / 2 + ((0 : ℤ) : ℚ) / 86400 + 1 / 2 = (jdn s.date : ℚ) := by
      push_cast; ring
    rw [this, rnd_int]
    rw [abs_le]; omega

theorem trunc_jd_half {s : Solar} (h : s.Valid) (h0 : -4712 ≤ s.year) (h1 : s.year ≤ 9999) :
    trunc (add s.getJulianDay (1 / 2)) = jdn s.date := by
  obtain ⟨he, hz⟩ := jd_half h h0 h1
  have hn := jdn_nonneg h.1 h0
  have hs := secs_bounds h
  by_cases c : secs s = 0
  · rw [hz c]; apply trunc_eq hn <;> simp
  · have s1 : (1 : ℚ) ≤ secs s := by exact_mod_cast (by omega : 1 ≤ secs s)
    have s2 : (secs s : ℚ) ≤ 86399 := by exact_mod_cast hs.2
    rw [abs_le] at he
    have e27 : (1 : ℚ) / 2 ^ 27 ≤ 1 / 1000000 := by norm_num
    apply trunc_eq hn <;> linarith

theorem getWeek_eq {s : Solar} (h : s.Valid) (h0 : -4712 ≤ s.year) (h1 : s.year ≤ 9999) :
    s.getWeek = (jdn s.date + 1) % 7 := by
  unfold getWeek
  rw [trunc_jd_half h h0 h1]
  omega

end JD
