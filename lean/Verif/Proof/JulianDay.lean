import Verif.Proof.SolarBasic
import Verif.Proof.F64
import Mathlib.Tactic.IntervalCases

/-! Error analysis of `getJulianDay` and the link to the integer day number. -/

namespace JD
open F64 Spec Solar Cal

theorem rnd_near {x y ε B : ℚ} (h : |x - y| ≤ ε) (hB : |x| ≤ B) : |rnd x - y| ≤ ε + B / 2 ^ 53 := by
  have h1 := abs_rnd_sub_le hB
  have : rnd x - y = (rnd x - x) + (x - y) := by ring
  rw [this]
  calc _ ≤ |rnd x - x| + |x - y| := abs_add_le _ _
    _ ≤ _ := by linarith

/-- seconds of the day -/
def secs (s : Solar) : ℤ := s.hour * 3600 + s.minute * 60 + s.second

/-- exact day with fraction -/
def dayQ (s : Solar) : ℚ := s.day + (secs s : ℚ) / 86400

theorem day_bounds {s : Solar} (h : s.Valid) : 1 ≤ s.day ∧ s.day ≤ 31 := by
  have := lastDay_bounds s.year s.month
  have h3 := h.1.2.2.1
  have h4 := h.1.2.2.2.1
  simp only [Solar.date] at *
  omega

theorem dayFraction_err {s : Solar} (h : s.Valid) : |dayFraction s - dayQ s| ≤ 40 / 2 ^ 53 := by
  obtain ⟨hd1, hd2⟩ := day_bounds h
  obtain ⟨_, hc⟩ := h
  unfold ClockOk at hc
  obtain ⟨a1, a2, b1, b2, c1, c2⟩ := hc
  have a1' : (0 : ℚ) ≤ s.hour := by exact_mod_cast a1
  have a2' : (s.hour : ℚ) ≤ 23 := by exact_mod_cast a2
  have b1' : (0 : ℚ) ≤ s.minute := by exact_mod_cast b1
  have b2' : (s.minute : ℚ) ≤ 59 := by exact_mod_cast b2
  have c1' : (0 : ℚ) ≤ s.second := by exact_mod_cast c1
  have c2' : (s.second : ℚ) ≤ 59 := by exact_mod_cast c2
  have d1' : (1 : ℚ) ≤ s.day := by exact_mod_cast hd1
  have d2' : (s.day : ℚ) ≤ 31 := by exact_mod_cast hd2
  unfold dayFraction add div dayQ secs
  set e : ℚ := 1 / 2 ^ 53 with he
  have epos : 0 < e := by rw [he]; positivity
  have esmall : e < 1 / 1000000 := by rw [he]; norm_num
  have E : ∀ B : ℚ, B / 2 ^ 53 = B * e := fun B => by rw [he]; ring
  have s1 : |rnd ((s.second : ℚ) / 60) - s.second / 60| ≤ 1 * e := by
    rw [← E]; apply abs_rnd_sub_le; rw [abs_le]; constructor <;> linarith
  set q1 := rnd ((s.second : ℚ) / 60)
  rw [abs_le] at s1
  have s2 : |rnd (q1 + s.minute) - (s.second / 60 + s.minute)| ≤ 1 * e + 64 * e := by
    rw [← E 64]
    apply rnd_near
    · rw [abs_le]; constructor <;> linarith
    · rw [abs_le]; constructor <;> linarith
  set q2 := rnd (q1 + s.minute)
  rw [abs_le] at s2
  have s3 : |rnd (q2 / 60) - (s.second / 60 + s.minute) / 60| ≤ 2 * e + 3 * e := by
    rw [← E 3]
    apply rnd_near
    · rw [abs_le]; constructor <;> linarith
    · rw [abs_le]; constructor <;> linarith
  set q3 := rnd (q2 / 60)
  rw [abs_le] at s3
  have s4 : |rnd (q3 + s.hour) - ((s.second / 60 + s.minute) / 60 + s.hour)| ≤ 5 * e + 32 * e := by
    rw [← E 32]
    apply rnd_near
    · rw [abs_le]; constructor <;> linarith
    · rw [abs_le]; constructor <;> linarith
  set q4 := rnd (q3 + s.hour)
  rw [abs_le] at s4
  have s5 : |rnd (q4 / 24) - ((s.second / 60 + s.minute) / 60 + s.hour) / 24| ≤ 2 * e + 3 * e := by
    rw [← E 3]
    apply rnd_near
    · rw [abs_le]; constructor <;> linarith
    · rw [abs_le]; constructor <;> linarith
  set q5 := rnd (q4 / 24)
  rw [abs_le] at s5
  have s6 : |rnd ((s.day : ℚ) + q5) - (s.day + ((s.second / 60 + s.minute) / 60 + s.hour) / 24)|
      ≤ 5 * e + 35 * e := by
    rw [← E 35]
    apply rnd_near
    · rw [abs_le]; constructor <;> linarith
    · rw [abs_le]; constructor <;> linarith
  have e1 : (s.day + ((s.second / 60 + s.minute) / 60 + s.hour) / 24 : ℚ)
      = s.day + ((s.hour * 3600 + s.minute * 60 + s.second : ℤ) : ℚ) / 86400 := by
    push_cast; ring
  rw [e1] at s6
  rw [E]
  linarith

theorem secs_bounds {s : Solar} (h : s.Valid) : 0 ≤ secs s ∧ secs s ≤ 86399 := by
  have := clock_bounds h; unfold secs; omega

/-- at midnight, 6:00, noon, 18:00 the fraction is exact -/
theorem dayFraction_exact {s : Solar} (h : s.Valid) (h6 : s.hour % 6 = 0) (hm : s.minute = 0)
    (hs : s.second = 0) : dayFraction s = dayQ s := by
  obtain ⟨hd1, hd2⟩ := day_bounds h
  obtain ⟨_, hc⟩ := h
  unfold ClockOk at hc
  unfold dayFraction add div dayQ secs
  rw [hm, hs]
  have z : rnd (((0 : ℤ) : ℚ) / 60) = 0 := by simp
  rw [z]
  have z2 : rnd ((0 : ℚ) + ((0 : ℤ) : ℚ)) = 0 := by simp
  rw [z2, zero_div, rnd_zero, zero_add, rnd_int (by rw [abs_le]; omega)]
  obtain ⟨k, hk⟩ : ∃ k, s.hour = 6 * k := ⟨s.hour / 6, by omega⟩
  have e : ((s.hour : ℤ) : ℚ) / 24 = (k : ℚ) / 4 := by rw [hk]; push_cast; ring
  rw [e, rnd_quarter (by rw [abs_le]; omega)]
  have e2 : (s.day : ℚ) + (k : ℚ) / 4 = ((4 * s.day + k : ℤ) : ℚ) / 4 := by push_cast; ring
  rw [e2, rnd_quarter (by rw [abs_le]; omega), hk]
  push_cast; ring

theorem trunc_dayFraction {s : Solar} (h : s.Valid) : trunc (dayFraction s) = s.day := by
  have hb := secs_bounds h
  have hd := day_bounds h
  by_cases h0 : secs s = 0
  · have hc := h.2
    unfold ClockOk at hc; unfold secs at h0
    rw [dayFraction_exact h (by omega) (by omega) (by omega)]
    have : secs s = 0 := h0
    unfold dayQ; rw [this]
    apply trunc_eq (by omega) <;> simp
  · have he := dayFraction_err h
    rw [abs_le] at he
    unfold dayQ at he
    have l1 : (1 : ℚ) ≤ secs s := by exact_mod_cast (by omega : 1 ≤ secs s)
    have l2 : (secs s : ℚ) ≤ 86399 := by exact_mod_cast hb.2
    have e1 : (40 : ℚ) / 2 ^ 53 < 1 / 1000000 := by norm_num
    apply trunc_eq (by omega) <;> linarith

/-! ### the integer part -/

theorem trunc_365 {k : ℤ} (h0 : 0 ≤ k) (h1 : k ≤ 100000) :
    trunc (mul (1461 / 4) (k : ℚ)) = 1461 * k / 4 := by
  unfold mul
  have e : (1461 / 4 : ℚ) * k = ((1461 * k : ℤ) : ℚ) / 4 := by push_cast; ring
  rw [e, rnd_quarter (by rw [abs_le]; omega)]
  have hdm := Int.emod_add_mul_ediv (1461 * k) 4
  have r0 := Int.emod_nonneg (1461 * k) (by norm_num : (4 : ℤ) ≠ 0)
  have r1 := Int.emod_lt_of_pos (1461 * k) (by norm_num : (0 : ℤ) < 4)
  have q : ((1461 * k : ℤ) : ℚ) = ((1461 * k % 4 : ℤ) : ℚ) + 4 * ((1461 * k / 4 : ℤ) : ℚ) := by
    exact_mod_cast hdm.symm
  have r0' : (0 : ℚ) ≤ ((1461 * k % 4 : ℤ) : ℚ) := by exact_mod_cast r0
  have r1' : ((1461 * k % 4 : ℤ) : ℚ) < 4 := by exact_mod_cast r1
  apply trunc_eq (by omega)
  · rw [q]; linarith
  · rw [q]; linarith

/-- month offset table: `int(30.6001 * (m + 1))` for `3 ≤ m ≤ 14` -/
theorem trunc_30 {m : ℤ} (h0 : 3 ≤ m) (h1 : m ≤ 14) :
    trunc (mul c30_6001 ((m : ℚ) + 1)) = (306001 * (m + 1)) / 10000 := by
  have hc : |c30_6001 - 306001 / 10000| ≤ 31 / 2 ^ 53 := by
    unfold c30_6001; apply abs_rnd_sub_le; rw [abs_le]; constructor <;> norm_num
  rw [abs_le] at hc
  have hm0 : (3 : ℚ) ≤ m := by exact_mod_cast h0
  have hm1 : (m : ℚ) ≤ 14 := by exact_mod_cast h1
  have es : (31 : ℚ) / 2 ^ 53 ≤ 1 / 10 ^ 12 := by norm_num
  have hprod : |c30_6001 * (m + 1) - 306001 / 10000 * (m + 1)| ≤ 15 / 10 ^ 12 := by
    rw [abs_le]; constructor <;> nlinarith
  have hpb : |c30_6001 * ((m : ℚ) + 1)| ≤ 500 := by
    rw [abs_le]; constructor <;> nlinarith
  have key := rnd_near hprod hpb
  have es2 : (15 : ℚ) / 10 ^ 12 + 500 / 2 ^ 53 ≤ 1 / 10 ^ 10 := by norm_num
  have key2 : |mul c30_6001 ((m : ℚ) + 1) - 306001 / 10000 * (m + 1)| ≤ 1 / 10 ^ 10 := key.trans es2
  generalize mul c30_6001 ((m : ℚ) + 1) = v at key2
  rw [abs_le] at key2
  interval_cases m <;> norm_num at key2 ⊢ <;> apply trunc_eq <;> norm_num <;> linarith

/-- March-based year / month -/
def my (x : Date) : ℤ := if x.m ≤ 2 then x.y - 1 else x.y
def mm (x : Date) : ℤ := if x.m ≤ 2 then x.m + 12 else x.m

/-- Gregorian correction as in the code -/
def corr (x : Date) : ℤ :=
  if x.y * 372 + x.m * 31 + x.d ≥ 588829 then 2 - my x / 100 + my x / 100 / 4 else 0

/-- integer Julian day number of a date -/
def jdn (x : Date) : ℤ :=
  1461 * (my x + 4716) / 4 + (306001 * (mm x + 1)) / 10000 + x.d + corr x - 1524

theorem h365 (Y : ℤ) : 1461 * (Y + 4716) / 4 = 365 * Y + Y / 4 + 1722519 := by omega

/-- year start plus leap day, in March-based form -/
theorem yearStart_leap (y : ℤ) : yearStart y + (if SolarUtil.isLeapYear y then 1 else 0) =
    365 * y + y / 4 + 1 + (if y ≤ 1582 then 0 else 2 - y / 100 + y / 100 / 4) := by
  have hl := isLeapYear_iff y
  unfold Leap at hl
  unfold yearStart
  generalize hL : SolarUtil.isLeapYear y = L at *
  cases L <;> simp only [true_iff, false_iff, Bool.false_eq_true, if_true, if_false] at * <;>
    split_ifs at * <;> omega

theorem yearStart_prev (y : ℤ) : yearStart y =
    365 * (y - 1) + (y - 1) / 4 + 366 +
      (if y ≤ 1582 then 0 else 2 - (y - 1) / 100 + (y - 1) / 100 / 4) := by
  unfold yearStart
  split_ifs <;> omega

theorem greg_iff {x : Date} (h : x.Valid) : x.y * 372 + x.m * 31 + x.d ≥ 588829 ↔
    (1582 < x.y ∨ (x.y = 1582 ∧ (10 < x.m ∨ (x.m = 10 ∧ 4 < x.d)))) := by
  obtain ⟨h1, h2, h3, h4, h5⟩ := h
  have := lastDay_bounds x.y x.m
  omega

theorem jdn_eq {x : Date} (h : x.Valid) : jdn x = dn x + 1721057 := by
  have hg := greg_iff h
  obtain ⟨h1, h2, h3, h4, h5⟩ := h
  have hy1 := yearStart_leap x.y
  have hy2 := yearStart_prev x.y
  unfold jdn corr my mm dn dayNo monthStart
  simp only [h365, hg]
  by_cases hm : x.m ≤ 2
  · have hc : cum x.y x.m = if x.m = 1 then 0 else 31 := by
      unfold cum cum0
      rcases (by omega : x.m = 1 ∨ x.m = 2) with h | h <;> rw [h] <;> simp
    have ho : ord x.y x.m x.d = x.d := by unfold ord; rw [if_neg (by omega)]
    rw [hc, ho]
    simp only [hm, if_true]
    rcases (by omega : x.m = 1 ∨ x.m = 2) with h | h <;> rw [h] at * <;> norm_num at * <;>
      split_ifs at * <;> omega
  · simp only [hm, if_false]
    have hc : cum x.y x.m = 306001 * (x.m + 1) / 10000 - 63 +
        (if SolarUtil.isLeapYear x.y then 1 else 0) - (if x.y = 1582 ∧ 10 < x.m then 10 else 0) := by
      unfold cum
      have : cum0 x.m = 306001 * (x.m + 1) / 10000 - 63 := by
        unfold cum0
        rcases months12 h1 h2 with h | h | h | h | h | h | h | h | h | h | h | h <;> rw [h] at hm ⊢ <;>
          omega
      rw [this]
      have : 2 < x.m := by omega
      simp only [this, true_and]
    rw [hc]
    unfold ord
    generalize (if SolarUtil.isLeapYear x.y then (1 : ℤ) else 0) = L at *
    generalize 306001 * (x.m + 1) / 10000 = K at *
    split_ifs at * <;> omega

theorem jdn_example : jdn ⟨2000, 1, 1⟩ = 2451545 := by decide

end JD
