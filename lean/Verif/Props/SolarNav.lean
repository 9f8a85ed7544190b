import Verif.Proof.SolarBasic

/-!
# Civil calendar: navigation, difference, order, validity

Property theorems C01-C04, C10-C14.  `Solar.Valid` = the civil date exists
(`Spec.Date.Valid`) and the clock time is a clock time.
-/

open Spec SolarUtil

/-- 1582-10-04 12:30:15, used in the examples below -/
def sampleA : Solar := ⟨1582, 10, 4, 12, 30, 15⟩
/-- 2000-02-29 23:59:59 -/
def sampleB : Solar := ⟨2000, 2, 29, 23, 59, 59⟩

example : sampleA.Valid ∧ sampleB.Valid := by decide

/-! ## C01 -/

/-- **C01** `next(n)` succeeds on every existing moment, gives an existing moment with the same
clock time, `n` civil days away by the specification's `tomorrow`. -/
theorem C01_next_is_iterated_tomorrow (s : Solar) (hs : s.Valid) (n : ℤ) :
    ∃ t, s.next n = .ok t ∧ t.Valid ∧ Solar.SameClock s t ∧ DaysAfter n s.date t.date := by
  obtain ⟨t, h1, h2, h3, h4⟩ := Cal.nextDay_spec hs n
  exact ⟨t, h1, h2, h3, (Cal.daysAfter_iff hs.1 h2.1 n).2 h4⟩

/-- **C01** the target is unique: `DaysAfter n` determines the existing date, so the previous
theorem pins the result of `next` completely. -/
theorem C01_daysAfter_unique (n : ℤ) (a b c : Date) (ha : a.Valid) (hb : b.Valid) (hc : c.Valid)
    (h1 : DaysAfter n a b) (h2 : DaysAfter n a c) : b = c := by
  rw [Cal.daysAfter_iff ha hb] at h1
  rw [Cal.daysAfter_iff ha hc] at h2
  exact Cal.dayNo_inj hb hc (by omega)

/-- **C01** the specification itself never leaves the calendar. -/
theorem C01_tomorrow_valid (a : Date) (ha : a.Valid) : (tomorrow a).Valid := (Cal.tomorrow_spec ha).1

example : sampleA.next 1 = .ok ⟨1582, 10, 15, 12, 30, 15⟩ :=
  Cal.next_eq (by decide) (by decide) 1 (by decide) (by decide)
example : sampleB.next (-60) = .ok ⟨1999, 12, 31, 23, 59, 59⟩ :=
  Cal.next_eq (by decide) (by decide) (-60) (by decide) (by decide)
example : (⟨1582, 10, 15, 0, 0, 0⟩ : Solar).next (-1) = .ok ⟨1582, 10, 4, 0, 0, 0⟩ :=
  Cal.next_eq (by decide) (by decide) _ (by decide) (by decide)

/-! ## C02 -/

/-- **C02** `next` is a group action of the integers on existing moments. -/
theorem C02_next_add (s : Solar) (hs : s.Valid) (a b : ℤ) :
    (s.next a >>= fun t => t.next b) = s.next (a + b) := by
  obtain ⟨t, h1, h2, h3, h4⟩ := Cal.nextDay_spec hs a
  obtain ⟨u, g1, g2, g3, g4⟩ := Cal.nextDay_spec h2 b
  rw [h1]
  show t.next b = _
  rw [g1]
  refine (Cal.next_eq hs g2 (a + b) ?_ (by omega)).symm
  unfold Solar.SameClock at *; omega

/-- **C02** -/
theorem C02_next_zero (s : Solar) (hs : s.Valid) : s.next 0 = .ok s :=
  Cal.next_eq hs hs 0 ⟨rfl, rfl, rfl⟩ (by omega)

/-- **C02** going back undoes going forward. -/
theorem C02_next_inverse (s : Solar) (hs : s.Valid) (n : ℤ) :
    (s.next n >>= fun t => t.next (-n)) = .ok s := by
  rw [C02_next_add s hs, show n + -n = 0 by omega, C02_next_zero s hs]

example : (sampleA.next 400 >>= fun t => t.next (-399)) = .ok ⟨1582, 10, 15, 12, 30, 15⟩ := by
  rw [C02_next_add _ (by decide)]
  exact Cal.next_eq (by decide) (by decide) _ (by decide) (by decide)

/-! ## C03 -/

/-- **C03** `b.subtract(a)` is the number of civil days from `a` to `b`. -/
theorem C03_subtract_is_distance (a b : Solar) (ha : a.Valid) (hb : b.Valid) :
    ∃ n, b.subtract a = .ok n ∧ DaysAfter n a.date b.date :=
  ⟨_, Cal.subtract_spec hb ha, (Cal.daysAfter_iff ha.1 hb.1 _).2 (by ring)⟩

/-- **C03** it is the unique `n` for which `a.next(n)` is on `b`'s date. -/
theorem C03_subtract_iff (a b : Solar) (ha : a.Valid) (hb : b.Valid) (n : ℤ) :
    b.subtract a = .ok n ↔ ∃ t, a.next n = .ok t ∧ t.date = b.date := by
  rw [Cal.subtract_spec hb ha]
  obtain ⟨t, h1, h2, _, h4⟩ := Cal.nextDay_spec ha n
  constructor
  · intro h
    have : Cal.dn b.date - Cal.dn a.date = n := by simpa using h
    exact ⟨t, h1, Cal.dayNo_inj h2.1 hb.1 (by omega)⟩
  · rintro ⟨u, g1, g2⟩
    rw [h1] at g1
    have : t = u := by simpa using g1
    subst this
    rw [← g2]; congr 1; omega

/-- **C03** antisymmetry. -/
theorem C03_subtract_antisymm (a b : Solar) (ha : a.Valid) (hb : b.Valid) (n : ℤ)
    (h : b.subtract a = .ok n) : a.subtract b = .ok (-n) := by
  rw [Cal.subtract_spec hb ha] at h
  rw [Cal.subtract_spec ha hb]
  have : Cal.dn b.date - Cal.dn a.date = n := by simpa using h
  congr 1; omega

/-- **C03** additivity. -/
theorem C03_subtract_add (a b c : Solar) (ha : a.Valid) (hb : b.Valid) (hc : c.Valid) (m n : ℤ)
    (h1 : b.subtract a = .ok m) (h2 : c.subtract b = .ok n) : c.subtract a = .ok (n + m) := by
  rw [Cal.subtract_spec hb ha] at h1
  rw [Cal.subtract_spec hc hb] at h2
  rw [Cal.subtract_spec hc ha]
  have e1 : Cal.dn b.date - Cal.dn a.date = m := by simpa using h1
  have e2 : Cal.dn c.date - Cal.dn b.date = n := by simpa using h2
  congr 1; omega

/-- **C03** zero exactly on equal dates. -/
theorem C03_subtract_zero_iff (a b : Solar) (ha : a.Valid) (hb : b.Valid) :
    b.subtract a = .ok 0 ↔ b.date = a.date := by
  rw [Cal.subtract_spec hb ha]
  constructor
  · intro h
    have : Cal.dn b.date - Cal.dn a.date = 0 := by simpa using h
    exact Cal.dayNo_inj hb.1 ha.1 (by omega)
  · intro h; rw [h]; congr 1; omega

example : sampleB.subtract sampleA = .ok 152444 := by
  rw [Cal.subtract_spec (by decide) (by decide)]; decide

/-! ## C04 -/

/-- **C04** `a.isBefore(b)` iff `b` is a positive number of seconds later. -/
theorem C04_isBefore_iff_seconds (a b : Solar) (ha : a.Valid) (hb : b.Valid) :
    a.isBefore b = true ↔ ∃ n > 0, SecondsAfter n a.date a.hour a.minute a.second
      b.date b.hour b.minute b.second := by
  rw [Cal.isBefore_iff ha hb]
  constructor
  · intro h
    exact ⟨Cal.secNo b - Cal.secNo a, by omega, (Cal.secondsAfter_iff ha hb _).2 (by ring)⟩
  · rintro ⟨n, hn, h⟩
    rw [Cal.secondsAfter_iff ha hb] at h; omega

/-- **C04** `isAfter` is the converse of `isBefore` (for any two objects). -/
theorem C04_isAfter_converse (a b : Solar) : a.isAfter b = b.isBefore a := Cal.isAfter_eq a b

/-- **C04** exactly one of before / equal / after. -/
theorem C04_trichotomy (a b : Solar) (ha : a.Valid) (hb : b.Valid) :
    (a.isBefore b = true ∧ a ≠ b ∧ a.isAfter b = false) ∨
    (a.isBefore b = false ∧ a = b ∧ a.isAfter b = false) ∨
    (a.isBefore b = false ∧ a ≠ b ∧ a.isAfter b = true) := by
  rw [Cal.isAfter_eq, ← Bool.not_eq_true, ← Bool.not_eq_true, Cal.isBefore_iff ha hb,
    Cal.isBefore_iff hb ha]
  have hne : a = b → Cal.secNo a = Cal.secNo b := fun h => by rw [h]
  rcases lt_trichotomy (Cal.secNo a) (Cal.secNo b) with h | h | h
  · left; exact ⟨h, fun e => by have := hne e; omega, by omega⟩
  · right; left; exact ⟨by omega, Cal.secNo_inj ha hb h, by omega⟩
  · right; right; exact ⟨by omega, fun e => by have := hne e; omega, h⟩

/-- **C04** transitivity. -/
theorem C04_trans (a b c : Solar) (ha : a.Valid) (hb : b.Valid) (hc : c.Valid)
    (h1 : a.isBefore b = true) (h2 : b.isBefore c = true) : a.isBefore c = true := by
  rw [Cal.isBefore_iff ha hb] at h1
  rw [Cal.isBefore_iff hb hc] at h2
  rw [Cal.isBefore_iff ha hc]
  omega

example : sampleA.isBefore sampleB = true ∧ sampleB.isAfter sampleA = true := by decide

/-! ## C10 -/

/-- **C10** `getDaysOfMonth` is the distance between consecutive firsts of month. -/
theorem C10_daysOfMonth (y m : ℤ) (h1 : 1 ≤ m) (h2 : m ≤ 12) :
    DaysAfter (getDaysOfMonth y m) ⟨y, m, 1⟩ (if m = 12 then ⟨y + 1, 1, 1⟩ else ⟨y, m + 1, 1⟩) := by
  have hv : (⟨y, m, 1⟩ : Date).Valid := by
    have := Cal.lastDay_bounds y m
    refine ⟨h1, h2, ?_, ?_, ?_⟩ <;> simp only <;> omega
  have hw : (if m = 12 then ⟨y + 1, 1, 1⟩ else ⟨y, m + 1, 1⟩ : Date).Valid := by
    split_ifs
    · have := Cal.lastDay_bounds (y + 1) 1
      refine ⟨?_, ?_, ?_, ?_, ?_⟩ <;> simp only <;> omega
    · have := Cal.lastDay_bounds y (m + 1)
      refine ⟨?_, ?_, ?_, ?_, ?_⟩ <;> simp only <;> omega
  rw [Cal.daysAfter_iff hv hw]
  split_ifs with h
  · subst h
    simp only [Cal.dn, Cal.dayNo, Cal.monthStart_year]
    have e1 : Cal.ord (y + 1) 1 1 = 1 := by unfold Cal.ord; rw [if_neg]; omega
    have e2 : Cal.ord y 12 1 = 1 := by unfold Cal.ord; rw [if_neg]; omega
    omega
  · simp only [Cal.dn, Cal.dayNo, Cal.monthStart_succ y m h1 (by omega)]
    have e1 : Cal.ord y (m + 1) 1 = 1 := by unfold Cal.ord; rw [if_neg]; omega
    have e2 : Cal.ord y m 1 = 1 := by unfold Cal.ord; rw [if_neg]; omega
    omega

theorem C10_jan1_valid (y : ℤ) : (⟨y, 1, 1⟩ : Date).Valid := by
  have := Cal.lastDay_bounds y 1
  refine ⟨?_, ?_, ?_, ?_, ?_⟩ <;> simp only <;> omega

theorem C10_jan1_dn (y : ℤ) : Cal.dn ⟨y, 1, 1⟩ = Cal.yearStart y + 1 := by
  simp only [Cal.dn, Cal.dayNo, Cal.monthStart, Cal.cum_one]
  have e1 : Cal.ord y 1 1 = 1 := by unfold Cal.ord; rw [if_neg]; omega
  omega

/-- **C10** `getDaysOfYear` is the distance between consecutive January firsts. -/
theorem C10_daysOfYear (y : ℤ) : DaysAfter (getDaysOfYear y) ⟨y, 1, 1⟩ ⟨y + 1, 1, 1⟩ := by
  rw [Cal.daysAfter_iff (C10_jan1_valid y) (C10_jan1_valid _), C10_jan1_dn, C10_jan1_dn,
    Cal.yearStart_succ]
  ring

/-- **C10** the twelve month lengths add up to the year length. -/
theorem C10_months_sum (y : ℤ) :
    ((pyRange 1 13).map (getDaysOfMonth y)).sum = getDaysOfYear y := by
  have h : pyRange 1 13 = [1, 2, 3, 4, 5, 6, 7, 8, 9, 10, 11, 12] := by decide
  rw [h]
  unfold getDaysOfMonth getDaysOfYear
  by_cases hy : y = 1582
  · subst hy; decide
  · cases isLeapYear y <;> simp [hy, daysOfMonthTable]

/-- **C10** `getDaysInYear` is the 1-based position of the date in its year. -/
theorem C10_daysInYear (x : Date) (h : x.Valid) :
    ∃ n, getDaysInYear x.y x.m x.d = .ok n ∧ DaysAfter (n - 1) ⟨x.y, 1, 1⟩ x ∧
      1 ≤ n ∧ n ≤ getDaysOfYear x.y := by
  refine ⟨_, Cal.getDaysInYear_spec h, ?_, ?_, ?_⟩
  · rw [Cal.daysAfter_iff (C10_jan1_valid _) h, C10_jan1_dn]; ring
  · have ho := Cal.valid_ord h
    have := Cal.MS_lt_add
    have hc : 0 ≤ Cal.cum x.y x.m := by
      unfold Cal.cum
      rcases Cal.months12 h.1 h.2.1 with h | h | h | h | h | h | h | h | h | h | h | h <;> rw [h] <;>
        simp only [Cal.cum0] <;> norm_num <;> split_ifs <;> omega
    simp only [Cal.dn, Cal.dayNo, Cal.monthStart]; omega
  · by_contra hcon
    have e : Cal.dn ⟨x.y + 1, 1, 1⟩ ≤ Cal.dn x := by
      rw [C10_jan1_dn, Cal.yearStart_succ]; omega
    have : Cal.dn x < Cal.dn ⟨x.y + 1, 1, 1⟩ :=
      Cal.dayNo_lt h (C10_jan1_valid _) (Or.inl (by simp only; omega))
    omega

/-- **C10** the labels 5..14 of October 1582 raise. -/
theorem C10_daysInYear_gap (d : ℤ) (h1 : 5 ≤ d) (h2 : d ≤ 14) :
    getDaysInYear 1582 10 d = .error .exception := by
  unfold getDaysInYear
  simp only [and_self, if_true]
  rw [if_neg (by omega), if_pos (by omega)]

example : getDaysInYear 1582 10 15 = .ok 278 ∧ getDaysOfYear 1582 = 355 := by decide

/-! ## C11 -/

/-- **C11** (half of the property that holds) every existing moment is accepted, with the fields given. -/
theorem C11_accepts_existing_partial (y m d h mi s : ℤ) (hd : (⟨y, m, d⟩ : Date).Valid)
    (hc : ClockOk h mi s) : Solar.fromYmdHms y m d h mi s = .ok ⟨y, m, d, h, mi, s⟩ :=
  Cal.fromYmdHms_ok hd hc

/-- **C11** exact acceptance condition of the code: everything is checked except the upper bound of
the day.  (Missing for the full property: rejection of `d > lastDay`, which is false.) -/
theorem C11_accepts_iff_partial (y m d h mi s : ℤ) :
    Solar.fromYmdHms y m d h mi s = .ok ⟨y, m, d, h, mi, s⟩ ↔
      (1 ≤ m ∧ m ≤ 12 ∧ 1 ≤ d ∧ ¬ (y = 1582 ∧ m = 10 ∧ 5 ≤ d ∧ d ≤ 14) ∧ ClockOk h mi s) := by
  unfold Solar.fromYmdHms ClockOk
  split_ifs <;> simp <;> omega

/-- **C11** otherwise an exception is raised; nothing else can come out. -/
theorem C11_result (y m d h mi s : ℤ) :
    Solar.fromYmdHms y m d h mi s = .ok ⟨y, m, d, h, mi, s⟩ ∨
    Solar.fromYmdHms y m d h mi s = .error .exception := by
  unfold Solar.fromYmdHms
  split_ifs <;> simp

/-- **C11** the property as stated is false: February 30 (and even day 99) is accepted,
because `lunar_python/Solar.py` line 22 tests `month > 31` instead of `day > 31`. -/
theorem C11_violated :
    (∃ y m d, ¬ (⟨y, m, d⟩ : Date).Valid ∧ Solar.fromYmd y m d = .ok ⟨y, m, d, 0, 0, 0⟩) ∧
    Solar.fromYmd 2023 2 30 = .ok ⟨2023, 2, 30, 0, 0, 0⟩ ∧
    Solar.fromYmd 2023 1 99 = .ok ⟨2023, 1, 99, 0, 0, 0⟩ :=
  ⟨⟨2023, 2, 30, by decide, by decide⟩, by decide, by decide⟩

example : Solar.fromYmdHms 1582 10 10 0 0 0 = .error .exception ∧
    Solar.fromYmdHms 2024 2 29 23 59 59 = .ok ⟨2024, 2, 29, 23, 59, 59⟩ := by decide

/-! ## C12 -/

/-- **C12** `nextMonth(n)`: existing date, month count moved by exactly `n`, clock kept, day clamped. -/
theorem C12_nextMonth (s : Solar) (hs : s.Valid) (n : ℤ) :
    ∃ t, s.nextMonth n = .ok t ∧ t.Valid ∧ Solar.SameClock s t ∧
      12 * t.year + t.month = 12 * s.year + s.month + n ∧
      t.day = if t.year = 1582 ∧ t.month = 10 then (if 5 ≤ s.day ∧ s.day ≤ 14 then s.day + 10 else s.day)
        else min s.day (lastDay t.year t.month) := by
  obtain ⟨hd, hc⟩ := hs
  obtain ⟨h1, h2, h3, h4, h5⟩ := hd
  obtain ⟨k1, k2, k3⟩ := Cal.solarMonth_next_spec ⟨s.year, s.month⟩ h1 h2 n
  simp only at k1
  unfold Solar.nextMonth
  generalize SolarMonth.next ⟨s.year, s.month⟩ n = r at *
  have hlb := Cal.lastDay_bounds r.year r.month
  have hlb2 := Cal.lastDay_bounds s.year s.month
  simp only [Solar.date] at *
  have hg := Cal.getDaysOfMonth_eq r.year r.month k2 k3
  set d := (if r.year = 1582 ∧ r.month = 10 then if 4 < s.day ∧ s.day < 15 then s.day + 10 else s.day
      else if s.day > getDaysOfMonth r.year r.month then getDaysOfMonth r.year r.month else s.day) with hdd
  have hday : d = if r.year = 1582 ∧ r.month = 10 then (if 5 ≤ s.day ∧ s.day ≤ 14 then s.day + 10 else s.day)
        else min s.day (lastDay r.year r.month) := by
    rw [hdd, hg]
    split_ifs <;> omega
  have hv : (⟨r.year, r.month, d⟩ : Date).Valid := by
    refine ⟨k2, k3, ?_⟩
    simp only
    by_cases hy : r.year = 1582 ∧ r.month = 10
    · have : lastDay r.year r.month = 31 := by rw [hy.1, hy.2]; decide
      rw [if_pos hy] at hday
      split_ifs at hday <;> omega
    · rw [if_neg hy] at hday
      omega
  exact ⟨_, Cal.fromYmdHms_ok hv hc, ⟨hv, hc⟩, ⟨rfl, rfl, rfl⟩, k1, hday⟩

/-- **C12** `nextYear(n)`: same month, year moved by `n`, February 29 clamped, gap labels shifted. -/
theorem C12_nextYear (s : Solar) (hs : s.Valid) (n : ℤ) :
    ∃ t, s.nextYear n = .ok t ∧ t.Valid ∧ Solar.SameClock s t ∧
      t.year = s.year + n ∧ t.month = s.month ∧
      t.day = if t.year = 1582 ∧ t.month = 10 then (if 5 ≤ s.day ∧ s.day ≤ 14 then s.day + 10 else s.day)
        else min s.day (lastDay t.year t.month) := by
  obtain ⟨hd, hc⟩ := hs
  obtain ⟨h1, h2, h3, h4, h5⟩ := hd
  unfold Solar.nextYear
  simp only [Solar.date] at *
  generalize hy' : s.year + n = y at *
  have hl := Cal.isLeapYear_iff y
  set d := (if y = 1582 ∧ s.month = 10 then if 4 < s.day ∧ s.day < 15 then s.day + 10 else s.day
      else if s.month = 2 then if s.day > 28 then if (!SolarUtil.isLeapYear y) = true then 28 else s.day else s.day
      else s.day) with hdd
  have hday : d = if y = 1582 ∧ s.month = 10 then (if 5 ≤ s.day ∧ s.day ≤ 14 then s.day + 10 else s.day)
        else min s.day (lastDay y s.month) := by
    rw [hdd]
    unfold lastDay at *
    by_cases hle : SolarUtil.isLeapYear y = true
    · simp only [hle, hl.1 hle, if_true, Bool.not_true, Bool.false_eq_true, if_false]
      split_ifs at * <;> omega
    · have hle' : ¬ Leap y := fun h => hle (hl.2 h)
      simp only [hle, hle', if_false, Bool.not_false, if_true]
      split_ifs at * <;> omega
  have hlb := Cal.lastDay_bounds y s.month
  have hlb2 := Cal.lastDay_bounds s.year s.month
  have hv : (⟨y, s.month, d⟩ : Date).Valid := by
    refine ⟨h1, h2, ?_⟩
    simp only
    by_cases hy : y = 1582 ∧ s.month = 10
    · have : lastDay y s.month = 31 := by rw [hy.1, hy.2]; decide
      rw [if_pos hy] at hday
      split_ifs at hday <;> omega
    · rw [if_neg hy] at hday
      omega
  exact ⟨_, Cal.fromYmdHms_ok hv hc, ⟨hv, hc⟩, ⟨rfl, rfl, rfl⟩, rfl, rfl, hday⟩

example : (⟨2024, 2, 29, 1, 2, 3⟩ : Solar).nextYear 1 = .ok ⟨2025, 2, 28, 1, 2, 3⟩ ∧
    (⟨2024, 1, 31, 1, 2, 3⟩ : Solar).nextMonth (-11) = .ok ⟨2023, 2, 28, 1, 2, 3⟩ ∧
    (⟨1582, 9, 10, 1, 2, 3⟩ : Solar).nextMonth 1 = .ok ⟨1582, 10, 20, 1, 2, 3⟩ := by decide

/-! ## C13 -/

/-- **C13** `nextHour(n)` is exactly `3600 n` seconds later. -/
theorem C13_nextHour (s : Solar) (hs : s.Valid) (n : ℤ) :
    ∃ t, s.nextHour n = .ok t ∧ t.Valid ∧
      SecondsAfter (3600 * n) s.date s.hour s.minute s.second t.date t.hour t.minute t.second := by
  obtain ⟨t, h1, h2, h3, _⟩ := Cal.nextHour_spec hs n
  exact ⟨t, h1, h2, (Cal.secondsAfter_iff hs h2 _).2 h3⟩

/-- **C13** composition. -/
theorem C13_nextHour_add (s : Solar) (hs : s.Valid) (a b : ℤ) :
    (s.nextHour a >>= fun t => t.nextHour b) = s.nextHour (a + b) := by
  obtain ⟨t, h1, h2, h3, _⟩ := Cal.nextHour_spec hs a
  obtain ⟨u, g1, g2, g3, _⟩ := Cal.nextHour_spec h2 b
  obtain ⟨v, k1, k2, k3, _⟩ := Cal.nextHour_spec hs (a + b)
  rw [h1, k1]
  show t.nextHour b = _
  rw [g1]
  congr 1
  exact Cal.secNo_inj g2 k2 (by omega)

example : sampleA.nextHour (-13) = .ok ⟨1582, 10, 3, 23, 30, 15⟩ := by
  obtain ⟨t, h1, h2, h3, _⟩ := Cal.nextHour_spec (s := sampleA) (by decide) (-13)
  rw [h1]; congr 1
  exact Cal.secNo_inj h2 (by decide) (by rw [h3]; decide)

/-! ## C14 -/

/-- **C14** `b.subtractMinute(a)`: seconds between the two minutes' starts, divided by 60. -/
theorem C14_subtractMinute (a b : Solar) (ha : a.Valid) (hb : b.Valid) :
    ∃ n, b.subtractMinute a = .ok n ∧
      SecondsAfter (60 * n) a.date a.hour a.minute 0 b.date b.hour b.minute 0 := by
  refine ⟨_, Cal.subtractMinute_spec hb ha, Cal.dn b.date - Cal.dn a.date, ?_, by ring⟩
  rw [Cal.daysAfter_iff ha.1 hb.1]; ring

/-- **C14** `nextHour(h)` is `60 h` minutes away. -/
theorem C14_nextHour_minutes (a b : Solar) (ha : a.Valid) (h : ℤ) (hb : a.nextHour h = .ok b) :
    b.subtractMinute a = .ok (60 * h) := by
  obtain ⟨t, h1, h2, h3, h4, h5⟩ := Cal.nextHour_spec ha h
  rw [h1] at hb
  have : t = b := by simpa using hb
  subst this
  rw [Cal.subtractMinute_spec h2 ha]
  unfold Cal.secNo at h3
  congr 1
  omega

example : sampleB.subtractMinute sampleA = .ok 219520049 := by
  rw [Cal.subtractMinute_spec (by decide) (by decide)]; decide
