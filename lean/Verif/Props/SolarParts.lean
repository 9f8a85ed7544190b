import Verif.Proof.WeekNav
import Verif.Proof.Str
import Mathlib.Tactic.IntervalCases

/-!
# Date strings, months, quarters, weeks, zodiac, weekday festivals (C05, C15-C22, C59)
-/

open Spec SolarUtil

/-! ## C05 -/

/-- **C05** `a.toYmd() < b.toYmd()` (string comparison) iff `b`'s date is a positive number of
days after `a`'s, for years 0..9999; the strings are equal iff the dates are. -/
theorem C05_toYmd_order (a b : Solar) (ha : a.Valid) (hb : b.Valid)
    (ya : 0 ≤ a.year ∧ a.year ≤ 9999) (yb : 0 ≤ b.year ∧ b.year ≤ 9999) :
    (strLt a.toYmd b.toYmd = true ↔ ∃ n : ℤ, 0 < n ∧ DaysAfter n a.date b.date) ∧
    (a.toYmd = b.toYmd ↔ a.date = b.date) := by
  obtain ⟨_, h2, h3⟩ := Str.toYmd_cmp ha hb ya yb
  refine ⟨?_, h3⟩
  rw [h2, decide_eq_true_iff]
  constructor
  · intro h
    exact ⟨_, sub_pos.2 h, (Cal.daysAfter_iff ha.1 hb.1 _).2 (by ring)⟩
  · rintro ⟨n, hn, h⟩
    rw [Cal.daysAfter_iff ha.1 hb.1] at h
    omega

/-- **C05** same for `toYmdHms` and moments. -/
theorem C05_toYmdHms_order (a b : Solar) (ha : a.Valid) (hb : b.Valid)
    (ya : 0 ≤ a.year ∧ a.year ≤ 9999) (yb : 0 ≤ b.year ∧ b.year ≤ 9999) :
    (strLt a.toYmdHms b.toYmdHms = true ↔ ∃ n : ℤ, 0 < n ∧
      SecondsAfter n a.date a.hour a.minute a.second b.date b.hour b.minute b.second) ∧
    (a.toYmdHms = b.toYmdHms ↔ a = b) := by
  obtain ⟨h2, h3⟩ := Str.toYmdHms_cmp ha hb ya yb
  refine ⟨?_, h3⟩
  rw [h2, decide_eq_true_iff]
  constructor
  · intro h
    exact ⟨_, sub_pos.2 h, (Cal.secondsAfter_iff ha hb _).2 (by ring)⟩
  · rintro ⟨n, hn, h⟩
    rw [Cal.secondsAfter_iff ha hb] at h
    omega

/-- **C05** outside 0..9999 it fails: year 10000 sorts before 9999 and year -1 before -2. -/
theorem C05_fails_outside :
    strLt (⟨10000, 1, 1, 0, 0, 0⟩ : Solar).toYmd (⟨9999, 12, 31, 0, 0, 0⟩ : Solar).toYmd = true ∧
    strLt (⟨-1, 1, 1, 0, 0, 0⟩ : Solar).toYmd (⟨-2, 1, 1, 0, 0, 0⟩ : Solar).toYmd = true := by decide

example : strLt (⟨987, 12, 31, 23, 59, 59⟩ : Solar).toYmdHms (⟨1582, 10, 15, 0, 0, 0⟩ : Solar).toYmdHms = true := by
  decide

/-! ## C15 -/

/-- **C15** `SolarMonth.next(n)` moves the month count `12 * year + month` by exactly `n`. -/
theorem C15_month_next (s : SolarMonth) (h1 : 1 ≤ s.month) (h2 : s.month ≤ 12) (n : ℤ) :
    12 * (s.next n).year + (s.next n).month = 12 * s.year + s.month + n ∧
    1 ≤ (s.next n).month ∧ (s.next n).month ≤ 12 :=
  Cal.solarMonth_next_spec s h1 h2 n

/-- **C15** quarters: `next(n)` moves the quarter count by `n` and keeps the place in the quarter. -/
theorem C15_season_next (s : SolarSeason) (h1 : 1 ≤ s.month) (h2 : s.month ≤ 12) (n : ℤ) :
    4 * (s.next n).year + (s.next n).getIndex = 4 * s.year + s.getIndex + n ∧
    1 ≤ (s.next n).getIndex ∧ (s.next n).getIndex ≤ 4 ∧ (s.next n).month % 3 = s.month % 3 := by
  have h := Cal.solarMonth_next_spec ⟨s.year, s.month⟩ h1 h2 (3 * n)
  unfold SolarSeason.next SolarSeason.getIndex pyCeilDiv
  simp only at h ⊢
  omega

/-- **C15** half years -/
theorem C15_half_next (s : SolarHalfYear) (h1 : 1 ≤ s.month) (h2 : s.month ≤ 12) (n : ℤ) :
    2 * (s.next n).year + (s.next n).getIndex = 2 * s.year + s.getIndex + n ∧
    1 ≤ (s.next n).getIndex ∧ (s.next n).getIndex ≤ 2 ∧ (s.next n).month % 6 = s.month % 6 := by
  have h := Cal.solarMonth_next_spec ⟨s.year, s.month⟩ h1 h2 (6 * n)
  unfold SolarHalfYear.next SolarHalfYear.getIndex pyCeilDiv
  simp only at h ⊢
  omega

theorem SolarMonth.ext_count {a b : SolarMonth} (ha : 1 ≤ a.month ∧ a.month ≤ 12)
    (hb : 1 ≤ b.month ∧ b.month ≤ 12) (h : 12 * a.year + a.month = 12 * b.year + b.month) : a = b := by
  cases a; cases b; simp only [SolarMonth.mk.injEq] at *; omega

/-- **C15** group action for months, quarters, half years and years -/
theorem C15_next_add (y m : ℤ) (h1 : 1 ≤ m) (h2 : m ≤ 12) (a b : ℤ) :
    ((⟨y, m⟩ : SolarMonth).next a).next b = (⟨y, m⟩ : SolarMonth).next (a + b) ∧
    ((⟨y, m⟩ : SolarSeason).next a).next b = (⟨y, m⟩ : SolarSeason).next (a + b) ∧
    ((⟨y, m⟩ : SolarHalfYear).next a).next b = (⟨y, m⟩ : SolarHalfYear).next (a + b) ∧
    SolarYear.next (SolarYear.next y a) b = SolarYear.next y (a + b) := by
  have key : ∀ p q : ℤ, ((⟨y, m⟩ : SolarMonth).next p).next q = (⟨y, m⟩ : SolarMonth).next (p + q) := by
    intro p q
    have e1 := Cal.solarMonth_next_spec ⟨y, m⟩ h1 h2 p
    have e2 := Cal.solarMonth_next_spec _ e1.2.1 e1.2.2 q
    have e3 := Cal.solarMonth_next_spec ⟨y, m⟩ h1 h2 (p + q)
    exact SolarMonth.ext_count e2.2 e3.2 (by omega)
  refine ⟨key a b, ?_, ?_, by unfold SolarYear.next; ring⟩
  · have := key (3 * a) (3 * b)
    unfold SolarSeason.next
    simp only
    rw [show (⟨((⟨y, m⟩ : SolarMonth).next (3 * a)).year, ((⟨y, m⟩ : SolarMonth).next (3 * a)).month⟩ : SolarMonth)
      = (⟨y, m⟩ : SolarMonth).next (3 * a) from rfl, this, mul_add]
  · have := key (6 * a) (6 * b)
    unfold SolarHalfYear.next
    simp only
    rw [show (⟨((⟨y, m⟩ : SolarMonth).next (6 * a)).year, ((⟨y, m⟩ : SolarMonth).next (6 * a)).month⟩ : SolarMonth)
      = (⟨y, m⟩ : SolarMonth).next (6 * a) from rfl, this, mul_add]

/-- **C15** the year's month list is January..December in order -/
theorem C15_year_months (y : ℤ) :
    SolarYear.getMonths y = (pyRange 1 13).map (fun m => ⟨y, m⟩) := by
  have : ∀ i : ℤ, 1 ≤ i → i ≤ 11 → (⟨y, 1⟩ : SolarMonth).next i = ⟨y, 1 + i⟩ := by
    intro i h1 h2
    have := Cal.solarMonth_next_spec ⟨y, 1⟩ (by simp) (by simp) i
    exact SolarMonth.ext_count this.2 (by simp only; omega) (by simp only at *; omega)
  unfold SolarYear.getMonths
  simp only [show pyRange 1 12 = [1, 2, 3, 4, 5, 6, 7, 8, 9, 10, 11] by decide,
    show pyRange 1 13 = [1, 2, 3, 4, 5, 6, 7, 8, 9, 10, 11, 12] by decide, List.map]
  rw [this 1, this 2, this 3, this 4, this 5, this 6, this 7, this 8, this 9, this 10, this 11] <;> norm_num

/-- **C15** each month lies in exactly the quarter (half year) whose `getMonths` lists it; quarter
`q` consists of months `3q-2, 3q-1, 3q`, half year `h` of `6h-5 .. 6h`. -/
theorem C15_partition (y m m' : ℤ) (h1 : 1 ≤ m) (h2 : m ≤ 12) (h1' : 1 ≤ m') (h2' : m' ≤ 12) :
    ((⟨y, m⟩ : SolarMonth) ∈ (⟨y, m'⟩ : SolarSeason).getMonths ↔
      (⟨y, m⟩ : SolarSeason).getIndex = (⟨y, m'⟩ : SolarSeason).getIndex) ∧
    ((⟨y, m⟩ : SolarMonth) ∈ (⟨y, m'⟩ : SolarHalfYear).getMonths ↔
      (⟨y, m⟩ : SolarHalfYear).getIndex = (⟨y, m'⟩ : SolarHalfYear).getIndex) ∧
    (3 * (⟨y, m⟩ : SolarSeason).getIndex - 2 ≤ m ∧ m ≤ 3 * (⟨y, m⟩ : SolarSeason).getIndex) ∧
    (6 * (⟨y, m⟩ : SolarHalfYear).getIndex - 5 ≤ m ∧ m ≤ 6 * (⟨y, m⟩ : SolarHalfYear).getIndex) := by
  unfold SolarSeason.getMonths SolarHalfYear.getMonths SolarSeason.getIndex SolarHalfYear.getIndex pyCeilDiv
  simp only [List.mem_map, Cal.mem_pyRange, SolarMonth.mk.injEq, true_and]
  refine ⟨⟨?_, ?_⟩, ⟨?_, ?_⟩, by omega, by omega⟩
  · rintro ⟨i, hi, hm⟩; omega
  · intro h; exact ⟨m - 3 * (-(-m' / 3) - 1) - 1, by omega, by omega⟩
  · rintro ⟨i, hi, hm⟩; omega
  · intro h; exact ⟨m - 6 * (-(-m' / 6) - 1) - 1, by omega, by omega⟩

/-- **C15** quarters and half years list only real months of their year, in increasing order -/
theorem C15_months_real (y m : ℤ) (h1 : 1 ≤ m) (h2 : m ≤ 12) :
    (∀ x ∈ (⟨y, m⟩ : SolarSeason).getMonths, x.year = y ∧ 1 ≤ x.month ∧ x.month ≤ 12) ∧
    (∀ x ∈ (⟨y, m⟩ : SolarHalfYear).getMonths, x.year = y ∧ 1 ≤ x.month ∧ x.month ≤ 12) ∧
    (⟨y, m⟩ : SolarSeason).getMonths.length = 3 ∧ (⟨y, m⟩ : SolarHalfYear).getMonths.length = 6 ∧
    (⟨y, m⟩ : SolarSeason).getMonths.IsChain (fun a b => b.month = a.month + 1) ∧
    (⟨y, m⟩ : SolarHalfYear).getMonths.IsChain (fun a b => b.month = a.month + 1) := by
  unfold SolarSeason.getMonths SolarHalfYear.getMonths SolarSeason.getIndex SolarHalfYear.getIndex pyCeilDiv
  simp only [show pyRange 0 3 = [0, 1, 2] by decide, show pyRange 0 6 = [0, 1, 2, 3, 4, 5] by decide, List.map]
  refine ⟨?_, ?_, rfl, rfl, ?_, ?_⟩
  · simp only [List.mem_cons, List.not_mem_nil, or_false]
    rintro x (rfl | rfl | rfl) <;> refine ⟨rfl, ?_, ?_⟩ <;> simp only <;> omega
  · simp only [List.mem_cons, List.not_mem_nil, or_false]
    rintro x (rfl | rfl | rfl | rfl | rfl | rfl) <;> refine ⟨rfl, ?_, ?_⟩ <;> simp only <;> omega
  · simp; ring
  · simp; ring_nf; simp

example : (⟨2020, 11⟩ : SolarSeason).next (-5) = ⟨2019, 8⟩ ∧ (⟨2020, 11⟩ : SolarHalfYear).next 3 = ⟨2022, 5⟩ := by
  decide

/-! ## C16 -/

/-- **C16** `getDays` lists exactly the existing dates of the month, each once, each followed by
the next civil day, at 00:00:00. -/
theorem C16_month_days (y m : ℤ) (h1 : 1 ≤ m) (h2 : m ≤ 12) :
    ∃ l, (⟨y, m⟩ : SolarMonth).getDays = .ok l ∧
      (∀ x : Date, x ∈ l.map Solar.date ↔ x.Valid ∧ x.y = y ∧ x.m = m) ∧
      l.IsChain (fun s t => t.date = tomorrow s.date) ∧
      (l.map Solar.date).Nodup ∧ (l.head?.map Solar.date = some ⟨y, m, 1⟩) ∧
      (∀ s ∈ l, s.hour = 0 ∧ s.minute = 0 ∧ s.second = 0) := by
  refine ⟨_, Cal.month_getDays h1 h2, ?_, ?_, ?_, ?_, ?_⟩
  · intro x
    simp only [List.map_map, List.mem_map, Cal.mem_pyRange, Function.comp, Cal.mid_date]
    have hMS := Cal.MS_eq (y := y) h1 h2
    have hsucc := Cal.MS_succ (12 * y + (m - 1))
    rw [show (12 * y + (m - 1)) / 12 = y by omega, show (12 * y + (m - 1)) % 12 + 1 = m by omega] at hsucc
    constructor
    · rintro ⟨i, hi, rfl⟩
      have hv := Cal.ofDn_valid (Cal.monthStart y m + 1 + i)
      have hd := Cal.dn_ofDn (Cal.monthStart y m + 1 + i)
      have hm := (Cal.mi_iff hv (12 * y + (m - 1))).2 (by omega)
      have := Cal.mi_div hv
      exact ⟨hv, by omega, by omega⟩
    · rintro ⟨hv, rfl, rfl⟩
      have hm := Cal.dn_month hv
      unfold Cal.mi at hm
      refine ⟨Cal.dn x - Cal.monthStart x.y x.m - 1, by omega, ?_⟩
      rw [show Cal.monthStart x.y x.m + 1 + (Cal.dn x - Cal.monthStart x.y x.m - 1) = Cal.dn x by ring]
      exact Cal.ofDn_dn hv
  · have := Cal.isChain_days (Cal.monthStart y m + 1) (getDaysOfMonth y m).toNat
    unfold pyRange
    rw [List.map_map, show (getDaysOfMonth y m - 0).toNat = (getDaysOfMonth y m).toNat by simp]
    simpa [Function.comp_def] using this
  · unfold pyRange
    rw [List.map_map, List.map_map]
    refine List.Nodup.map ?_ List.nodup_range
    intro a b h
    simp only [Function.comp, Cal.mid_date] at h
    have := congrArg Cal.dn h
    rw [Cal.dn_ofDn, Cal.dn_ofDn] at this
    omega
  · have hp := Solar.getDaysOfMonth_pos y m
    have hv : (⟨y, m, 1⟩ : Date).Valid :=
      ⟨h1, h2, by simp, by have := Cal.lastDay_bounds y m; simp only; omega, by simp⟩
    have hd : Cal.dn ⟨y, m, 1⟩ = Cal.monthStart y m + 1 := by unfold Cal.dn Cal.dayNo Cal.ord; simp
    rw [Cal.pyRange_cons hp, List.map_cons, List.head?_cons, Option.map_some, Cal.mid_date, add_zero, ← hd,
      Cal.ofDn_dn hv]
  · intro s hs
    simp only [List.mem_map] at hs
    obtain ⟨i, _, rfl⟩ := hs
    exact ⟨rfl, rfl, rfl⟩

/-- 1582-10 has 21 days -/
example : ∃ l, (⟨1582, 10⟩ : SolarMonth).getDays = .ok l ∧ l.length = 21 := by
  refine ⟨_, Cal.month_getDays (by norm_num) (by norm_num), ?_⟩
  rw [List.length_map]; decide

/-! ## C17 -/

/-- the `SolarWeek` of a date -/
def weekOf (x : Date) (start : ℤ) : SolarWeek := ⟨x.y, x.m, x.d, start⟩

/-- **C17** `getFirstDay` falls on the chosen weekday and is 0..6 days before the date. -/
theorem C17_first_day (x : Date) (hx : x.Valid) (h0 : -4712 ≤ x.y) (h1 : x.y ≤ 9999)
    (start : ℤ) (s0 : 0 ≤ start) (s1 : start ≤ 6) :
    ∃ f k, (weekOf x start).getFirstDay = .ok f ∧ f.Valid ∧ IsWeekday start f.date ∧
      0 ≤ k ∧ k ≤ 6 ∧ DaysAfter k f.date x := by
  obtain ⟨f, e, hf, hd⟩ := Cal.getFirstDay_spec s0 s1 hx h0 h1
  refine ⟨Cal.mid f, Cal.dn x - Cal.dn f, e, Cal.mid_valid hf, ?_, ?_, ?_, ?_⟩
  · rw [Cal.mid_date, Cal.isWeekday_iff hf]; omega
  · unfold Cal.wk at hd; omega
  · unfold Cal.wk at hd; omega
  · rw [Cal.mid_date, Cal.daysAfter_iff hf hx]; ring

/-- **C17** `getDays` is seven consecutive days, the first on the chosen weekday, containing the
date; `getDaysInMonth` keeps exactly those of the date's month and `getFirstDayInMonth` is the
first of these. -/
theorem C17_days (x : Date) (hx : x.Valid) (h0 : -4712 ≤ x.y) (h1 : x.y ≤ 9999)
    (start : ℤ) (s0 : 0 ≤ start) (s1 : start ≤ 6) :
    ∃ l l' : List Solar, (weekOf x start).getDays = .ok l ∧ l.length = 7 ∧
      l.IsChain (fun s t => t.date = tomorrow s.date) ∧
      (∃ f, (weekOf x start).getFirstDay = .ok f ∧ l.head? = some f) ∧ x ∈ l.map Solar.date ∧
      (∀ s ∈ l, SameWeek start x s.date) ∧
      (weekOf x start).getDaysInMonth = .ok l' ∧
      (∀ s, s ∈ l' ↔ s ∈ l ∧ SameMonth x s.date) ∧ l'.Sublist l ∧
      (weekOf x start).getFirstDayInMonth = .ok l'.head? := by
  have hl := Cal.week_getDays s0 s1 hx h0 h1
  set l := (pyRange 0 7).map (fun i => Cal.mid (Cal.ofDn (7 * Cal.wk start x + start - 3 + i))) with hldef
  refine ⟨l, l.filter (fun d => x.m = d.month), hl, ?_, ?_, ?_, ?_, ?_, ?_, ?_, List.filter_sublist, ?_⟩
  · rw [hldef, List.length_map]; decide
  · have := Cal.isChain_days (7 * Cal.wk start x + start - 3) 7
    rw [hldef]
    unfold pyRange
    rw [List.map_map]
    simpa [Function.comp_def] using this
  · obtain ⟨f, e, hf, hd⟩ := Cal.getFirstDay_spec s0 s1 hx h0 h1
    refine ⟨_, e, ?_⟩
    rw [hldef, Cal.pyRange_cons (by norm_num), List.map_cons, List.head?_cons, add_zero, ← hd, Cal.ofDn_dn hf]
  · rw [hldef]
    simp only [List.map_map, List.mem_map, Cal.mem_pyRange, Function.comp, Cal.mid_date]
    refine ⟨Cal.dn x - (7 * Cal.wk start x + start - 3), by unfold Cal.wk; omega, ?_⟩
    rw [show 7 * Cal.wk start x + start - 3 + (Cal.dn x - (7 * Cal.wk start x + start - 3)) = Cal.dn x by ring]
    exact Cal.ofDn_dn hx
  · intro s hs
    rw [hldef] at hs
    simp only [List.mem_map, Cal.mem_pyRange] at hs
    obtain ⟨i, hi, rfl⟩ := hs
    rw [Cal.mid_date, Cal.sameWeek_iff s0 s1 hx (Cal.ofDn_valid _)]
    unfold Cal.wk
    rw [Cal.dn_ofDn]; omega
  · show (do let days ← (Cal.wkObj start x).getDays; return _ : Except PyErr (List Solar)) = _
    rw [hl]; rfl
  · intro s
    simp only [List.mem_filter, decide_eq_true_eq]
    constructor
    · rintro ⟨hs, hm⟩
      refine ⟨hs, ?_⟩
      rw [hldef] at hs
      simp only [List.mem_map, Cal.mem_pyRange] at hs
      obtain ⟨i, hi, rfl⟩ := hs
      rw [Cal.mid_date]
      have hv := Cal.ofDn_valid (7 * Cal.wk start x + start - 3 + i)
      have hd := Cal.dn_ofDn (7 * Cal.wk start x + start - 3 + i)
      have hm' : x.m = (Cal.ofDn (7 * Cal.wk start x + start - 3 + i)).m := hm
      generalize Cal.ofDn (7 * Cal.wk start x + start - 3 + i) = z at hv hd hm'
      rw [Cal.sameMonth_iff hx hv]
      have b1 := Cal.dn_month hx
      have b2 := Cal.dn_month hv
      have hz1 : Cal.dn z - Cal.dn x ≤ 6 := by unfold Cal.wk at hd; omega
      have hz2 : Cal.dn x - Cal.dn z ≤ 6 := by unfold Cal.wk at hd; omega
      have k1 := fun h => Cal.MS_le_of_le (k := Cal.mi x + 1) (l := Cal.mi z) h
      have k2 := fun h => Cal.MS_le_of_le (k := Cal.mi z + 1) (l := Cal.mi x) h
      have a1 := hx.1; have a2 := hx.2.1; have a3 := hv.1; have a4 := hv.2.1
      rcases lt_trichotomy (Cal.mi x) (Cal.mi z) with c | c | c
      · have := k1 (by omega)
        have : Cal.mi z ≤ Cal.mi x + 1 := by omega
        unfold Cal.mi at *; omega
      · exact c
      · have := k2 (by omega)
        have : Cal.mi x ≤ Cal.mi z + 1 := by omega
        unfold Cal.mi at *; omega
    · rintro ⟨hs, hm⟩
      exact ⟨hs, hm.2⟩
  · show (do let days ← (Cal.wkObj start x).getDays; return _ : Except PyErr (Option Solar)) = _
    rw [hl, List.head?_filter]; rfl

/-- **C17** `next(n, False)` is the week of the date `7 n` days later, for every `n`. -/
theorem C17_next_week (x : Date) (hx : x.Valid) (start n : ℤ) :
    ∃ y : Date, (weekOf x start).next n false = .ok (weekOf y start) ∧ y.Valid ∧ DaysAfter (7 * n) x y := by
  by_cases hn : n = 0
  · subst hn
    refine ⟨x, ?_, hx, ?_⟩
    · unfold SolarWeek.next; simp; rfl
    · rw [Cal.daysAfter_iff hx hx]; ring
  · have hv := Cal.ofDn_valid (Cal.dn x + n * 7)
    refine ⟨Cal.ofDn (Cal.dn x + n * 7), ?_, hv, ?_⟩
    · unfold SolarWeek.next
      rw [if_neg hn]
      have e : Solar.fromYmd (weekOf x start).year (weekOf x start).month (weekOf x start).day
        = .ok (Cal.mid x) := Cal.fromYmd_ok hx
      rw [e]
      show ((Cal.mid x).next (n * 7) >>= _) = _
      rw [Cal.mid_next' hx (n * 7)]
      rfl
    · rw [Cal.daysAfter_iff hx hv, Cal.dn_ofDn]; ring

example : (weekOf ⟨1582, 10, 4⟩ 0).getFirstDay = .ok ⟨1582, 9, 30, 0, 0, 0⟩ := by decide +kernel

/-! ## C18 -/

/-- **C18** `getWeeks` terminates (a bound of 7 rounds always suffices); it starts with the week
of the 1st, the listed weeks are 7 days apart, every listed week touches the month, and every
day of the month lies in exactly one of them. -/
theorem C18_month_weeks (y m start : ℤ) (m1 : 1 ≤ m) (m2 : m ≤ 12) (h0 : -4712 ≤ y) (h1 : y ≤ 9998)
    (s0 : 0 ≤ start) (s1 : start ≤ 6) :
    ∃ ds : List Date, (∀ fuel ≥ 7, (⟨y, m⟩ : SolarMonth).getWeeks start fuel
        = some (.ok (ds.map (fun x => weekOf x start)))) ∧
      (∀ x ∈ ds, x.Valid) ∧
      ds.head? = some ⟨y, m, 1⟩ ∧ ds.IsChain (fun a b => DaysAfter 7 a b) ∧
      (∀ x ∈ ds, ∃ z : Date, z.Valid ∧ z.y = y ∧ z.m = m ∧ SameWeek start x z) ∧
      (∀ z : Date, z.Valid → z.y = y → z.m = m →
        ∃ x ∈ ds, SameWeek start x z ∧ ∀ x' ∈ ds, SameWeek start x' z → x' = x) := by
  have hv : (⟨y, m, 1⟩ : Date).Valid :=
    ⟨m1, m2, by simp, by have := Cal.lastDay_bounds y m; simp only; omega, by simp⟩
  have hd : Cal.dn ⟨y, m, 1⟩ = Cal.monthStart y m + 1 := by unfold Cal.dn Cal.dayNo Cal.ord; simp
  have hMS := Cal.MS_eq (y := y) m1 m2
  have hb := Cal.MS_succ_bounds (12 * y + (m - 1))
  set E := Cal.MS (12 * y + (m - 1) + 1) with hE
  set D := Cal.dn ⟨y, m, 1⟩ with hD
  obtain ⟨k, hk⟩ : ∃ k : ℕ, (E + 3 - start) / 7 = (D + 3 - start) / 7 + k :=
    ⟨((E + 3 - start) / 7 - (D + 3 - start) / 7).toNat, by omega⟩
  have hk6 : k < 7 := by omega
  have eq := fun (fuel : ℕ) (hf : fuel ≥ 7) => Cal.weeksLoop_spec s0 s1 m1 m2 h0 h1 k fuel D
    (by omega) (by omega) (by omega) (by omega)
  have hdn : ∀ i : ℕ, Cal.dn (Cal.ofDn (D + 7 * i)) = D + 7 * i := fun i => Cal.dn_ofDn _
  refine ⟨(List.range (k + 1)).map (fun (i : ℕ) => Cal.ofDn (D + 7 * i)), ?_, ?_, ?_, ?_, ?_, ?_⟩
  · intro fuel hf
    have := eq fuel hf
    rw [Cal.ofDn_dn hv] at this
    rw [List.map_map]
    exact this
  · intro x hx
    simp only [List.mem_map] at hx
    obtain ⟨i, _, rfl⟩ := hx
    exact Cal.ofDn_valid _
  · rw [List.range_succ_eq_map, List.map_cons, List.head?_cons]
    simp [hD, Cal.ofDn_dn hv]
  · rw [List.isChain_map, List.isChain_iff_getElem]
    intro i hi
    simp only [List.getElem_range]
    rw [Cal.daysAfter_iff (Cal.ofDn_valid _) (Cal.ofDn_valid _), hdn, hdn]
    push_cast; ring
  · intro x hx
    simp only [List.mem_map, List.mem_range] at hx
    obtain ⟨i, hi, rfl⟩ := hx
    obtain ⟨z, hz, hdz⟩ := Cal.exists_dn (if D + 7 * i ≤ E then D + 7 * i else E)
    have hmz := (Cal.mi_iff hz (12 * y + (m - 1))).2 (by split_ifs at hdz <;> omega)
    have := Cal.mi_div hz
    refine ⟨z, hz, by omega, by omega, ?_⟩
    rw [Cal.sameWeek_iff s0 s1 (Cal.ofDn_valid _) hz]
    unfold Cal.wk
    rw [hdn, hdz]
    split_ifs <;> omega
  · intro z hz hzy hzm
    have hmz := Cal.dn_month hz
    have hmi : Cal.mi z = 12 * y + (m - 1) := by unfold Cal.mi; rw [hzy, hzm]
    rw [hmi] at hmz
    refine ⟨Cal.ofDn (D + 7 * (((Cal.dn z + 3 - start) / 7 - (D + 3 - start) / 7).toNat : ℕ)), ?_, ?_, ?_⟩
    · simp only [List.mem_map, List.mem_range]
      exact ⟨_, by omega, rfl⟩
    · rw [Cal.sameWeek_iff s0 s1 (Cal.ofDn_valid _) hz]
      unfold Cal.wk
      rw [hdn]; omega
    · intro x' hx' hs
      simp only [List.mem_map, List.mem_range] at hx'
      obtain ⟨i, hi, rfl⟩ := hx'
      rw [Cal.sameWeek_iff s0 s1 (Cal.ofDn_valid _) hz] at hs
      unfold Cal.wk at hs
      rw [hdn] at hs
      congr 2
      omega

/-! ## C59 -/

/-- **C59 violated** the last week listed for 2022-01 (weeks starting on Sunday) is an object of
February: its `getDaysInMonth` are February days, so the `getDaysInMonth` lists of `getWeeks`
do not make up the month. -/
theorem C59_violated :
    ∃ ws w l, (⟨2022, 1⟩ : SolarMonth).getWeeks 0 7 = some (.ok ws) ∧ w ∈ ws ∧ w.getDaysInMonth = .ok l ∧
      ∀ s ∈ l, s.month = 2 := by
  refine ⟨_, ⟨2022, 2, 5, 0⟩, _, (by decide +kernel : (⟨2022, 1⟩ : SolarMonth).getWeeks 0 7 = some (.ok [⟨2022, 1, 1, 0⟩, ⟨2022, 1, 8, 0⟩,
    ⟨2022, 1, 15, 0⟩, ⟨2022, 1, 22, 0⟩, ⟨2022, 1, 29, 0⟩, ⟨2022, 2, 5, 0⟩])), by simp,
    (by decide +kernel : (⟨2022, 2, 5, 0⟩ : SolarWeek).getDaysInMonth = .ok [⟨2022, 2, 1, 0, 0, 0⟩, ⟨2022, 2, 2, 0, 0, 0⟩, ⟨2022, 2, 3, 0, 0, 0⟩,
      ⟨2022, 2, 4, 0, 0, 0⟩, ⟨2022, 2, 5, 0, 0, 0⟩]), ?_⟩
  decide

/-- **C59 (partial)** in a month whose 1st falls on the chosen week start every listed week is
an object of that month, so that its `getDaysInMonth` are days of the month.  Missing: other
months, for which the last listed object can belong to the next month (`C59_violated`). -/
theorem C59_weeks_in_month_partial (y m start : ℤ) (m1 : 1 ≤ m) (m2 : m ≤ 12) (h0 : -4712 ≤ y)
    (h1 : y ≤ 9998) (s0 : 0 ≤ start) (s1 : start ≤ 6) (hw : IsWeekday start ⟨y, m, 1⟩) :
    ∃ ws, (⟨y, m⟩ : SolarMonth).getWeeks start 7 = some (.ok ws) ∧
      ∀ w ∈ ws, w.year = y ∧ w.month = m := by
  have hv : (⟨y, m, 1⟩ : Date).Valid :=
    ⟨m1, m2, by simp, by have := Cal.lastDay_bounds y m; simp only; omega, by simp⟩
  have hd : Cal.dn ⟨y, m, 1⟩ = Cal.monthStart y m + 1 := by unfold Cal.dn Cal.dayNo Cal.ord; simp
  rw [Cal.isWeekday_iff hv] at hw
  have hMS := Cal.MS_eq (y := y) m1 m2
  have hb := Cal.MS_succ_bounds (12 * y + (m - 1))
  set E := Cal.MS (12 * y + (m - 1) + 1) with hE
  set D := Cal.dn ⟨y, m, 1⟩ with hD
  obtain ⟨k, hk⟩ : ∃ k : ℕ, (E + 3 - start) / 7 = (D + 3 - start) / 7 + k :=
    ⟨((E + 3 - start) / 7 - (D + 3 - start) / 7).toNat, by omega⟩
  have eq := Cal.weeksLoop_spec s0 s1 m1 m2 h0 h1 k 7 D (by omega) (by omega) (by omega) (by omega)
  rw [Cal.ofDn_dn hv] at eq
  refine ⟨_, eq, ?_⟩
  intro w hw'
  simp only [List.mem_map, List.mem_range] at hw'
  obtain ⟨i, hi, rfl⟩ := hw'
  have hvi := Cal.ofDn_valid (D + 7 * i)
  have := (Cal.mi_iff hvi (12 * y + (m - 1))).2 (by rw [Cal.dn_ofDn]; omega)
  have hdiv := Cal.mi_div hvi
  exact ⟨by show (Cal.ofDn _).y = y; omega, by show (Cal.ofDn _).m = m; omega⟩

example : IsWeekday 6 ⟨2022, 1, 1⟩ := (Cal.isWeekday_iff (by decide)).2 (by decide)

/-! ## C19 -/

theorem Cal.weekStarts_eq (w0 start : ℤ) (s0 : 0 ≤ start) (s1 : start ≤ 6) (n : ℕ) :
    (weekStarts w0 start n : ℤ) = (w0 + n - start) / 7 - (w0 - start) / 7 := by
  unfold weekStarts
  induction n with
  | zero => simp
  | succ n ih =>
    rw [List.range_succ, List.filter_append, List.length_append]
    rw [Nat.cast_add, ih]
    push_cast
    by_cases h : (w0 + (n + 1)) % 7 = start
    · simp [h]; omega
    · simp [h]; omega

/-- **C19 (partial)** outside 1582-10, `getIndex` is one plus the number of week starts strictly
after the 1st up to the date.  Missing: 1582-10 (see `C19_violated_1582`). -/
theorem C19_index_partial (x : Date) (hx : x.Valid) (h0 : -4712 ≤ x.y) (h1 : x.y ≤ 9999)
    (hn : ¬ (x.y = 1582 ∧ x.m = 10)) (start : ℤ) (s0 : 0 ≤ start) (s1 : start ≤ 6)
    (w0 : ℤ) (hw0 : IsWeekday w0 ⟨x.y, x.m, 1⟩) (n : ℕ) (hd : DaysAfter n ⟨x.y, x.m, 1⟩ x) :
    (weekOf x start).getIndex = .ok (1 + (weekStarts w0 start n : ℤ)) := by
  have hf := Cal.first_valid hx
  have e : (weekOf x start).getIndex = _ := Cal.getIndex_spec s0 s1 hx h0 h1 hn
  rw [e, Cal.weekStarts_eq _ _ s0 s1]
  rw [Cal.isWeekday_iff hf.1] at hw0
  rw [Cal.daysAfter_iff hf.1 hx] at hd
  unfold Cal.wk
  rw [hd, hw0]
  congr 1
  omega

/-- **C19** `getIndexInYear` (no exception for 1582): one plus the number of week starts strictly
after January 1 up to the date. -/
theorem C19_index_in_year (x : Date) (hx : x.Valid) (h0 : -4712 ≤ x.y) (h1 : x.y ≤ 9999)
    (start : ℤ) (s0 : 0 ≤ start) (s1 : start ≤ 6)
    (w0 : ℤ) (hw0 : IsWeekday w0 ⟨x.y, 1, 1⟩) (n : ℕ) (hd : DaysAfter n ⟨x.y, 1, 1⟩ x) :
    (weekOf x start).getIndexInYear = .ok (1 + (weekStarts w0 start n : ℤ)) := by
  have hf : (⟨x.y, 1, 1⟩ : Date).Valid :=
    ⟨by simp, by simp, by simp, by have := Cal.lastDay_bounds x.y 1; simp only; omega, by simp⟩
  rw [Cal.weekStarts_eq _ _ s0 s1]
  rw [Cal.daysAfter_iff hf hx] at hd
  rw [Cal.isWeekday_iff hf] at hw0
  have hdf : Cal.dn ⟨x.y, 1, 1⟩ = Cal.yearStart x.y + 1 := by
    unfold Cal.dn Cal.dayNo Cal.ord Cal.monthStart; simp [Cal.cum_one]
  unfold SolarWeek.getIndexInYear weekOf
  simp only
  rw [Cal.getDaysInYear_spec hx]
  have e : Solar.fromYmd x.y 1 1 = .ok (Cal.mid ⟨x.y, 1, 1⟩) := Cal.fromYmd_ok hf
  rw [e]
  show Except.ok _ = _
  rw [Cal.mid_week hf h0 h1, hd, hw0]
  congr 1
  unfold pyCeilDiv
  split_ifs <;> omega

/-- **C19 (partial)** `getWeeksOfMonth` is the number of weeks the month touches when its 1st does
not fall on a weekday numbered below `start`, and exactly one less otherwise (which is why the
full property fails: `C19_violated_weeksOfMonth`). -/
theorem C19_weeks_of_month_partial (y m start : ℤ) (m1 : 1 ≤ m) (m2 : m ≤ 12) (h0 : -4712 ≤ y)
    (h1 : y ≤ 9999) (s0 : 0 ≤ start) (s1 : start ≤ 6) (w0 : ℤ) (hw0 : IsWeekday w0 ⟨y, m, 1⟩)
    (l : Date) (hl : l.Valid) (hlm : l.y = y ∧ l.m = m ∧ l.d = lastDay y m) (n : ℕ)
    (hd : DaysAfter n ⟨y, m, 1⟩ l) :
    getWeeksOfMonth y m start
      = .ok (1 + (weekStarts w0 start n : ℤ) - if w0 < start then 1 else 0) := by
  have hv : (⟨y, m, 1⟩ : Date).Valid :=
    ⟨m1, m2, by simp, by have := Cal.lastDay_bounds y m; simp only; omega, by simp⟩
  rw [Cal.isWeekday_iff hv] at hw0
  rw [Cal.daysAfter_iff hv hl] at hd
  have hlast : Cal.dn l = Cal.MS (12 * y + (m - 1) + 1) := by
    obtain ⟨rfl, rfl, hld⟩ := hlm
    have hmi := Cal.mi_div hl
    have : Cal.mi l = 12 * l.y + (l.m - 1) := rfl
    rw [Cal.MS_succ, ← this, hmi.1, hmi.2, Cal.mi_MS hl, Cal.getDaysOfMonth_eq _ _ m1 m2]
    unfold Cal.dn Cal.dayNo Cal.ord
    rw [hld]
    by_cases c : l.y = 1582 ∧ l.m = 10
    · rw [c.1, c.2]; decide
    · rw [if_neg (by tauto), if_neg c]
  rw [Cal.getWeeksOfMonth_spec s0 s1 m1 m2 h0 h1 l hl hlast, Cal.weekStarts_eq _ _ s0 s1, ← hw0]
  unfold Cal.wk
  rw [hd]
  congr 1
  rw [hw0]
  omega

/-- **C19 violated** in 1582-10 `getIndex` ignores the ten missing days: on 1582-10-15 (fifth day
of the month, a Friday, weeks starting on Monday = the 1st) it says week 3 instead of 1. -/
theorem C19_violated_1582 :
    (weekOf ⟨1582, 10, 15⟩ 1).getIndex = .ok 3 ∧
    IsWeekday 1 ⟨1582, 10, 1⟩ ∧ DaysAfter 4 ⟨1582, 10, 1⟩ ⟨1582, 10, 15⟩ ∧ 1 + weekStarts 1 1 4 = 1 :=
  ⟨by decide +kernel, (Cal.isWeekday_iff (by decide)).2 (by decide), .inl ⟨by decide, by decide⟩, by decide⟩

/-- **C19 violated** `getWeeksOfMonth(2022, 5, 1)` (1st is a Sunday, weeks from Monday) is 5, but
the last day has index 6. -/
theorem C19_violated_weeksOfMonth :
    getWeeksOfMonth 2022 5 1 = .ok 5 ∧ (weekOf ⟨2022, 5, 31⟩ 1).getIndex = .ok 6 := by decide +kernel

example : (weekOf ⟨2022, 5, 31⟩ 1).getIndex = .ok (1 + (weekStarts 0 1 30 : ℤ)) :=
  C19_index_partial _ (by decide) (by decide) (by decide) (by decide) 1 (by decide) (by decide) 0
    ((Cal.isWeekday_iff (by decide)).2 (by decide)) 30
    ((Cal.daysAfter_iff (by decide) (by decide) _).2 (by decide))

/-! ## C20 -/

/-- a date for which week numbering is right: year in range and not in 1582-10 -/
def PlainDate (x : Date) : Prop := -4712 ≤ x.y ∧ x.y ≤ 9999 ∧ ¬ (x.y = 1582 ∧ x.m = 10)

/-- **C20 (partial)** forward: for `n > 0`, `next(n, True)` is a week object in the `n`-th
month-clipped week after the date's own, provided no date of the next `7 n` days is in 1582-10
or out of the year range.  Missing: paths through 1582-10 (`C20_violated_1582`). -/
theorem C20_forward_partial (x : Date) (hx : x.Valid) (start : ℤ) (s0 : 0 ≤ start) (s1 : start ≤ 6)
    (n : ℕ) (hn : 0 < n)
    (hp : ∀ (k : ℤ) (z : Date), 0 ≤ k → k ≤ 7 * n → z.Valid → DaysAfter k x z → PlainDate z) :
    ∃ w : Date, (weekOf x start).next n true = .ok (weekOf w start) ∧ w.Valid ∧ ClipAfter start n x w := by
  have hg : ∀ z : Date, z.Valid → Cal.dn x ≤ Cal.dn z → Cal.dn z ≤ Cal.dn x + 7 * n → Cal.Good z := by
    intro z hz l1 l2
    exact hp (Cal.dn z - Cal.dn x) z (by omega) (by omega) hz ((Cal.daysAfter_iff hx hz _).2 (by ring))
  have h0 : ClipAfter start 0 x x := (Cal.sameClip_iff s0 s1 hx hx).2 ⟨rfl, rfl⟩
  obtain ⟨w, t, e1, ⟨z, hz, hw, i1, i2, i3, i4, i5, i6⟩, e3⟩ := Cal.sepLoop_fwd s0 s1 x n hg n (w := x)
    (t := ⟨Cal.mid x, Cal.wkObj start x, x.m⟩) (k := 0) (by omega) (le_refl _) (by simp [Cal.mid_date]) h0
    ⟨x, hx, hx, rfl, rfl, rfl, le_refl _, rfl, .inl rfl⟩
  refine ⟨w, ?_, hw, by simpa using e3⟩
  unfold SolarWeek.next
  rw [if_neg (by omega)]
  have e : Solar.fromYmd (weekOf x start).year (weekOf x start).month (weekOf x start).day
    = .ok (Cal.mid x) := Cal.fromYmd_ok hx
  rw [e]
  show (SolarWeek.sepLoop start (decide ((n : ℤ) > 0)) (n : ℤ).natAbs
    ⟨Cal.mid x, Cal.wkObj start x, x.m⟩ >>= _) = _
  rw [show decide ((n : ℤ) > 0) = true by simp; omega, Int.natAbs_natCast, e1]
  show Except.ok t.week = _
  rw [i2]; rfl

/-- **C20 (partial)** backward, for weeks starting on Sunday (`start = 0`).  Missing: other starts
(`C20_violated_backward`) and 1582-10. -/
theorem C20_backward_partial (x : Date) (hx : x.Valid) (n : ℕ) (hn : 0 < n)
    (hp : ∀ (k : ℤ) (z : Date), 0 ≤ k → k ≤ 7 * n → z.Valid → DaysAfter k z x → PlainDate z) :
    ∃ w : Date, (weekOf x 0).next (-n) true = .ok (weekOf w 0) ∧ w.Valid ∧ ClipAfter 0 n w x := by
  have hg : ∀ z : Date, z.Valid → Cal.dn x - 7 * n ≤ Cal.dn z → Cal.dn z ≤ Cal.dn x → Cal.Good z := by
    intro z hz l1 l2
    exact hp (Cal.dn x - Cal.dn z) z (by omega) (by omega) hz ((Cal.daysAfter_iff hz hx _).2 (by ring))
  have h0 : ClipAfter 0 0 x x := (Cal.sameClip_iff (le_refl 0) (by norm_num) hx hx).2 ⟨rfl, rfl⟩
  obtain ⟨w, t, e1, ⟨z, hz, hw, i1, i2, i3, i4, i5, i6⟩, e3⟩ := Cal.sepLoop_bwd x hx n hg n (w := x)
    (t := ⟨Cal.mid x, Cal.wkObj 0 x, x.m⟩) (k := 0) (by omega) (le_refl _) (by simp [Cal.mid_date]) h0
    ⟨x, hx, hx, rfl, rfl, rfl, le_refl _, rfl, .inl rfl⟩
  refine ⟨w, ?_, hw, by simpa using e3⟩
  unfold SolarWeek.next
  rw [if_neg (by omega)]
  have e : Solar.fromYmd (weekOf x 0).year (weekOf x 0).month (weekOf x 0).day
    = .ok (Cal.mid x) := Cal.fromYmd_ok hx
  rw [e]
  show (SolarWeek.sepLoop 0 (decide (-(n : ℤ) > 0)) (-(n : ℤ)).natAbs
    ⟨Cal.mid x, Cal.wkObj 0 x, x.m⟩ >>= _) = _
  rw [show decide (-(n : ℤ) > 0) = false by simp, Int.natAbs_neg, Int.natAbs_natCast, e1]
  show Except.ok t.week = _
  rw [i2]; rfl

/-- **C20 violated** backward with weeks from Monday: from 2022-06-01 one step back gives
2022-05-29 (piece May 23-29) although the piece May 30-31 comes directly before June 1. -/
theorem C20_violated_backward :
    ∃ w, (weekOf ⟨2022, 6, 1⟩ 1).next (-1) true = .ok (weekOf w 1) ∧ w.Valid ∧
      ClipSucc 1 ⟨2022, 5, 30⟩ ⟨2022, 6, 1⟩ ∧ ¬ SameClip 1 w ⟨2022, 5, 30⟩ := by
  refine ⟨⟨2022, 5, 29⟩, by decide +kernel, by decide, ?_, ?_⟩
  · exact Cal.clipSucc_of (by norm_num) (by norm_num) (by decide) (by decide) (by decide)
  · rw [Cal.sameClip_iff (by norm_num) (by norm_num) (by decide) (by decide)]; decide

/-- **C20 violated** forward into 1582-10 with weeks from Sunday: from 1582-09-29 one step gives
1582-10-01, skipping the piece 1582-09-30. -/
theorem C20_violated_1582 :
    ∃ w, (weekOf ⟨1582, 9, 29⟩ 0).next 1 true = .ok (weekOf w 0) ∧ w.Valid ∧
      ClipSucc 0 ⟨1582, 9, 29⟩ ⟨1582, 9, 30⟩ ∧ ¬ SameClip 0 w ⟨1582, 9, 30⟩ := by
  refine ⟨⟨1582, 10, 1⟩, by decide +kernel, by decide, ?_, ?_⟩
  · exact Cal.clipSucc_of (by norm_num) (by norm_num) (by decide) (by decide) (by decide)
  · rw [Cal.sameClip_iff (by norm_num) (by norm_num) (by decide) (by decide)]; decide

/-- the hypotheses of the forward theorem are met, e.g. by ten steps from 2022-05-27 -/
example : ∃ w : Date, (weekOf ⟨2022, 5, 27⟩ 1).next (10 : ℕ) true = .ok (weekOf w 1) ∧ w.Valid ∧
    ClipAfter 1 10 ⟨2022, 5, 27⟩ w := by
  refine C20_forward_partial _ (by decide) 1 (by decide) (by decide) 10 (by decide) ?_
  intro k z h0 h1 hz hd
  rw [Cal.daysAfter_iff (by decide) hz] at hd
  have e : Cal.dn ⟨2022, 5, 27⟩ = 738670 := by decide
  have b := Cal.dn_month hz
  have e1 : Cal.MS (12 * 2022 + 4) = 738643 := by decide
  have e2 : Cal.MS (12 * 2022 + 11) = 738857 := by decide
  have l1 : 12 * 2022 + 4 ≤ Cal.mi z := by
    by_contra c
    have := Cal.MS_le_of_le (show Cal.mi z + 1 ≤ 12 * 2022 + 4 by omega)
    push_cast at h1; omega
  have l2 : Cal.mi z ≤ 12 * 2022 + 11 := by
    by_contra c
    have := Cal.MS_le_of_le (show 12 * 2022 + 11 ≤ Cal.mi z by omega)
    push_cast at h1; omega
  have := Cal.mi_div hz
  refine ⟨by omega, by omega, by omega⟩

/-! ## C21 -/

/-- first days of the twelve signs: Aquarius, Pisces, Aries, ... -/
def zodiacStarts : List (ℤ × ℤ) :=
  [(1, 20), (2, 19), (3, 21), (4, 20), (5, 21), (6, 22), (7, 23), (8, 23), (9, 23), (10, 24), (11, 23), (12, 22)]

/-- **C21** from one day to the next the sign changes exactly on the twelve boundary days, and then
to the next sign of the zodiac (index + 1 mod 12). -/
theorem C21_zodiac_steps (s t : Solar) (hs : s.Valid) (ht : s.next 1 = .ok t) :
    t.xingZuoIndex = if (t.month, t.day) ∈ zodiacStarts then (s.xingZuoIndex + 1) % 12 else s.xingZuoIndex := by
  obtain ⟨t', e1, e2, e3, e4⟩ := Cal.nextDay_spec hs 1
  have : t = t' := by
    have : (Except.ok t : Except PyErr Solar) = .ok t' := by rw [← ht, ← e1, Solar.next]
    simpa using this
  subst this
  have htom : t.date = tomorrow s.date :=
    Cal.dayNo_inj e2.1 (Cal.tomorrow_spec hs.1).1 (by rw [e4, (Cal.tomorrow_spec hs.1).2])
  have hb := Str.valid_field_bounds hs
  have hld := hs.1.2.2.2.1
  clear ht e1 e3 e4
  obtain ⟨y, m, d, _, _, _⟩ := s
  obtain ⟨y', m', d', _, _, _⟩ := t
  simp only [Solar.date] at htom hb hld
  show Solar.xingZuoIndex ⟨0, m', d', 0, 0, 0⟩ = if (m', d') ∈ zodiacStarts then
    (Solar.xingZuoIndex ⟨0, m, d, 0, 0, 0⟩ + 1) % 12 else Solar.xingZuoIndex ⟨0, m, d, 0, 0, 0⟩
  unfold tomorrow at htom
  split_ifs at htom with c1 c2 c3
  · simp only [Date.mk.injEq] at htom c1
    obtain ⟨rfl, rfl, rfl⟩ := htom
    obtain ⟨rfl, rfl, rfl⟩ := c1
    decide
  · simp only [Date.mk.injEq] at htom c2
    obtain ⟨rfl, rfl, rfl⟩ := htom
    have h1 := hb.1; have h2 := hb.2.1; have h3 := hb.2.2.1; have h4 := hb.2.2.2
    clear hs e2 hb c1 c2 hld
    interval_cases m' <;> interval_cases d <;> decide
  · simp only [Date.mk.injEq] at htom c2 c3
    obtain ⟨hy, rfl, rfl⟩ := htom
    subst hy
    have h1 := hb.1
    have hl := Cal.lastDay_bounds y' m
    have h3 : 28 ≤ d := by omega
    have h4 : d ≤ 31 := by omega
    clear hs e2 hb c1 c2 hld hl
    interval_cases m <;> interval_cases d <;> decide
  · simp only [Date.mk.injEq] at htom c2 c3
    obtain ⟨rfl, rfl, rfl⟩ := htom
    have h1 : m = 12 := by omega
    have hl := Cal.lastDay_bounds y m
    have h3 : 28 ≤ d := by omega
    have h4 : d ≤ 31 := by omega
    clear hs e2 hb c1 c2 hld hl
    subst h1
    interval_cases d <;> decide

/-- **C21** the index is always one of the twelve names; March 21 is Aries (index 0). -/
theorem C21_zodiac_range (s : Solar) :
    0 ≤ s.xingZuoIndex ∧ s.xingZuoIndex ≤ 11 ∧ (s.month = 3 ∧ s.day = 21 → s.xingZuoIndex = 0) := by
  unfold Solar.xingZuoIndex
  simp only
  have hi : ∀ (p : Prop) [Decidable p] (a b : ℤ), 0 ≤ a → 0 ≤ b → 0 ≤ if p then a else b := by
    intros; split_ifs <;> assumption
  have hj : ∀ (p : Prop) [Decidable p] (a b : ℤ), a ≤ 11 → b ≤ 11 → (if p then a else b) ≤ 11 := by
    intros; split_ifs <;> assumption
  refine ⟨?_, ?_, ?_⟩
  · iterate 11 (refine hi _ _ _ (by norm_num) ?_)
    norm_num
  · iterate 11 (refine hj _ _ _ (by norm_num) ?_)
    norm_num
  · rintro ⟨h1, h2⟩; rw [h1, h2]; norm_num

example : (⟨2020, 12, 31, 0, 0, 0⟩ : Solar).xingZuoIndex = 9 ∧ (⟨2021, 1, 20, 0, 0, 0⟩ : Solar).xingZuoIndex = 10 := by
  decide

/-! ## C22 -/

/-- **C22** the weekday festivals reported on a date: key `(m, k, w)` with `k ≥ 1` iff the date is
the `k`-th weekday `w` of month `m`, key `(m, 0, w)` iff it is the last weekday `w` of month `m`. -/
theorem C22_week_festivals (s : Solar) (hs : s.Valid) (h0 : -4712 ≤ s.year) (h1 : s.year ≤ 9999)
    (m k w : ℤ) :
    (m, k, w) ∈ s.weekFestivals ↔
      (m, k, w) ∈ Solar.weekFestivalKeys ∧ s.month = m ∧
        (k ≠ 0 → KthWeekday k w s.date) ∧ (k = 0 → LastWeekday w s.date) := by
  have hwk := Cal.getWeek_dn hs h0 h1
  have hb := Str.valid_field_bounds hs
  have hv := hs.1
  have hd := Cal.dn_month hv
  have hdiv := Cal.mi_div hv
  have ho := Cal.valid_ord hv
  have hms := Cal.mi_MS hv
  have hsucc := Cal.MS_succ (Cal.mi s.date)
  rw [hdiv.1, hdiv.2] at hsucc
  have hlen := Cal.getDaysOfMonth_bounds (y := s.year) hb.1 hb.2.1
  have edn : Cal.dn s.date = Cal.MS (Cal.mi s.date) + Cal.ord s.year s.month s.day := by
    rw [hms]; rfl
  -- k-th weekday in numbers
  have hK : ∀ k w : ℤ, KthWeekday k w s.date ↔
      w = (Cal.dn s.date + 3) % 7 ∧ 1 ≤ k ∧ 7 * (k - 1) < Cal.ord s.year s.month s.day ∧
        Cal.ord s.year s.month s.day ≤ 7 * k := by
    intro k w
    constructor
    · rintro ⟨x0, hx0, hm0, hw0, hmin, hk, hda⟩
      rw [Cal.isWeekday_iff hx0] at hw0
      rw [Cal.daysAfter_iff hx0 hv] at hda
      rw [Cal.sameMonth_iff hx0 hv] at hm0
      have b0 := Cal.dn_month hx0
      rw [hm0] at b0
      refine ⟨by omega, hk, by omega, ?_⟩
      by_contra hc
      have hz := Cal.ofDn_valid (Cal.dn x0 - 7)
      have hdz := Cal.dn_ofDn (Cal.dn x0 - 7)
      obtain ⟨n, hn, hnn⟩ := hmin _ hz
        ((Cal.sameMonth_iff hz hv).2 ((Cal.mi_iff hz _).2 (by omega)))
        ((Cal.isWeekday_iff hz).2 (by omega))
      rw [Cal.daysAfter_iff hx0 hz] at hnn
      omega
    · rintro ⟨hw, hk, hlo, hhi⟩
      have hz := Cal.ofDn_valid (Cal.dn s.date - 7 * (k - 1))
      have hdz := Cal.dn_ofDn (Cal.dn s.date - 7 * (k - 1))
      refine ⟨_, hz, ?_, ?_, ?_, hk, ?_⟩
      · exact (Cal.sameMonth_iff hz hv).2 ((Cal.mi_iff hz _).2 (by omega))
      · rw [Cal.isWeekday_iff hz]; omega
      · intro z hz' hm hw'
        rw [Cal.sameMonth_iff hz' hv] at hm
        rw [Cal.isWeekday_iff hz'] at hw'
        have bz := Cal.dn_month hz'
        rw [hm] at bz
        refine ⟨Cal.dn z - (Cal.dn s.date - 7 * (k - 1)), by omega, ?_⟩
        rw [Cal.daysAfter_iff hz hz', hdz]; ring
      · rw [Cal.daysAfter_iff hz hv, hdz]; ring
  have hL : ∀ w : ℤ, LastWeekday w s.date ↔
      w = (Cal.dn s.date + 3) % 7 ∧ getDaysOfMonth s.year s.month < Cal.ord s.year s.month s.day + 7 := by
    intro w
    have hsucc' : Cal.MS (Cal.mi s.date + 1) = Cal.MS (Cal.mi s.date) + getDaysOfMonth s.year s.month := hsucc
    constructor
    · rintro ⟨hw, hmax⟩
      rw [Cal.isWeekday_iff hv] at hw
      refine ⟨hw, ?_⟩
      by_contra hc
      have hz := Cal.ofDn_valid (Cal.dn s.date + 7)
      have hdz := Cal.dn_ofDn (Cal.dn s.date + 7)
      obtain ⟨n, hn, hnn⟩ := hmax _ hz
        ((Cal.sameMonth_iff hz hv).2 ((Cal.mi_iff hz _).2 (by omega)))
        ((Cal.isWeekday_iff hz).2 (by omega))
      rw [Cal.daysAfter_iff hz hv] at hnn
      omega
    · rintro ⟨hw, hlt⟩
      refine ⟨(Cal.isWeekday_iff hv).2 hw, ?_⟩
      intro z hz hm hw'
      rw [Cal.sameMonth_iff hz hv] at hm
      rw [Cal.isWeekday_iff hz] at hw'
      have bz := Cal.dn_month hz
      rw [hm] at bz
      refine ⟨Cal.dn s.date - Cal.dn z, by omega, ?_⟩
      rw [Cal.daysAfter_iff hz hv]; ring
  rw [hK, hL]
  unfold Solar.weekFestivals
  simp only
  rw [List.mem_append]
  have horq : Cal.ord s.year s.month s.day =
    if s.year = 1582 ∧ s.month = 10 ∧ s.day > 4 then s.day - 10 else s.day := rfl
  -- the reform month: weekdays are known
  have hreform : s.year = 1582 ∧ s.month = 10 →
      Cal.dn s.date = 578099 + Cal.ord s.year s.month s.day := by
    rintro ⟨a, b⟩
    have : Cal.dn s.date = Cal.monthStart s.year s.month + Cal.ord s.year s.month s.day := rfl
    rw [this, a, b]
    have : Cal.monthStart 1582 10 = 578099 := by decide
    rw [this]
  rw [hwk]
  generalize Cal.dn s.date = N at *
  generalize Cal.ord s.year s.month s.day = O at *
  have e3 : s.month = 3 → getDaysOfMonth s.year s.month = 31 := by
    intro h; rw [h]; unfold getDaysOfMonth daysOfMonthTable; norm_num
  generalize getDaysOfMonth s.year s.month = G at *
  have hmem : ∀ a b c : ℤ, (a, b, c) ∈ Solar.weekFestivalKeys ↔
      (a = 3 ∧ b = 0 ∧ c = 1) ∨ (a = 5 ∧ b = 2 ∧ c = 0) ∨ (a = 5 ∧ b = 3 ∧ c = 0) ∨ (a = 6 ∧ b = 3 ∧ c = 0) ∨
      (a = 9 ∧ b = 3 ∧ c = 6) ∨ (a = 10 ∧ b = 1 ∧ c = 1) ∨ (a = 11 ∧ b = 4 ∧ c = 4) := by
    intro a b c
    simp [Solar.weekFestivalKeys]
  have l1 : (m, k, w) ∈ (if (s.month, pyCeilDiv s.day 7, (N + 3) % 7) ∈ Solar.weekFestivalKeys then
      [(s.month, pyCeilDiv s.day 7, (N + 3) % 7)] else []) ↔
      (m, k, w) ∈ Solar.weekFestivalKeys ∧ m = s.month ∧ k = pyCeilDiv s.day 7 ∧ w = (N + 3) % 7 := by
    split_ifs with h
    · simp only [List.mem_singleton, Prod.mk.injEq]
      constructor
      · rintro ⟨rfl, rfl, rfl⟩; exact ⟨h, rfl, rfl, rfl⟩
      · rintro ⟨_, h⟩; exact h
    · simp only [List.not_mem_nil, false_iff]
      rintro ⟨h', rfl, rfl, rfl⟩; exact h h'
  have l2 : (m, k, w) ∈ (if s.day + 7 > G then
      (if (s.month, 0, (N + 3) % 7) ∈ Solar.weekFestivalKeys then [(s.month, 0, (N + 3) % 7)] else []) else []) ↔
      (m, k, w) ∈ Solar.weekFestivalKeys ∧ m = s.month ∧ k = 0 ∧ w = (N + 3) % 7 ∧ s.day + 7 > G := by
    split_ifs with h' h
    · simp only [List.mem_singleton, Prod.mk.injEq]
      constructor
      · rintro ⟨rfl, rfl, rfl⟩; exact ⟨h, rfl, rfl, rfl, h'⟩
      · rintro ⟨_, a, b, c, _⟩; exact ⟨a, b, c⟩
    · simp only [List.not_mem_nil, false_iff]
      rintro ⟨h'', rfl, rfl, rfl, _⟩; exact h h''
    · simp only [List.not_mem_nil, false_iff]
      rintro ⟨_, _, _, _, hh⟩; exact h' hh
  rw [l1, l2, hmem]
  unfold pyCeilDiv
  clear l1 l2 hK hL hwk hms hdiv hsucc edn hd
  split_ifs at horq with hc
  · have := hreform ⟨hc.1, hc.2.1⟩
    have hm10 := hc.2.1
    clear hreform e3
    constructor
    · rintro (⟨ha, hb', hcc, hd'⟩ | ⟨ha, hb', hcc, hd', he⟩) <;> exfalso <;>
        rcases ha with h | h | h | h | h | h | h <;> omega
    · rintro ⟨ha, hb', hcc, hd'⟩
      exfalso
      rcases ha with h | h | h | h | h | h | h <;> try omega
      have hk1 := hcc (by omega)
      have hg : ¬ (s.year = 1582 ∧ s.month = 10 ∧ 5 ≤ s.day ∧ s.day ≤ 14) := hv.2.2.2.2
      have hg' : 15 ≤ s.day := by omega
      omega
  · clear hreform
    constructor
    · rintro (⟨ha, hb', hcc, hd'⟩ | ⟨ha, hb', hcc, hd', he⟩)
      · refine ⟨ha, hb'.symm, ?_, ?_⟩
        · intro _; exact ⟨hd', by omega, by omega, by omega⟩
        · intro h; omega
      · have hm3 : s.month = 3 := by omega
        have := e3 hm3
        refine ⟨ha, hb'.symm, ?_, ?_⟩
        · intro h; exact absurd hcc h
        · intro _; exact ⟨hd', by omega⟩
    · rintro ⟨ha, hb', hcc, hd'⟩
      by_cases hk0 : k = 0
      · right
        have := hd' hk0
        exact ⟨ha, hb'.symm, hk0, this.1, by omega⟩
      · left
        have := hcc hk0
        exact ⟨ha, hb'.symm, by omega, this.1⟩

/-- **C22** hence a weekday festival falls on at most one day of a month: two dates of one month
reporting the same key are equal. -/
theorem C22_once (s t : Solar) (hs : s.Valid) (ht : t.Valid) (h0 : -4712 ≤ s.year) (h1 : s.year ≤ 9999)
    (hm : SameMonth s.date t.date) (key : ℤ × ℤ × ℤ) (k1 : key ∈ s.weekFestivals)
    (k2 : key ∈ t.weekFestivals) : s.date = t.date := by
  obtain ⟨m, k, w⟩ := key
  have hy : s.year = t.year := hm.1
  rw [C22_week_festivals s hs h0 h1] at k1
  rw [C22_week_festivals t ht (by omega) (by omega)] at k2
  obtain ⟨_, _, a1, a2⟩ := k1
  obtain ⟨_, _, b1, b2⟩ := k2
  apply Cal.dayNo_inj hs.1 ht.1
  by_cases hk : k = 0
  · obtain ⟨w1, x1⟩ := a2 hk
    obtain ⟨w2, x2⟩ := b2 hk
    obtain ⟨n, hn, d1⟩ := x1 _ ht.1 ⟨hm.1.symm, hm.2.symm⟩ w2
    obtain ⟨n', hn', d2⟩ := x2 _ hs.1 hm w1
    rw [Cal.daysAfter_iff ht.1 hs.1] at d1
    rw [Cal.daysAfter_iff hs.1 ht.1] at d2
    omega
  · obtain ⟨x0, v0, m0, w0, f0, _, d0⟩ := a1 hk
    obtain ⟨x1, v1, m1, w1, f1, _, d1⟩ := b1 hk
    obtain ⟨n, hn, e1⟩ := f0 _ v1 ⟨m1.1.trans hm.1.symm, m1.2.trans hm.2.symm⟩ w1
    obtain ⟨n', hn', e2⟩ := f1 _ v0 ⟨m0.1.trans hm.1, m0.2.trans hm.2⟩ w0
    rw [Cal.daysAfter_iff v0 v1] at e1
    rw [Cal.daysAfter_iff v1 v0] at e2
    rw [Cal.daysAfter_iff v0 hs.1] at d0
    rw [Cal.daysAfter_iff v1 ht.1] at d1
    omega

example : (⟨2022, 5, 8, 0, 0, 0⟩ : Solar).weekFestivals = [(5, 2, 0)] ∧
    (⟨2022, 3, 28, 0, 0, 0⟩ : Solar).weekFestivals = [(3, 0, 1)] ∧
    (⟨1582, 10, 1, 0, 0, 0⟩ : Solar).weekFestivals = [(10, 1, 1)] := by decide +kernel
