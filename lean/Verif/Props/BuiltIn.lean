import Verif.Proof.HolidayData
import Verif.Props.WorkDay

/-! # C101: the holiday records built into the library -/

section
open Spec HolidayUtil Hol HData

/-- before any call of `fix`, `getHoliday` reports `h` for the day `x` -/
def Spec.OnDay (x : Date) (h : Holiday) : Prop :=
  x.Valid ∧ 1000 ≤ x.y ∧ x.y ≤ 9999 ∧ getHoliday initial x.y x.m x.d = .ok (some h)

private theorem state : initial = ⟨NAMES, tableText builtin⟩ := by
  unfold initial; rw [data_text]

private theorem valid_range {x : Date} (hx : x.Valid) : 1 ≤ x.m ∧ x.m ≤ 12 ∧ 1 ≤ x.d ∧ x.d ≤ 31 := by
  have := Cal.lastDay_bounds x.y x.m
  obtain ⟨h1, h2, h3, h4, -⟩ := hx
  exact ⟨h1, h2, h3, by omega⟩

private theorem getHoliday_eq {x : Date} (hx : x.Valid) (x0 : 1000 ≤ x.y) (x1 : x.y ≤ 9999) :
    getHoliday initial x.y x.m x.d = .ok ((builtin.find? (fun r => r.day = ymd8 x.y x.m x.d)).map (shown NAMES)) := by
  obtain ⟨a, b, c, d⟩ := valid_range hx
  rw [state]
  exact C24_getHoliday NAMES builtin tok x.y x.m x.d x0 x1 a b c d

private theorem onDay_rec {x : Date} {h : Holiday} : OnDay x h ↔ ∃ n ∈ RECORDS, day n = x ∧ h = shown NAMES (recOf n) := by
  constructor
  · rintro ⟨hx, x0, x1, e⟩
    rw [getHoliday_eq hx x0 x1] at e
    by_cases c : ∃ n ∈ RECORDS, day n = x
    · obtain ⟨n, hn, ed⟩ := c
      rw [find_rec hn ed] at e
      simp only [Option.map_some, Except.ok.injEq, Option.some.injEq] at e
      exact ⟨n, hn, ed, e.symm⟩
    · push Not at c
      rw [find_none hx x0 x1 c] at e
      simp at e
  · rintro ⟨n, hn, rfl, rfl⟩
    have f := facts hn
    have y := f.year
    refine ⟨f.day, by omega, by omega, ?_⟩
    rw [getHoliday_eq f.day (by omega) (by omega), find_rec hn rfl]
    rfl

private theorem shown_day {n : ℕ} (hn : n ∈ RECORDS) : (shown NAMES (recOf n)).day = dashed (ymd8 (day n).y (day n).m (day n).d) := by
  rw [← day_key (facts hn).lt]
  rfl

private theorem shown_target (n : ℕ) : (shown NAMES (recOf n)).target = dashed (ymd8 (target n).y (target n).m (target n).d) := by
  rw [← target_key n]
  rfl

private theorem shown_work {n : ℕ} (hn : n ∈ RECORDS) : (shown NAMES (recOf n)).work = true ↔ n / 10 ^ 8 % 10 = 0 := by
  have e : (shown NAMES (recOf n)).work = decide ((recOf n).workCh = '0') := rfl
  rw [e, decide_eq_true_iff]
  rcases work_flag hn with ⟨a, b⟩ | ⟨a, b⟩
  · rw [a]; exact ⟨fun _ => b, fun _ => rfl⟩
  · rw [a]; exact ⟨fun c => absurd c (by decide), fun c => by omega⟩

private theorem shown_name {n : ℕ} (hn : n ∈ RECORDS) : NAMES[n / 10 ^ 9 % 10]? = some (shown NAMES (recOf n)).name := by
  have f := (facts hn).name
  have e : (shown NAMES (recOf n)).name = NAMES.getD ((ch (n / 10 ^ 9)).toNat - 48) [] := rfl
  rw [e, ch_toNat, Nat.add_sub_cancel_left, List.getElem?_eq_getElem (by exact f), List.getD_eq_getElem?_getD, List.getElem?_eq_getElem (by exact f)]
  rfl

/-- **C101** lookups in the built-in data never fail -/
theorem C101_total (x : Date) (hx : x.Valid) (x0 : 1000 ≤ x.y) (x1 : x.y ≤ 9999) : ∃ o, getHoliday initial x.y x.m x.d = .ok o :=
  ⟨_, getHoliday_eq hx x0 x1⟩

/-- **C101** what the library knows about a day: the day as asked for, one of the nine names, and a festival day near it, which is itself
a day off of the data; all days are from 2001 to 2026 -/
theorem C101_data (x : Date) (h : Holiday) (hx : OnDay x h) :
    2001 ≤ x.y ∧ x.y ≤ 2026 ∧ h.day = dashed (ymd8 x.y x.m x.d) ∧ h.name ∈ NAMES ∧
    ∃ t : Date, t.Valid ∧ h.target = dashed (ymd8 t.y t.m t.d) ∧ (∃ k : ℤ, -11 ≤ k ∧ k ≤ 8 ∧ DaysAfter k x t) ∧
      ∃ g, OnDay t g ∧ g.work = false := by
  obtain ⟨n, hn, rfl, rfl⟩ := onDay_rec.1 hx
  have f := facts hn
  refine ⟨f.year.1, f.year.2, shown_day hn, List.mem_of_getElem? (shown_name hn), target n, f.target, shown_target n, ?_, ?_⟩
  · refine ⟨Cal.dn (target n) - Cal.dn (day n), by have := f.near; omega, by have := f.near; omega, ?_⟩
    rw [Cal.daysAfter_iff f.day f.target]
    ring
  · obtain ⟨c, hc, e, w⟩ := feast hn
    refine ⟨shown NAMES (recOf c), onDay_rec.2 ⟨c, hc, e, rfl⟩, ?_⟩
    rw [Bool.eq_false_iff, ne_eq, shown_work hc]
    omega

private theorem name_index {n : ℕ} (hn : n ∈ RECORDS) {i : ℕ} {w : PyStr} (hi : NAMES[i]? = some w) (h : (shown NAMES (recOf n)).name = w) : n / 10 ^ 9 % 10 = i := by
  have e := shown_name hn
  rw [h, ← hi] at e
  have key : NAMES.Nodup := by decide
  exact (List.getElem?_inj (by exact (facts hn).name) key).1 e

/-- the text of a festival day, given its digits -/
private theorem target_text {n : ℕ} {y m d : ℤ} (y0 : 0 ≤ y) (y1 : y ≤ 9999) (m0 : 0 ≤ m) (m1 : m ≤ 99) (d0 : 0 ≤ d) (d1 : d ≤ 99)
    (e : ((n % 100000000 : ℕ) : ℤ) = y * 10000 + m * 100 + d) : (shown NAMES (recOf n)).target = dashed (ymd8 y m d) := by
  rw [ymd8_digits y0 y1 m0 m1 d0 d1, ← e]
  show dashed (digits 8 n) = _
  rw [digits_mod, Int.toNat_natCast]
  norm_num

/-- **C101 (partial)** festivals fixed in the civil calendar: the festival day of 元旦节 is a first of January, of 清明节 a fourth or fifth of
April, of 劳动节 a first of May, of 国庆节 and 国庆中秋 a first of October, of 抗战胜利日 the third of September 2015.
Missing: the records of 2014-10-04 and 2015-10-04 (`C101_violated_fixed`). -/
theorem C101_fixed_partial (x : Date) (h : Holiday) (hx : OnDay x h) (h1 : x ≠ ⟨2014, 10, 4⟩) (h2 : x ≠ ⟨2015, 10, 4⟩) :
    (h.name = ['元', '旦', '节'] → ∃ y, h.target = dashed (ymd8 y 1 1)) ∧
    (h.name = ['清', '明', '节'] → ∃ y, h.target = dashed (ymd8 y 4 4) ∨ h.target = dashed (ymd8 y 4 5)) ∧
    (h.name = ['劳', '动', '节'] → ∃ y, h.target = dashed (ymd8 y 5 1)) ∧
    (h.name = ['国', '庆', '节'] ∨ h.name = ['国', '庆', '中', '秋'] → ∃ y, h.target = dashed (ymd8 y 10 1)) ∧
    (h.name = ['抗', '战', '胜', '利', '日'] → h.target = dashed (ymd8 2015 9 3)) := by
  obtain ⟨n, hn, rfl, rfl⟩ := onDay_rec.1 hx
  have f := facts hn
  obtain ⟨f0, f2, f3, f6, f7, f8⟩ := f.fixed
  have t4 : ∀ u r, ofTarget u = [r] → n % 100000000 = u → n = r := by
    intro u r e c
    have : n ∈ ofTarget u := List.mem_filter.2 ⟨hn, by rw [Nat.beq_eq]; exact c⟩
    rw [e] at this
    simpa using this
  have fix : ∀ m d : ℕ, m ≤ 99 → d ≤ 99 → n % 10000 = m * 100 + d → ∃ y, (shown NAMES (recOf n)).target = dashed (ymd8 y m d) := by
    intro m d hm hd e
    exact ⟨((n / 10000 % 10000 : ℕ) : ℤ), target_text (by omega) (by omega) (by omega) (by omega) (by omega) (by omega) (by omega)⟩
  refine ⟨fun e => ?_, fun e => ?_, fun e => ?_, fun e => ?_, fun e => ?_⟩
  · exact fix 1 1 (by omega) (by omega) (f0 (name_index hn (i := 0) rfl e))
  · rcases f2 (name_index hn (i := 2) rfl e) with c | c
    · obtain ⟨y, hy⟩ := fix 4 4 (by omega) (by omega) c
      exact ⟨y, Or.inl hy⟩
    · obtain ⟨y, hy⟩ := fix 4 5 (by omega) (by omega) c
      exact ⟨y, Or.inr hy⟩
  · exact fix 5 1 (by omega) (by omega) (f3 (name_index hn (i := 3) rfl e))
  · rcases e with e | e
    · rcases f6 (name_index hn (i := 6) rfl e) with c | c | c
      · exact fix 10 1 (by omega) (by omega) c
      · exact absurd (by rw [t4 _ _ single4.1 (by omega)]; decide) h1
      · exact absurd (by rw [t4 _ _ single4.2.1 (by omega)]; decide) h2
    · exact fix 10 1 (by omega) (by omega) (f7 (name_index hn (i := 7) rfl e))
  · have := f8 (name_index hn (i := 8) rfl e)
    exact target_text (by omega) (by omega) (by omega) (by omega) (by omega) (by omega) (by omega)

private theorem mem_single {u r : ℕ} (e : ofTarget u = [r]) : r ∈ RECORDS :=
  (List.mem_filter.1 (show r ∈ ofTarget u by rw [e]; simp)).1

/-- **C101 violated** 2014-10-04 and 2015-10-04 are filed as days of a National Day festival on the fourth of October -/
theorem C101_violated_fixed :
    OnDay ⟨2014, 10, 4⟩ ⟨"2014-10-04".toList, ['国', '庆', '节'], false, "2014-10-04".toList⟩ ∧
    OnDay ⟨2015, 10, 4⟩ ⟨"2015-10-04".toList, ['国', '庆', '节'], false, "2015-10-04".toList⟩ :=
  ⟨onDay_rec.2 ⟨_, mem_single single4.1, by decide +kernel, by decide +kernel⟩,
    onDay_rec.2 ⟨_, mem_single single4.2.1, by decide +kernel, by decide +kernel⟩⟩

/-- **C101 (partial)** a day marked as a working day is a Saturday or a Sunday: on other days the mark would change nothing.
Missing: 2012-05-02 and 2012-10-08 (`C101_violated_weekend`). -/
theorem C101_weekend_partial (x : Date) (h : Holiday) (hx : OnDay x h) (hw : h.work = true) (h1 : x ≠ ⟨2012, 5, 2⟩) (h2 : x ≠ ⟨2012, 10, 8⟩) :
    IsWeekday 0 x ∨ IsWeekday 6 x := by
  obtain ⟨n, hn, rfl, rfl⟩ := onDay_rec.1 hx
  rw [shown_work hn] at hw
  have ne : ∀ y m d : ℕ, m ≤ 99 → d ≤ 99 → n / 10 ^ 10 = y * 10000 + m * 100 + d → day n = ⟨y, m, d⟩ := by
    intro y m d hm hd e
    unfold day
    simp only [Date.mk.injEq]
    omega
  rcases (facts hn).week with c | c | c | c | c
  · omega
  · exact Or.inl c
  · exact Or.inr c
  · exact absurd (ne 2012 5 2 (by omega) (by omega) c) h1
  · exact absurd (ne 2012 10 8 (by omega) (by omega) c) h2

/-- **C101 violated** Wednesday 2012-05-02 and Monday 2012-10-08 are marked as working days -/
theorem C101_violated_weekend :
    OnDay ⟨2012, 5, 2⟩ ⟨"2012-05-02".toList, ['劳', '动', '节'], true, "2012-05-01".toList⟩ ∧ IsWeekday 3 ⟨2012, 5, 2⟩ ∧
    OnDay ⟨2012, 10, 8⟩ ⟨"2012-10-08".toList, ['国', '庆', '节'], true, "2012-10-01".toList⟩ ∧ IsWeekday 1 ⟨2012, 10, 8⟩ := by
  refine ⟨onDay_rec.2 ⟨201205023020120501, by decide +kernel, by decide +kernel, by decide +kernel⟩, ?_,
    onDay_rec.2 ⟨201210086020121001, by decide +kernel, by decide +kernel, by decide +kernel⟩, ?_⟩
  · rw [Cal.isWeekday_iff (by decide)]; decide
  · rw [Cal.isWeekday_iff (by decide)]; decide

/-! ## lists of a year, of a month, of a festival -/

private theorem table_sorted : builtin.Pairwise (fun a b => strLt b.day a.day = false) := by
  unfold builtin
  rw [List.pairwise_map]
  refine sorted.imp_of_mem ?_
  intro a b ha hb h
  have fa := (facts ha).lt
  have fb := (facts hb).lt
  show strLt (digits 8 (b / 10 ^ 10)) (digits 8 (a / 10 ^ 10)) = false
  rw [strLt_digits, decide_eq_false_iff_not, Nat.mod_eq_of_lt (by omega), Nat.mod_eq_of_lt (by omega)]
  omega

/-- a holiday belongs to one day only -/
private theorem one_day {n : ℕ} (hn : n ∈ RECORDS) {x : Date} (h : OnDay x (shown NAMES (recOf n))) : x = day n := by
  obtain ⟨m, hm, rfl, e⟩ := onDay_rec.1 h
  have fm := facts hm
  have fn := facts hn
  have e' : dashed (digits 8 (n / 10 ^ 10)) = dashed (digits 8 (m / 10 ^ 10)) := congrArg Holiday.day e
  have e' := congrArg (pyReplace ['-'] []) e'
  rw [replace_dashed (digits_dash _ _), replace_dashed (digits_dash _ _)] at e'
  have := digits_inj (w := 8) (by have := fn.lt; omega) (by have := fm.lt; omega) e'
  unfold day
  simp only [Date.mk.injEq]
  omega

/-- in order of their days -/
def Spec.InOrder (hs : List Holiday) : Prop :=
  hs.Pairwise (fun a b => ∀ x x', OnDay x a → OnDay x' b → ∃ k : ℤ, 0 < k ∧ DaysAfter k x x')

private theorem in_order (p : HRec → Bool) : InOrder ((builtin.filter p).map (shown NAMES)) := by
  unfold InOrder builtin
  rw [List.pairwise_map]
  refine List.Pairwise.sublist List.filter_sublist ?_
  rw [List.pairwise_map]
  refine sorted.imp_of_mem ?_
  intro a b ha hb h x x' hx hx'
  obtain rfl := one_day ha hx
  obtain rfl := one_day hb hx'
  refine ⟨Cal.dn (day b) - Cal.dn (day a), ?_, ?_⟩
  · have := (facts ha).num
    have := (facts hb).num
    omega
  · rw [Cal.daysAfter_iff hx.1 hx'.1]
    ring

private theorem mem_filter (p : HRec → Bool) (h : Holiday) :
    h ∈ (builtin.filter p).map (shown NAMES) ↔ ∃ n ∈ RECORDS, p (recOf n) = true ∧ shown NAMES (recOf n) = h := by
  unfold builtin
  rw [List.mem_map]
  constructor
  · rintro ⟨r, hr, e⟩
    obtain ⟨m, q⟩ := List.mem_filter.1 hr
    obtain ⟨n, hn, rfl⟩ := List.mem_map.1 m
    exact ⟨n, hn, q, e⟩
  · rintro ⟨n, hn, q, e⟩
    exact ⟨recOf n, List.mem_filter.2 ⟨List.mem_map_of_mem hn, q⟩, e⟩

private theorem take_digits (a b n : ℕ) : (digits (a + b) n).take a = digits a (n / 10 ^ b) := by
  rw [digits_split, List.take_left' (digits_length _ _)]

/-- **C101** `getHolidays(year)` lists exactly the days of the year that `getHoliday` knows, in order -/
theorem C101_year (y : ℤ) (h0 : 1000 ≤ y) (h1 : y ≤ 9999) :
    ∃ hs, getHolidays initial y 0 = .ok hs ∧ (∀ h, h ∈ hs ↔ ∃ m d : ℤ, OnDay ⟨y, m, d⟩ h) ∧ InOrder hs := by
  refine ⟨_, by rw [state]; exact C25_getHolidays_year NAMES builtin tok table_sorted y h0 h1, fun h => ?_, in_order _⟩
  rw [mem_filter]
  have k4 : (ymd8 y 0 0).take 4 = digits 4 y.toNat := by
    rw [ymd8_digits (by omega) h1 (by omega) (by omega) (by omega) (by omega), take_digits 4 4]
    congr 1
    omega
  simp only [decide_eq_true_iff]
  have k : ∀ n ∈ RECORDS, ((recOf n).day.take 4 = (ymd8 y 0 0).take 4 ↔ (day n).y = y) := by
    intro n hn
    have f := facts hn
    have e : (recOf n).day.take 4 = digits 4 (n / 10 ^ 14) := by
      show (digits 8 (n / 10 ^ 10)).take 4 = _
      rw [take_digits 4 4, Nat.div_div_eq_div_mul, ← pow_add]
    rw [k4, e]
    unfold day
    dsimp only
    have := f.lt
    constructor
    · intro e
      have := digits_inj (w := 4) (by omega) (by omega) e
      omega
    · intro e
      congr 1
      omega
  constructor
  · rintro ⟨n, hn, q, rfl⟩
    refine ⟨(day n).m, (day n).d, onDay_rec.2 ⟨n, hn, ?_, rfl⟩⟩
    rw [← (k n hn).1 q]
  · rintro ⟨m, d, hd⟩
    obtain ⟨n, hn, e, rfl⟩ := onDay_rec.1 hd
    exact ⟨n, hn, (k n hn).2 (by rw [e]), rfl⟩

/-- **C101** `getHolidays(year, month)` lists exactly the days of the month that `getHoliday` knows, in order -/
theorem C101_month (y m : ℤ) (h0 : 1000 ≤ y) (h1 : y ≤ 9999) (m0 : 1 ≤ m) (m1 : m ≤ 12) :
    ∃ hs, getHolidays initial y m = .ok hs ∧ (∀ h, h ∈ hs ↔ ∃ d : ℤ, OnDay ⟨y, m, d⟩ h) ∧ InOrder hs := by
  refine ⟨_, by rw [state]; exact C25_getHolidays_month NAMES builtin tok table_sorted y m h0 h1 m0 m1, fun h => ?_, in_order _⟩
  rw [mem_filter]
  have k6 : (ymd8 y m 0).take 6 = digits 6 (y * 100 + m).toNat := by
    rw [ymd8_digits (by omega) h1 (by omega) (by omega) (by omega) (by omega), take_digits 6 2]
    congr 1
    omega
  simp only [decide_eq_true_iff]
  have k : ∀ n ∈ RECORDS, ((recOf n).day.take 6 = (ymd8 y m 0).take 6 ↔ (day n).y = y ∧ (day n).m = m) := by
    intro n hn
    have f := facts hn
    have e : (recOf n).day.take 6 = digits 6 (n / 10 ^ 12) := by
      show (digits 8 (n / 10 ^ 10)).take 6 = _
      rw [take_digits 6 2, Nat.div_div_eq_div_mul, ← pow_add]
    rw [k6, e]
    unfold day
    dsimp only
    have := f.lt
    constructor
    · intro e
      have := digits_inj (w := 6) (by omega) (by omega) e
      omega
    · intro e
      congr 1
      omega
  constructor
  · rintro ⟨n, hn, q, rfl⟩
    refine ⟨(day n).d, onDay_rec.2 ⟨n, hn, ?_, rfl⟩⟩
    rw [← ((k n hn).1 q).1, ← ((k n hn).1 q).2]
  · rintro ⟨d, hd⟩
    obtain ⟨n, hn, e, rfl⟩ := onDay_rec.1 hd
    exact ⟨n, hn, (k n hn).2 (by rw [e]; exact ⟨rfl, rfl⟩), rfl⟩

/-- **C101 (partial)** `getHolidaysByTarget` lists exactly the days of the festival, in order.
Missing: the National Days 2014, 2015 and 2017 (`C101_violated_by_target`). -/
theorem C101_by_target_partial (t : Date) (ht : t.Valid) (h0 : 1000 ≤ t.y) (h1 : t.y ≤ 9999) (hy : t ≠ ⟨2014, 10, 1⟩) (hy' : t ≠ ⟨2015, 10, 1⟩)
    (hy'' : t ≠ ⟨2017, 10, 1⟩) :
    ∃ hs, getHolidaysByTarget initial t.y t.m t.d = .ok hs ∧
      (∀ h, h ∈ hs ↔ h.target = dashed (ymd8 t.y t.m t.d) ∧ ∃ x, OnDay x h) ∧ InOrder hs := by
  obtain ⟨a1, a2, a3, a4⟩ := valid_range ht
  have kd := ymd8_digits (y := t.y) (m := t.m) (d := t.d) (by omega) h1 (by omega) (by omega) (by omega) (by omega)
  have e : getHolidaysByTarget initial t.y t.m t.d = .ok ((builtin.filter (fun r => r.target = ymd8 t.y t.m t.d)).map (shown NAMES)) := by
    unfold getHolidaysByTarget getHolidaysByTargetStr
    rw [if_neg (by omega), key_ymd8 h0 h1 (by omega) (by omega) (by omega) (by omega), state, backward_table tok rfl, run_filter_back]
    intro a b c hs pa pc
    rw [decide_eq_true_iff] at *
    rw [kd] at *
    have ne : ∀ y : ℤ, t ≠ ⟨y, 10, 1⟩ → (t.y * 10000 + t.m * 100 + t.d).toNat ≠ (y * 10000 + 1001).toNat ∨ y < 0 := by
      intro y h
      by_contra c
      push Not at c
      apply h
      cases t
      simp only [Date.mk.injEq] at *
      omega
    exact together hs (by omega) (by have := ne 2014 hy; omega) (by have := ne 2015 hy'; omega) (by have := ne 2017 hy''; omega) pa pc
  refine ⟨_, e, fun h => ?_, in_order _⟩
  rw [mem_filter]
  simp only [decide_eq_true_iff]
  constructor
  · rintro ⟨n, hn, q, rfl⟩
    exact ⟨congrArg dashed q, day n, onDay_rec.2 ⟨n, hn, rfl, rfl⟩⟩
  · rintro ⟨q, x, hd⟩
    obtain ⟨n, hn, e, rfl⟩ := onDay_rec.1 hd
    refine ⟨n, hn, ?_, rfl⟩
    have q' : dashed (digits 8 n) = dashed (ymd8 t.y t.m t.d) := q
    rw [kd] at q' ⊢
    have := congrArg (pyReplace ['-'] []) q'
    rwa [replace_dashed (digits_dash _ _), replace_dashed (digits_dash _ _)] at this

private theorem backward {y m d : ℤ} {T : ℕ} (h0 : 1000 ≤ y) (h1 : y ≤ 9999) (m0 : 1 ≤ m) (m1 : m ≤ 12) (d0 : 1 ≤ d) (d1 : d ≤ 31)
    (hT : T < 100000000) (e : (T : ℤ) = y * 10000 + m * 100 + d) :
    getHolidaysByTarget initial y m d = .ok ((((RECORDS.reverse.dropWhile (fun n => !Nat.beq (Nat.mod n 100000000) T)).takeWhile
      (fun n => Nat.beq (Nat.mod n 100000000) T)).reverse).map (fun n => shown NAMES (recOf n))) := by
  have kd : ymd8 y m d = digits 8 T := by
    rw [ymd8_digits (by omega) h1 (by omega) (by omega) (by omega) (by omega), ← e, Int.toNat_natCast]
  have fe : ∀ n, decide ((recOf n).target = digits 8 T) = Nat.beq (Nat.mod n 100000000) T := by
    intro n
    rw [Bool.eq_iff_iff, decide_eq_true_iff, Nat.beq_eq]
    show digits 8 n = digits 8 T ↔ n % 100000000 = T
    rw [digits_mod]
    constructor
    · intro h
      exact digits_inj (w := 8) (by norm_num; omega) (by norm_num; omega) h
    · intro h
      rw [← h]
      norm_num
  unfold getHolidaysByTarget getHolidaysByTargetStr
  rw [if_neg (by omega), key_ymd8 h0 h1 (by omega) (by omega) (by omega) (by omega), state, backward_table tok rfl, kd]
  unfold List.rtakeWhile List.rdropWhile builtin
  rw [List.reverse_reverse, ← List.map_reverse, List.dropWhile_map, List.takeWhile_map, ← List.map_reverse, List.map_map]
  have f1 : (fun r : HRec => decide (r.target = digits 8 T)) ∘ recOf = fun n => Nat.beq (Nat.mod n 100000000) T := funext fe
  have f2 : (fun r : HRec => !decide (r.target = digits 8 T)) ∘ recOf = fun n => !Nat.beq (Nat.mod n 100000000) T :=
    funext fun n => congrArg Bool.not (fe n)
  rw [f1, f2]
  rfl

/-- **C101 violated** `getHolidaysByTarget` stops at a record of another festival: asked for the National Days 2014, 2015 and 2017 it
returns four records each time and leaves out, among others, the first of October itself, though `getHoliday` reports that day with this
very festival -/
theorem C101_violated_by_target (y : ℤ) (hy : y = 2014 ∨ y = 2015 ∨ y = 2017) :
    ∃ h hs, OnDay ⟨y, 10, 1⟩ h ∧ h.target = dashed (ymd8 y 10 1) ∧ getHolidaysByTarget initial y 10 1 = .ok hs ∧ hs.length = 4 ∧ h ∉ hs := by
  rcases hy with rfl | rfl | rfl
  · refine ⟨_, _, onDay_rec.2 ⟨201410016120141001, by decide +kernel, by decide +kernel, rfl⟩, by decide +kernel,
      backward (T := 20141001) (by decide) (by decide) (by decide) (by decide) (by decide) (by decide) (by decide) (by decide), ?_⟩
    rw [show ((RECORDS.reverse.dropWhile (fun n => !Nat.beq (Nat.mod n 100000000) 20141001)).takeWhile
      (fun n => Nat.beq (Nat.mod n 100000000) 20141001)).reverse = [201410056120141001, 201410066120141001, 201410076120141001, 201410116020141001] by decide +kernel]
    decide +kernel
  · refine ⟨_, _, onDay_rec.2 ⟨201510016120151001, by decide +kernel, by decide +kernel, rfl⟩, by decide +kernel,
      backward (T := 20151001) (by decide) (by decide) (by decide) (by decide) (by decide) (by decide) (by decide) (by decide), ?_⟩
    rw [show ((RECORDS.reverse.dropWhile (fun n => !Nat.beq (Nat.mod n 100000000) 20151001)).takeWhile
      (fun n => Nat.beq (Nat.mod n 100000000) 20151001)).reverse = [201510056120151001, 201510066120151001, 201510076120151001, 201510106020151001] by decide +kernel]
    decide +kernel
  · refine ⟨_, _, onDay_rec.2 ⟨201710016120171001, by decide +kernel, by decide +kernel, rfl⟩, by decide +kernel,
      backward (T := 20171001) (by decide) (by decide) (by decide) (by decide) (by decide) (by decide) (by decide) (by decide), ?_⟩
    rw [show ((RECORDS.reverse.dropWhile (fun n => !Nat.beq (Nat.mod n 100000000) 20171001)).takeWhile
      (fun n => Nat.beq (Nat.mod n 100000000) 20171001)).reverse = [201710056120171001, 201710066120171001, 201710076120171001, 201710086120171001] by decide +kernel]
    decide +kernel

/-! ## working days -/

/-- a working day by the built-in data: marked as one, or without a record and from Monday to Friday -/
def Spec.WorkDay (x : Date) : Prop :=
  (∃ h, OnDay x h ∧ h.work = true) ∨ (∀ h, ¬ OnDay x h) ∧ ∃ w : ℤ, 1 ≤ w ∧ w ≤ 5 ∧ IsWeekday w x

private theorem workDay_iff {x : Date} (hx : x.Valid) (x0 : 1000 ≤ x.y) (x1 : x.y ≤ 9999) : WorkDay x ↔ Working builtin x := by
  by_cases c : ∃ n ∈ RECORDS, day n = x
  · obtain ⟨n, hn, rfl⟩ := c
    rw [working_rec hn, ← shown_work hn]
    have on : OnDay (day n) (shown NAMES (recOf n)) := onDay_rec.2 ⟨n, hn, rfl, rfl⟩
    constructor
    · rintro (⟨h, h1, h2⟩ | ⟨h, -⟩)
      · have e := h1.2.2.2.symm.trans on.2.2.2
        simp only [Except.ok.injEq, Option.some.injEq] at e
        rwa [← e]
      · exact absurd on (h _)
    · exact fun h => Or.inl ⟨_, on, h⟩
  · push Not at c
    have no : ∀ h, ¬ OnDay x h := fun h hd => by
      obtain ⟨n, hn, e, -⟩ := onDay_rec.1 hd
      exact c n hn e
    unfold Working
    rw [find_none hx x0 x1 c]
    constructor
    · rintro (⟨h, h1, -⟩ | ⟨-, h⟩)
      · exact absurd h1 (no h)
      · exact h
    · exact fun h => Or.inr ⟨no, h⟩

private theorem isNth_congr {e : ℤ} {P Q : Date → Prop} {n : ℕ} {x y : Date} (hP : P y ↔ Q y)
    (h : ∀ k : ℕ, DaysAfter (e * k) x y → ∀ z : Date, z.Valid → ∀ j : ℕ, j ≤ k → DaysAfter (e * j) x z → (P z ↔ Q z)) :
    IsNth e P n x y → IsNth e Q n x y := by
  rintro ⟨k, k1, k2, k3, k4⟩
  refine ⟨k, k1, k2, hP.1 k3, ?_⟩
  rw [← k4]
  congr 1
  ext z
  simp only [Set.mem_ofPred_eq]
  constructor
  · rintro ⟨a, b, j, j1, j2, j3⟩
    exact ⟨a, (h k k2 z a j j2 j3).2 b, j, j1, j2, j3⟩
  · rintro ⟨a, b, j, j1, j2, j3⟩
    exact ⟨a, (h k k2 z a j j2 j3).1 b, j, j1, j2, j3⟩

private theorem range_of {e : ℤ} (he : e = 1 ∨ e = -1) {x y : Date} (hx : x.Valid) (hy : y.Valid)
    (x0 : 1000 ≤ x.y) (x1 : x.y ≤ 9999) (y0 : 1000 ≤ y.y) (y1 : y.y ≤ 9999) {k : ℕ}
    (hk : Cal.dn y = Cal.dn x + e * k) (j : ℕ) (hj : j ≤ k) :
    1000 ≤ (Cal.ofDn (Cal.dn x + e * j)).y ∧ (Cal.ofDn (Cal.dn x + e * j)).y ≤ 9999 := by
  have hv := Cal.ofDn_valid (Cal.dn x + e * j)
  rcases he with rfl | rfl
  · have a := Work.year_mono hx hv (by rw [Cal.dn_ofDn]; omega)
    have b := Work.year_mono hv hy (by rw [Cal.dn_ofDn]; omega)
    omega
  · have a := Work.year_mono hv hx (by rw [Cal.dn_ofDn]; omega)
    have b := Work.year_mono hy hv (by rw [Cal.dn_ofDn]; omega)
    omega

private theorem cnt_eleven {e : ℤ} (he : e = 1 ∨ e = -1) (d : ℤ) (n : ℕ)
    (hr : ∀ j : ℕ, j ≤ 11 * n → 1000 ≤ (Cal.ofDn (d + e * j)).y ∧ (Cal.ofDn (d + e * j)).y ≤ 9999) :
    n ≤ Work.cnt (fun i => Working builtin (Cal.ofDn i)) e d (11 * n) := by
  induction n with
  | zero => omega
  | succ n ih =>
    have ih := ih (fun j hj => hr j (by omega))
    obtain ⟨j, j1, j2⟩ : ∃ j : ℕ, j ≤ 10 ∧ Working builtin (Cal.ofDn (d + e * ((11 * n + j : ℕ) + 1 : ℤ))) := by
      rcases he with rfl | rfl
      · obtain ⟨j, j1, j2⟩ := eleven (d + 11 * n + 1) (fun j hj => by
          have := hr (11 * n + 1 + j) (by omega)
          rwa [show d + 1 * ((11 * n + 1 + j : ℕ) : ℤ) = d + 11 * n + 1 + j by push_cast; ring] at this)
        refine ⟨j, j1, ?_⟩
        rwa [show d + 1 * (((11 * n + j : ℕ) : ℤ) + 1) = d + 11 * n + 1 + j by push_cast; ring]
      · obtain ⟨j, j1, j2⟩ := eleven (d - 11 * n - 11) (fun j hj => by
          have := hr (11 * n + 11 - j) (by omega)
          rwa [show d + -1 * ((11 * n + 11 - j : ℕ) : ℤ) = d - 11 * n - 11 + j by
            rw [Nat.cast_sub (by omega)]; push_cast; ring] at this)
        refine ⟨10 - j, by omega, ?_⟩
        rwa [show d + -1 * (((11 * n + (10 - j) : ℕ) : ℤ) + 1) = d - 11 * n - 11 + j by
          rw [Nat.cast_add, Nat.cast_sub j1]; push_cast; ring]
    have mono : ∀ a b : ℕ, a ≤ b → Work.cnt (fun i => Working builtin (Cal.ofDn i)) e d a ≤ Work.cnt (fun i => Working builtin (Cal.ofDn i)) e d b := by
      intro a b hab
      classical
      unfold Work.cnt
      exact Finset.card_le_card (Finset.filter_subset_filter _ (Finset.range_mono hab))
    have m1 := mono (11 * n) (11 * n + j) (by omega)
    have m2 := mono (11 * n + j + 1) (11 * (n + 1)) (by omega)
    have m3 := Work.cnt_succ (fun i => Working builtin (Cal.ofDn i)) e d (11 * n + j)
    rw [if_pos j2] at m3
    omega

/-- **C101** `next(n, True)` on the built-in data arrives at the `n`-th working day, forwards and backwards, and this day is at most
`11 * n` days away -/
theorem C101_next_work (e : ℤ) (he : e = 1 ∨ e = -1) (s : Solar) (hs : s.Valid) (s0 : 1000 ≤ s.year) (s1 : s.year ≤ 9999)
    (n : ℕ) (hn : 1 ≤ n) (z : Date) (hz : z.Valid) (z0 : 1000 ≤ z.y) (z1 : z.y ≤ 9999) (hd : DaysAfter (e * (11 * n : ℕ)) s.date z) :
    ∃ u : Solar, IsNth e WorkDay n s.date u.date ∧ (∃ k : ℕ, k ≤ 11 * n ∧ DaysAfter (e * k) s.date u.date) ∧ Solar.SameClock s u ∧
      ∃ fuel₀ : ℕ, ∀ fuel, fuel₀ ≤ fuel → Solar.nextWork initial s (e * n) fuel = some (.ok u) := by
  rw [Cal.daysAfter_iff hs.1 hz] at hd
  have hr := range_of he hs.1 hz s0 s1 z0 z1 hd
  obtain ⟨k, k1, k2, k3, k4⟩ := Work.exists_nth (fun i => Working builtin (Cal.ofDn i)) e (Cal.dn s.date) (11 * n) n hn
    (cnt_eleven he _ n hr)
  have hk : DaysAfter (e * k) s.date (Cal.ofDn (Cal.dn s.date + e * k)) := by
    rw [Cal.daysAfter_iff hs.1 (Cal.ofDn_valid _), Cal.dn_ofDn]
  have nth : IsNth e (Working builtin) n s.date (Cal.ofDn (Cal.dn s.date + e * k)) :=
    ⟨k, k1, hk, k4, by rw [Work.ncard_eq he _ hs.1]; exact k3⟩
  obtain ⟨u, u1, u2, u3⟩ := C23_next_work NAMES builtin tok e he s hs s0 s1 n hn _ (Cal.ofDn_valid _) (hr k k2).1 (hr k k2).2 nth
  rw [← state] at u3
  refine ⟨u, ?_, ⟨k, k2, by rw [u1]; exact hk⟩, u2, u3⟩
  rw [u1]
  refine isNth_congr (workDay_iff (Cal.ofDn_valid _) (hr k k2).1 (hr k k2).2).symm ?_ nth
  intro l hl x hx j hj hd'
  rw [Cal.daysAfter_iff hs.1 (Cal.ofDn_valid _), Cal.dn_ofDn] at hl
  rw [Cal.daysAfter_iff hs.1 hx] at hd'
  have lk : l = k := by rcases he with rfl | rfl <;> omega
  have := hr j (by omega)
  rw [← hd', Cal.ofDn_dn hx] at this
  exact (workDay_iff hx this.1 this.2).symm

/-- three working days from 30 September 2020 reach at most to 2 November -/
example : ∃ u : Solar, IsNth 1 WorkDay 3 ⟨2020, 9, 30⟩ u.date := by
  obtain ⟨u, h, -⟩ := C101_next_work 1 (Or.inl rfl) ⟨2020, 9, 30, 8, 0, 0⟩ (by decide) (by decide) (by decide) 3 (by decide)
    ⟨2020, 11, 2⟩ (by decide) (by decide) (by decide) (by
      rw [Cal.daysAfter_iff (by decide) (by decide)]; decide)
  exact ⟨u, h⟩

/-! ## corrections of the built-in data -/

private theorem fixable : Fixable NAMES builtin := ⟨by decide, tok, days_nodup, fun r hr => by
  obtain ⟨n, hn, rfl⟩ := List.mem_map.1 hr
  rcases work_flag hn with h | h
  · exact Or.inl h.1
  · exact Or.inr h.1⟩

/-- **C101** the first call of `fix` with one record: the given day now has this record, every other day keeps what the library came with -/
theorem C101_fix_set (s : HRec) (hs : s.Ok NAMES.length) (hsw : s.workCh = '0' ∨ s.workCh = '1') (hst : s.nameCh ≠ '~') :
    ∃ st', fix initial none (some s.text) = (st', .ok ()) ∧
      ∀ q : PyStr, q.length = 8 → '-' ∉ q →
        getHolidayStr st' q 0 0 = if q = s.day then .ok (some (shown NAMES s)) else getHolidayStr initial q 0 0 := by
  rw [state]
  obtain ⟨t', h1, -, h3⟩ := C27_fix_set_partial NAMES builtin fixable s hs hsw hst (fun r hr _ p hp => aligned hr p hp)
  exact ⟨_, h1, h3⟩

/-- **C101** the first call of `fix` with one removal: the given day has no record any more, every other day keeps what the library came
with -/
theorem C101_fix_remove (seg : PyStr) (hl : seg.length = 18) (hd : '-' ∉ seg.take 8) (hr : seg[8]? = some '~') :
    ∃ st', fix initial none (some seg) = (st', .ok ()) ∧
      ∀ q : PyStr, q.length = 8 → '-' ∉ q →
        getHolidayStr st' q 0 0 = if q = seg.take 8 then .ok none else getHolidayStr initial q 0 0 := by
  rw [state]
  obtain ⟨t', h1, -, h3⟩ := C27_fix_remove_partial NAMES builtin fixable seg hl hd hr (fun r hr _ p hp => aligned hr p hp)
  exact ⟨_, h1, h3⟩

/-- a removal: of the record of 1 January 2020 -/
example : "20200101~000000000".toList.length = 18 ∧ '-' ∉ "20200101~000000000".toList.take 8 ∧ "20200101~000000000".toList[8]? = some '~' := by
  decide

/-- a record of a day: 24 January 2020 belongs to the Spring Festival of 25 January -/
example : ∃ h, OnDay ⟨2020, 1, 24⟩ h ∧ h.name = "春节".toList ∧ h.work = false ∧ h.target = "2020-01-25".toList :=
  ⟨_, onDay_rec.2 ⟨202001241120200125, by decide +kernel, by decide +kernel, rfl⟩, by decide +kernel, by decide +kernel, by decide +kernel⟩

end
