import Verif.Proof.DayNo

/-! Helper lemmas about `Solar` navigation. -/

namespace Solar

/-- the civil date of a `Solar` (reading off `getYear`, `getMonth`, `getDay`,
`lunar_python/Solar.py` 318-325) -/
def date (s : Solar) : Spec.Date := ⟨s.year, s.month, s.day⟩

/-- an existing moment: existing civil date and a clock time -/
def Valid (s : Solar) : Prop := s.date.Valid ∧ Spec.ClockOk s.hour s.minute s.second

instance (s : Solar) : Decidable s.Valid := by unfold Valid; infer_instance

/-- same clock time -/
def SameClock (s t : Solar) : Prop := t.hour = s.hour ∧ t.minute = s.minute ∧ t.second = s.second

instance (s t : Solar) : Decidable (SameClock s t) := by unfold SameClock; infer_instance

end Solar

namespace Cal
open SolarUtil Spec Solar

theorem fromYmdHms_ok {y m d h mi s : ℤ} (hd : (⟨y, m, d⟩ : Date).Valid) (hc : ClockOk h mi s) :
    Solar.fromYmdHms y m d h mi s = .ok ⟨y, m, d, h, mi, s⟩ := by
  obtain ⟨h1, h2, h3, h4, h5⟩ := hd
  simp only at *
  unfold ClockOk at hc
  unfold Solar.fromYmdHms
  rw [if_neg (by omega), if_neg (by omega), if_neg (by omega), if_neg (by omega),
    if_neg (by omega), if_neg (by omega)]

theorem nextDayFwd_spec (y m d : ℤ) : 1 ≤ m → m ≤ 12 → 1 ≤ d →
    1 ≤ (nextDayFwd y m d).2.1 ∧ (nextDayFwd y m d).2.1 ≤ 12 ∧ 1 ≤ (nextDayFwd y m d).2.2 ∧
    (nextDayFwd y m d).2.2 ≤ getDaysOfMonth (nextDayFwd y m d).1 (nextDayFwd y m d).2.1 ∧
    monthStart (nextDayFwd y m d).1 (nextDayFwd y m d).2.1 + (nextDayFwd y m d).2.2 = monthStart y m + d := by
  fun_induction nextDayFwd y m d with
  | case1 y m d h1 h2 ih =>
    intro a b c
    have hm : m = 12 := by omega
    obtain ⟨i1, i2, i3, i4, i5⟩ := ih (by omega) (by omega) (by omega)
    refine ⟨i1, i2, i3, i4, ?_⟩
    rw [i5, monthStart_year, hm]; omega
  | case2 y m d h1 h2 ih =>
    intro a b c
    obtain ⟨i1, i2, i3, i4, i5⟩ := ih (by omega) (by omega) (by omega)
    refine ⟨i1, i2, i3, i4, ?_⟩
    rw [i5, monthStart_succ _ _ a (by omega)]; omega
  | case3 y m d h1 => intro a b c; exact ⟨a, b, c, by simp only; omega, rfl⟩

theorem nextDayBwd_spec (y m d n : ℤ) : 1 ≤ m → m ≤ 12 → d + n ≤ getDaysOfMonth y m →
    1 ≤ (nextDayBwd y m d n).2.1 ∧ (nextDayBwd y m d n).2.1 ≤ 12 ∧ 1 ≤ (nextDayBwd y m d n).2.2 ∧
    (nextDayBwd y m d n).2.2 ≤ getDaysOfMonth (nextDayBwd y m d n).1 (nextDayBwd y m d n).2.1 ∧
    monthStart (nextDayBwd y m d n).1 (nextDayBwd y m d n).2.1 + (nextDayBwd y m d n).2.2
      = monthStart y m + d + n := by
  fun_induction nextDayBwd y m d n with
  | case1 y m d h1 h2 ih =>
    intro a b c
    have hm : m = 1 := by omega
    obtain ⟨i1, i2, i3, i4, i5⟩ := ih (by omega) (by omega) (by omega)
    refine ⟨i1, i2, i3, i4, ?_⟩
    rw [i5]
    have := monthStart_year (y - 1)
    rw [show y - 1 + 1 = y by omega] at this
    rw [hm, this]; omega
  | case2 y m d h1 h2 ih =>
    intro a b c
    obtain ⟨i1, i2, i3, i4, i5⟩ := ih (by omega) (by omega) (by omega)
    refine ⟨i1, i2, i3, i4, ?_⟩
    rw [i5]
    have := monthStart_succ y (m - 1) (by omega) (by omega)
    rw [show m - 1 + 1 = m by omega] at this
    rw [this]; omega
  | case3 y m d h1 => intro a b c; simp only; omega

/-- `nextDay` moves the day number by exactly `n`, always succeeds, keeps the clock -/
theorem nextDay_spec {s : Solar} (hs : s.Valid) (n : ℤ) :
    ∃ t, s.next n = .ok t ∧ t.Valid ∧ SameClock s t ∧ dn t.date = dn s.date + n := by
  obtain ⟨hd, hc⟩ := hs
  have ho := valid_ord hd
  have h1 := hd.1; have h2 := hd.2.1
  simp only [Solar.date] at *
  unfold Solar.next Solar.nextDay
  set r : ℤ × ℤ × ℤ := if n > 0 then nextDayFwd s.year s.month (ord s.year s.month s.day + n)
    else if n < 0 then nextDayBwd s.year s.month (ord s.year s.month s.day) n
    else (s.year, s.month, ord s.year s.month s.day) with hr
  have key : 1 ≤ r.2.1 ∧ r.2.1 ≤ 12 ∧ 1 ≤ r.2.2 ∧ r.2.2 ≤ getDaysOfMonth r.1 r.2.1 ∧
      monthStart r.1 r.2.1 + r.2.2 = monthStart s.year s.month + ord s.year s.month s.day + n := by
    rw [hr]
    split_ifs with c1 c2
    · have := nextDayFwd_spec s.year s.month (ord s.year s.month s.day + n) h1 h2 (by omega)
      rw [← add_assoc] at this; exact this
    · exact nextDayBwd_spec _ _ _ _ h1 h2 (by omega)
    · simp only; omega
  obtain ⟨k1, k2, k3, k4, k5⟩ := key
  have hv := unord_valid k1 k2 k3 k4
  have e1 : (if s.year = 1582 ∧ s.month = 10 ∧ s.day > 4 then s.day - 10 else s.day)
      = ord s.year s.month s.day := rfl
  simp only [e1, ← hr]
  refine ⟨⟨r.1, r.2.1, unord r.1 r.2.1 r.2.2, s.hour, s.minute, s.second⟩, ?_, ?_, ?_, ?_⟩
  · exact fromYmdHms_ok hv hc
  · exact ⟨hv, hc⟩
  · exact ⟨rfl, rfl, rfl⟩
  · simp only [dn, dayNo, ord_unord]; omega

/-- the day-level content of a `Solar` -/
theorem ext_of {s t : Solar} (h1 : s.date = t.date) (h2 : SameClock s t) : s = t := by
  cases s; cases t
  simp only [Solar.date, SameClock, Date.mk.injEq, Solar.mk.injEq] at *
  omega

theorem next_eq {s t : Solar} (hs : s.Valid) (ht : t.Valid) (n : ℤ) (hc : SameClock s t)
    (hd : dn t.date = dn s.date + n) : s.next n = .ok t := by
  obtain ⟨u, h1, h2, h3, h4⟩ := nextDay_spec hs n
  rw [h1]
  congr 1
  refine ext_of (dayNo_inj h2.1 ht.1 (by omega)) ?_
  unfold SameClock at *; omega

/-! ### day of year, subtraction -/

theorem pyRange_succ {a b : ℤ} (h : a ≤ b) : pyRange a (b + 1) = pyRange a b ++ [b] := by
  unfold pyRange
  rw [show (b + 1 - a).toNat = (b - a).toNat + 1 by omega, List.range_succ, List.map_append]
  simp only [List.map_cons, List.map_nil]
  rw [show a + ((b - a).toNat : ℤ) = b by omega]

theorem pyRange_self (a : ℤ) : pyRange a a = [] := by simp [pyRange]

theorem foldl_months (y : ℤ) (m : ℤ) (h1 : 1 ≤ m) (h2 : m ≤ 12) :
    (pyRange 1 m).foldl (fun acc i => acc + getDaysOfMonth y i) 0 = cum y m := by
  obtain ⟨n, rfl⟩ : ∃ n : ℕ, m = 1 + n := ⟨(m - 1).toNat, by omega⟩
  clear h1
  induction n with
  | zero => simp [pyRange_self, cum_one]
  | succ n ih =>
    push_cast at *
    rw [← add_assoc, pyRange_succ (by omega), List.foldl_append, ih (by omega)]
    simp only [List.foldl_cons, List.foldl_nil]
    rw [cum_succ _ _ (by omega) (by omega)]

theorem getDaysInYear_spec {x : Date} (h : x.Valid) :
    getDaysInYear x.y x.m x.d = .ok (dn x - yearStart x.y) := by
  unfold getDaysInYear
  rw [foldl_months _ _ h.1 h.2.1]
  have h5 := h.2.2.2.2
  unfold dn dayNo monthStart ord
  simp only
  split_ifs with c1 c2 c3 c4 <;> first | omega | (congr 1; omega)

theorem addYears_spec (d lo : ℤ) (n : ℕ) :
    addYears d lo (lo + n) = d + yearStart (lo + n) - yearStart lo := by
  unfold addYears
  induction n with
  | zero => simp [pyRange_self]
  | succ n ih =>
    push_cast at *
    rw [← add_assoc, pyRange_succ (by omega), List.foldl_append, ih]
    simp only [List.foldl_cons, List.foldl_nil]
    rw [yearStart_succ]; ring

theorem addYears_spec' {d lo hi : ℤ} (h : lo ≤ hi) :
    addYears d lo hi = d + yearStart hi - yearStart lo := by
  have := addYears_spec d lo (hi - lo).toNat
  rw [show lo + ((hi - lo).toNat : ℤ) = hi by omega] at this
  exact this

theorem getDaysBetween_spec {a b : Date} (ha : a.Valid) (hb : b.Valid) :
    getDaysBetween a.y a.m a.d b.y b.m b.d = .ok (dn b - dn a) := by
  unfold getDaysBetween
  rw [getDaysInYear_spec ha, getDaysInYear_spec hb]
  have e1 := yearStart_succ a.y
  have e2 := yearStart_succ b.y
  split_ifs with c1 c2
  · show Except.ok _ = _
    rw [c1]; congr 1; ring
  · show Except.ok _ = _
    congr 1
    rw [addYears_spec' (by omega), e2]; ring
  · show Except.ok _ = _
    congr 1
    rw [addYears_spec' (by omega), e1]; ring

theorem subtract_spec {s o : Solar} (hs : s.Valid) (ho : o.Valid) :
    s.subtract o = .ok (dn s.date - dn o.date) :=
  getDaysBetween_spec ho.1 hs.1

end Cal

namespace Cal
open SolarUtil Spec Solar

/-! ### months, hours -/

theorem solarMonth_next_spec (s : SolarMonth) (h1 : 1 ≤ s.month) (h2 : s.month ≤ 12) (n : ℤ) :
    12 * (s.next n).year + (s.next n).month = 12 * s.year + s.month + n ∧
    1 ≤ (s.next n).month ∧ (s.next n).month ≤ 12 := by
  unfold SolarMonth.next
  dsimp only
  rw [Int.tdiv_eq_ediv_of_nonneg (abs_nonneg n)]
  rcases lt_or_ge n 0 with h | h
  · rw [abs_of_neg h]
    simp only [h, if_true]
    split_ifs <;> simp only <;> omega
  · rw [abs_of_nonneg h]
    have : ¬ n < 0 := by omega
    simp only [this, if_false]
    split_ifs <;> simp only <;> omega

/-- seconds since an arbitrary origin -/
def secNo (s : Solar) : ℤ := 86400 * dn s.date + (s.hour * 3600 + s.minute * 60 + s.second)

theorem secondsAfter_iff {s t : Solar} (hs : s.Valid) (ht : t.Valid) (n : ℤ) :
    SecondsAfter n s.date s.hour s.minute s.second t.date t.hour t.minute t.second ↔
      secNo t = secNo s + n := by
  unfold SecondsAfter secNo
  constructor
  · rintro ⟨k, hk, e⟩
    rw [daysAfter_iff hs.1 ht.1] at hk
    rw [hk, e]; ring
  · intro h
    refine ⟨dn t.date - dn s.date, ?_, ?_⟩
    · rw [daysAfter_iff hs.1 ht.1]; ring
    · linarith

theorem secNo_inj {s t : Solar} (hs : s.Valid) (ht : t.Valid) (h : secNo s = secNo t) : s = t := by
  obtain ⟨hd, hc⟩ := hs
  obtain ⟨hd', hc'⟩ := ht
  unfold secNo ClockOk at *
  refine ext_of (dayNo_inj hd hd' (by omega)) ?_
  unfold SameClock; omega

theorem clock_bounds {s : Solar} (h : s.Valid) :
    0 ≤ s.hour * 3600 + s.minute * 60 + s.second ∧ s.hour * 3600 + s.minute * 60 + s.second < 86400 := by
  obtain ⟨_, hc⟩ := h; unfold ClockOk at hc; omega

theorem isBefore_iff {s t : Solar} (hs : s.Valid) (ht : t.Valid) :
    s.isBefore t = true ↔ secNo s < secNo t := by
  have h1 := dayNo_lt_iff hs.1 ht.1
  have h2 := dayNo_lt_iff ht.1 hs.1
  have c1 := clock_bounds hs
  have c2 := clock_bounds ht
  obtain ⟨_, k1⟩ := hs
  obtain ⟨_, k2⟩ := ht
  unfold ClockOk at k1 k2
  have h3 : s.date = t.date → dn s.date = dn t.date := fun h => by rw [h]
  unfold DateLt at h1 h2
  unfold secNo
  have h4 : s.date = t.date ↔ (s.year = t.year ∧ s.month = t.month ∧ s.day = t.day) := by
    simp [Solar.date]
  rw [h4] at h3
  simp only [Solar.date] at *
  generalize dn _ = A at *
  generalize dn _ = B at *
  unfold Solar.isBefore
  split_ifs <;> simp only [decide_eq_true_eq, false_iff, true_iff] <;> omega

theorem isAfter_eq (s t : Solar) : s.isAfter t = t.isBefore s := by
  unfold Solar.isAfter Solar.isBefore
  repeat' split
  all_goals first | rfl | omega

theorem nextHour_spec {s : Solar} (hs : s.Valid) (n : ℤ) :
    ∃ t, s.nextHour n = .ok t ∧ t.Valid ∧ secNo t = secNo s + 3600 * n ∧
      t.minute = s.minute ∧ t.second = s.second := by
  have hc := hs.2
  unfold ClockOk at hc
  obtain ⟨u, h1, h2, h3, h4⟩ := nextDay_spec hs ((s.hour + n) / 24)
  have hu := h2.2
  unfold ClockOk at hu
  have key : ∃ t, fromYmdHms u.year u.month u.day ((s.hour + n) % 24) u.minute u.second = .ok t ∧
      t.Valid ∧ secNo t = secNo s + 3600 * n ∧ t.minute = s.minute ∧ t.second = s.second := by
    have hck : ClockOk ((s.hour + n) % 24) u.minute u.second := by unfold ClockOk; omega
    refine ⟨_, fromYmdHms_ok h2.1 hck, ⟨h2.1, hck⟩, ?_, ?_⟩
    · unfold secNo
      unfold SameClock at h3
      show 86400 * dn u.date + _ = _
      simp only
      rw [h4]
      omega
    · unfold SameClock at h3; simp only; omega
  obtain ⟨t, ht, hk⟩ := key
  refine ⟨t, ?_, hk⟩
  unfold Solar.nextHour
  dsimp only
  rw [Int.tdiv_eq_ediv_of_nonneg (abs_nonneg _)]
  rcases lt_or_ge (s.hour + n) 0 with h | h
  · rw [abs_of_neg h]
    simp only [h, if_true]
    by_cases hz : -(s.hour + n) % 24 = 0
    · have e1 : -(s.hour + n) / 24 * -1 = (s.hour + n) / 24 := by omega
      have e2 : (-(s.hour + n) % 24) * -1 = (s.hour + n) % 24 := by omega
      rw [e1, e2, if_neg (by omega), if_neg (by omega), h1]
      exact ht
    · rw [if_pos (by omega), if_pos (by omega)]
      have e1 : -(s.hour + n) / 24 * -1 - 1 = (s.hour + n) / 24 := by omega
      have e2 : (-(s.hour + n) % 24) * -1 + 24 = (s.hour + n) % 24 := by omega
      rw [e1, e2, h1]
      exact ht
  · rw [abs_of_nonneg h]
    have : ¬ (s.hour + n < 0) := by omega
    simp only [this, if_false, mul_one]
    rw [if_neg (by omega), if_neg (by omega), h1]
    exact ht

theorem subtractMinute_spec {s o : Solar} (hs : s.Valid) (ho : o.Valid) :
    s.subtractMinute o = .ok (1440 * (dn s.date - dn o.date) +
      ((s.hour * 60 + s.minute) - (o.hour * 60 + o.minute))) := by
  unfold Solar.subtractMinute
  rw [subtract_spec hs ho]
  show (if _ then Except.ok _ else Except.ok _) = _
  split_ifs <;> congr 1 <;> ring

end Cal
