import Verif.Proof.FromJulianDay2
import Verif.Spec.JulianDate

/-!
# Julian day, weekday and conversion back (C06-C09)

All statements are about the binary64 arithmetic of the code (`F64`), not about exact reals.
-/

open Spec F64

namespace JD

theorem isJulianDate_iff {s : Solar} (h : s.Valid) (q : ℚ) :
    IsJulianDate q s.date s.hour s.minute s.second ↔ q = jdQ s := by
  have h2 : (⟨2000, 1, 1, 12, 0, 0⟩ : Solar).Valid := by decide
  have key : ∀ n, SecondsAfter n ⟨2000, 1, 1⟩ 12 0 0 s.date s.hour s.minute s.second ↔ _ :=
    fun n => Cal.secondsAfter_iff h2 h n
  have e0 : Cal.secNo ⟨2000, 1, 1, 12, 0, 0⟩ = 86400 * (2451545 - 1721057) + 43200 := by decide
  have e1 : Cal.secNo s = 86400 * (jdn s.date - 1721057) + secs s := by
    unfold Cal.secNo secs; rw [jdn_eq h.1]; ring
  unfold IsJulianDate jdQ
  constructor
  · rintro ⟨n, hn, rfl⟩
    rw [key, e0, e1] at hn
    have : (n : ℚ) = 86400 * (jdn s.date - 2451545) + secs s - 43200 := by
      have : n = 86400 * (jdn s.date - 2451545) + secs s - 43200 := by linarith
      rw [this]; push_cast; ring
    rw [this]; ring
  · intro hq
    refine ⟨86400 * (jdn s.date - 2451545) + secs s - 43200, ?_, ?_⟩
    · rw [key, e0, e1]; ring
    · rw [hq]; push_cast; ring

end JD

/-! ## C06 -/

/-- **C06** at noon the Julian day is an integer and differences of Julian days are exactly
the results of `subtract`. -/
theorem C06_noon_difference (a b : Solar) (ha : a.Valid) (hb : b.Valid)
    (ha0 : -4715 ≤ a.year) (ha1 : a.year ≤ 9999) (hb0 : -4715 ≤ b.year) (hb1 : b.year ≤ 9999)
    (na : a.hour = 12 ∧ a.minute = 0 ∧ a.second = 0) (nb : b.hour = 12 ∧ b.minute = 0 ∧ b.second = 0) :
    (∃ k : ℤ, a.getJulianDay = k) ∧
      ∃ n : ℤ, b.subtract a = .ok n ∧ b.getJulianDay = a.getJulianDay + n := by
  have sa : (JD.secs a : ℚ) = 43200 := by
    unfold JD.secs; rw [na.1, na.2.1, na.2.2]; norm_num
  have sb : (JD.secs b : ℚ) = 43200 := by
    unfold JD.secs; rw [nb.1, nb.2.1, nb.2.2]; norm_num
  rw [JD.jd_exact ha ha0 ha1 (by omega) na.2.1 na.2.2, JD.jd_exact hb hb0 hb1 (by omega) nb.2.1 nb.2.2]
  unfold JD.jdQ
  rw [sa, sb]
  refine ⟨⟨JD.jdn a.date, by ring⟩, _, Cal.subtract_spec hb ha, ?_⟩
  rw [JD.jdn_eq ha.1, JD.jdn_eq hb.1]
  push_cast; ring

/-- **C06** one civil day later the Julian day is exactly one larger, at midnight, 6:00, noon
and 18:00 (also over 1582-10-04/15). -/
theorem C06_next_day (s t : Solar) (hs : s.Valid) (h0 : -4715 ≤ s.year) (h1 : t.year ≤ 9999)
    (n6 : s.hour % 6 = 0 ∧ s.minute = 0 ∧ s.second = 0) (ht : s.next 1 = .ok t) :
    t.getJulianDay = s.getJulianDay + 1 := by
  obtain ⟨t', e1, e2, e3, e4⟩ := Cal.nextDay_spec hs 1
  have : t = t' := by
    have : (Except.ok t : Except PyErr Solar) = .ok t' := by rw [← ht, ← e1, Solar.next]
    simpa using this
  subst this
  have hlt := (Cal.dayNo_lt_iff hs.1 e2.1).1 (by rw [e4]; exact lt_add_one _)
  have hy : s.year ≤ t.year := by
    rcases hlt with h | ⟨h, _⟩
    · exact le_of_lt h
    · exact le_of_eq h
  obtain ⟨c1, c2, c3⟩ := e3
  rw [JD.jd_exact hs h0 (by omega) n6.1 n6.2.1 n6.2.2,
    JD.jd_exact e2 (by omega) h1 (by rw [c1]; exact n6.1) (by rw [c2]; exact n6.2.1)
      (by rw [c3]; exact n6.2.2)]
  have hsec : JD.secs t = JD.secs s := by unfold JD.secs; rw [c1, c2, c3]
  unfold JD.jdQ
  rw [hsec, JD.jdn_eq hs.1, JD.jdn_eq e2.1, e4]
  push_cast; ring

/-- **C06** at any clock time the double returned is within `2^-28` days (0.33 ms) of the
true Julian date. -/
theorem C06_accuracy (s : Solar) (hs : s.Valid) (h0 : -4715 ≤ s.year) (h1 : s.year ≤ 9999)
    (q : ℚ) (hq : IsJulianDate q s.date s.hour s.minute s.second) :
    |s.getJulianDay - q| ≤ 1 / 2 ^ 28 := by
  rw [(JD.isJulianDate_iff hs q).1 hq]
  exact JD.jd_err hs h0 h1

/-- **C06** rounding never merges or swaps moments: a later moment has a larger Julian day. -/
theorem C06_strictly_increasing (a b : Solar) (ha : a.Valid) (hb : b.Valid)
    (ha0 : -4715 ≤ a.year) (ha1 : a.year ≤ 9999) (hb0 : -4715 ≤ b.year) (hb1 : b.year ≤ 9999) :
    a.getJulianDay < b.getJulianDay ↔ a.isBefore b = true := by
  have key : ∀ {a b : Solar}, a.Valid → b.Valid → -4715 ≤ a.year → a.year ≤ 9999 → -4715 ≤ b.year →
      b.year ≤ 9999 → Cal.secNo a < Cal.secNo b → a.getJulianDay < b.getJulianDay := by
    intro a b ha hb ha0 ha1 hb0 hb1 h
    have e1 := JD.jd_err ha ha0 ha1
    have e2 := JD.jd_err hb hb0 hb1
    rw [abs_le] at e1 e2
    have qa : JD.jdQ a = (Cal.secNo a : ℚ) / 86400 + 1721057 - 1 / 2 := by
      unfold JD.jdQ Cal.secNo JD.secs; rw [JD.jdn_eq ha.1]; push_cast; ring
    have qb : JD.jdQ b = (Cal.secNo b : ℚ) / 86400 + 1721057 - 1 / 2 := by
      unfold JD.jdQ Cal.secNo JD.secs; rw [JD.jdn_eq hb.1]; push_cast; ring
    have hc : (Cal.secNo a : ℚ) + 1 ≤ Cal.secNo b := by exact_mod_cast h
    have : (1 : ℚ) / 2 ^ 28 < 1 / 86400 / 2 := by norm_num
    linarith [e1.1, e1.2, e2.1, e2.2]
  rw [Cal.isBefore_iff ha hb]
  constructor
  · intro h
    by_contra hc
    rcases lt_or_eq_of_le (not_lt.1 hc) with h' | h'
    · exact absurd (key hb ha hb0 hb1 ha0 ha1 h') (not_lt.2 h.le)
    · rw [Cal.secNo_inj hb ha h'] at h; exact absurd h (lt_irrefl _)
  · exact key ha hb ha0 ha1 hb0 hb1

/-- **C06** the epoch -/
theorem C06_epoch : (⟨2000, 1, 1, 12, 0, 0⟩ : Solar).getJulianDay = 2451545 := by
  rw [JD.jd_exact (by decide) (by decide) (by decide) (by decide) rfl rfl]
  have e1 : JD.jdn (⟨2000, 1, 1, 12, 0, 0⟩ : Solar).date = 2451545 := by decide
  have e2 : JD.secs ⟨2000, 1, 1, 12, 0, 0⟩ = 43200 := by decide
  unfold JD.jdQ; rw [e1, e2]; norm_num

example : (⟨1582, 10, 15, 12, 0, 0⟩ : Solar).getJulianDay
    = (⟨1582, 10, 4, 12, 0, 0⟩ : Solar).getJulianDay + 1 :=
  C06_next_day _ _ (by decide) (by decide) (by decide) (by decide)
    (Cal.next_eq (by decide) (by decide) 1 (by decide) (by decide))

/-- **C06** the lower bound of the year range is needed: -4716-02-29 and -4716-03-01 (consecutive
days) get the same Julian day. -/
theorem C06_range_needed :
    (⟨-4716, 2, 29, 12, 0, 0⟩ : Solar).next 1 = .ok ⟨-4716, 3, 1, 12, 0, 0⟩ ∧
    (⟨-4716, 2, 29, 12, 0, 0⟩ : Solar).getJulianDay = (⟨-4716, 3, 1, 12, 0, 0⟩ : Solar).getJulianDay :=
  ⟨Cal.next_eq (by decide) (by decide) 1 (by decide) (by decide), by decide +kernel⟩

/-! ## C07 -/

/-- **C07** converting to a Julian day and back gives the identical moment. -/
theorem C07_round_trip (s : Solar) (hs : s.Valid) (h0 : -4712 ≤ s.year) (h1 : s.year ≤ 9999) :
    Solar.fromJulianDay s.getJulianDay = .ok s :=
  JD.fromJulianDay_getJulianDay hs h0 h1

example : Solar.fromJulianDay (⟨1582, 10, 4, 23, 59, 59⟩ : Solar).getJulianDay
    = .ok ⟨1582, 10, 4, 23, 59, 59⟩ := C07_round_trip _ (by decide) (by decide) (by decide)
example : Solar.fromJulianDay (⟨-4712, 1, 1, 0, 0, 1⟩ : Solar).getJulianDay
    = .ok ⟨-4712, 1, 1, 0, 0, 1⟩ := C07_round_trip _ (by decide) (by decide) (by decide)

/-! ## C08 -/

/-- **C08 (partial)** For every Julian day in `0 ≤ jd ≤ 5373484` (noon of 9999-12-31) either the
result is an existing moment within 0.501 s of `jd`, or `jd` lies within 0.501 s of a midnight
that begins a month or 1582-10-15.  Missing: in the second case the property is false
(next theorems). -/
theorem C08_existing_except_month_ends_partial (jd : ℚ) (h0 : 0 ≤ jd) (h1 : jd ≤ 5373484) :
    (∃ t q, Solar.fromJulianDay jd = .ok t ∧ t.Valid ∧
      IsJulianDate q t.date t.hour t.minute t.second ∧ |q - jd| * 86400 ≤ 501 / 1000) ∨
    (∃ (x : Date) (q : ℚ), x.Valid ∧ (x.d = 1 ∨ x = ⟨1582, 10, 15⟩) ∧
      IsJulianDate q x 0 0 0 ∧ |q - jd| * 86400 ≤ 501 / 1000) := by
  have hv0 : 0 ≤ add jd (1 / 2) := JD.rnd_nonneg (by linarith)
  have herr : |add jd (1 / 2) - (jd + 1 / 2)| ≤ 5373485 / 2 ^ 53 :=
    abs_rnd_sub_le (by rw [abs_le]; constructor <;> linarith)
  obtain ⟨x, hx, hd⟩ := JD.exists_date ⌊add jd (1 / 2)⌋ (Int.floor_nonneg.2 hv0)
  have fl1 := Int.floor_le (add jd (1 / 2))
  have fl2 := Int.lt_floor_add_one (add jd (1 / 2))
  rw [abs_le] at herr
  obtain ⟨er1, er2⟩ := herr
  have es : (5373485 : ℚ) / 2 ^ 53 ≤ 1 / 10 ^ 9 := by norm_num
  have hmax : JD.jdn x ≤ 5400000 := by
    have : (JD.jdn x : ℚ) ≤ ((5400000 : ℤ) : ℚ) := by rw [hd]; push_cast; linarith
    exact_mod_cast this
  obtain ⟨R, R0, R1, hR, hres⟩ := JD.fromJulianDay_desc hx (by linarith) hd.symm hmax
  rw [← hd] at fl1 fl2
  rw [abs_le] at hR
  obtain ⟨hR1, hR2⟩ := hR
  have e9 : (1 : ℚ) / 10 ^ 9 ≤ 1 / 10 ^ 9 := le_refl _
  by_cases hlt : R < 86400
  · left
    have c : ClockOk (R % 86400 / 3600) (R % 3600 / 60) (R % 60) := by unfold ClockOk; omega
    have e0 : R / 86400 = 0 := by omega
    rw [e0, add_zero, Cal.fromYmdHms_ok hx c] at hres
    have hv : (⟨x.y, x.m, x.d, R % 86400 / 3600, R % 3600 / 60, R % 60⟩ : Solar).Valid := ⟨hx, c⟩
    refine ⟨_, _, hres, hv, (JD.isJulianDate_iff hv _).2 rfl, ?_⟩
    have hs : JD.secs ⟨x.y, x.m, x.d, R % 86400 / 3600, R % 3600 / 60, R % 60⟩ = R := by
      unfold JD.secs; simp only; omega
    have hq : JD.jdQ ⟨x.y, x.m, x.d, R % 86400 / 3600, R % 3600 / 60, R % 60⟩
        = (JD.jdn x : ℚ) - 1 / 2 + (R : ℚ) / 86400 := by
      unfold JD.jdQ; rw [hs]; rfl
    rw [hq]
    have : |(JD.jdn x : ℚ) - 1 / 2 + (R : ℚ) / 86400 - jd| ≤ 501 / 1000 / 86400 := by
      rw [abs_le]; constructor <;> linarith
    linarith
  · have hR' : R = 86400 := by omega
    subst hR'
    have hnext := Cal.tomorrow_spec hx
    have hjn : JD.jdn (tomorrow x) = JD.jdn x + 1 := by
      rw [JD.jdn_eq hnext.1, JD.jdn_eq hx, hnext.2]; ring
    have hvt : (⟨(tomorrow x).y, (tomorrow x).m, (tomorrow x).d, 0, 0, 0⟩ : Solar).Valid :=
      ⟨hnext.1, by show ClockOk 0 0 0; decide⟩
    have hq : JD.jdQ ⟨(tomorrow x).y, (tomorrow x).m, (tomorrow x).d, 0, 0, 0⟩
        = (JD.jdn x : ℚ) + 1 - 1 / 2 := by
      have : JD.secs ⟨(tomorrow x).y, (tomorrow x).m, (tomorrow x).d, 0, 0, 0⟩ = 0 := rfl
      have e : (⟨(tomorrow x).y, (tomorrow x).m, (tomorrow x).d, 0, 0, 0⟩ : Solar).date = tomorrow x := rfl
      unfold JD.jdQ; rw [this, e, hjn]; push_cast; ring
    have hclose : |(JD.jdn x : ℚ) + 1 - 1 / 2 - jd| * 86400 ≤ 501 / 1000 := by
      have : |(JD.jdn x : ℚ) + 1 - 1 / 2 - jd| ≤ 501 / 1000 / 86400 := by
        push_cast at hR1 hR2
        rw [abs_le]; constructor <;> linarith
      linarith
    have hj := (JD.isJulianDate_iff hvt _).2 hq.symm
    by_cases hday : tomorrow x = ⟨x.y, x.m, x.d + 1⟩
    · left
      rw [hday] at hvt
      refine ⟨⟨x.y, x.m, x.d + 1, 0, 0, 0⟩, _, ?_, hvt, ?_, hclose⟩
      · rw [hres]
        exact Cal.fromYmdHms_ok hvt.1 (by decide)
      · rw [hday] at hj; exact hj
    · right
      refine ⟨tomorrow x, _, hnext.1, ?_, hj, hclose⟩
      unfold tomorrow at hday ⊢
      split_ifs at hday ⊢ <;> simp_all

/-- **C08 violated** 2^-18 days (0.33 s) before 2021-02-01 00:00 the result is the
non-existing moment 2021-01-32 00:00:00. -/
theorem C08_violated_day_32 :
    ∃ t, Solar.fromJulianDay (4918493 / 2 - 1 / 2 ^ 18) = .ok t ∧ ¬ t.Valid :=
  ⟨⟨2021, 1, 32, 0, 0, 0⟩, by decide +kernel, by decide⟩

/-- **C08 violated** 0.33 s before 1582-10-15 00:00 the conversion raises an exception. -/
theorem C08_violated_exception :
    Solar.fromJulianDay (4598321 / 2 - 1 / 2 ^ 18) = .error .exception := by decide +kernel

/-- the first alternative of the partial theorem is what happens e.g. here -/
example : Solar.fromJulianDay (2451545 + 1 / 3) = .ok ⟨2000, 1, 1, 20, 0, 0⟩ := by decide +kernel

/-! ## C09 -/

/-- **C09** the weekday is in `0..6`, does not depend on the clock, and advances by one
(mod 7) per civil day, for any number of days. -/
theorem C09_week_advances (s t : Solar) (hs : s.Valid) (ht : t.Valid)
    (hs0 : -4712 ≤ s.year) (hs1 : s.year ≤ 9999) (ht0 : -4712 ≤ t.year) (ht1 : t.year ≤ 9999)
    (n : ℤ) (hn : DaysAfter n s.date t.date) :
    0 ≤ s.getWeek ∧ s.getWeek ≤ 6 ∧ t.getWeek = (s.getWeek + n) % 7 := by
  rw [Cal.daysAfter_iff hs.1 ht.1] at hn
  rw [JD.getWeek_eq hs hs0 hs1, JD.getWeek_eq ht ht0 ht1, JD.jdn_eq hs.1, JD.jdn_eq ht.1, hn]
  omega

/-- **C09** the clock time is irrelevant -/
theorem C09_week_clock_irrelevant (s t : Solar) (hs : s.Valid) (ht : t.Valid)
    (hs0 : -4712 ≤ s.year) (hs1 : s.year ≤ 9999) (h : s.date = t.date) : s.getWeek = t.getWeek := by
  have hy : s.year = t.year := congrArg Date.y h
  rw [JD.getWeek_eq hs hs0 hs1, JD.getWeek_eq ht (by omega) (by omega), h]

/-- **C09** 2000-01-01 is a Saturday -/
theorem C09_epoch : (⟨2000, 1, 1, 0, 0, 0⟩ : Solar).getWeek = 6 := by
  rw [JD.getWeek_eq (by decide) (by decide) (by decide)]; decide

example : (⟨1582, 10, 15, 23, 59, 59⟩ : Solar).getWeek
    = ((⟨1582, 10, 4, 0, 0, 0⟩ : Solar).getWeek + 1) % 7 :=
  (C09_week_advances _ _ (by decide) (by decide) (by decide) (by decide) (by decide) (by decide) 1
    (.inl ⟨by decide, by decide⟩)).2.2
