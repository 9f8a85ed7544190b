import Verif.Props.Stars

/-! # C114: the stars of the double-hours from hour to hour -/

section
open Spec ShouXing Lunar LunarUtil

variable {M : Libm}

/-- the star of a moment by the day number and the clock, as the code has it -/
private theorem star (hM : M.Good) (Y : ℤ) (h1 : 1584 < Y) (h2 : Y < 6890) :
    ∃ x z : ℤ, (16 ≤ x ∧ x ≤ 25) ∧ (16 ≤ z ∧ z ≤ 25) ∧
      ∀ s : Solar, s.Valid → s.year = Y → ∀ n, IsDay n s.date → ∀ l, Lunar.fromSolar (astro M) s = .ok l →
        (s.month = 6 → s.day = x → l.getQi = .ok ['夏', '至']) ∧ (s.month = 12 → s.day = z → l.getQi = .ok ['冬', '至']) ∧
        l.getTimeNineStar = .ok ⟨(if s.month < 6 ∨ s.month = 6 ∧ s.day < x ∨ s.month = 12 ∧ z ≤ s.day then
          12 * (n + 1) + (s.hour + 1) / 2 % 12 else 8 - (12 * (n + 1) + (s.hour + 1) / 2 % 12)) % 9⟩ := by
  obtain ⟨x, z, x1, x2, z1, z2, c⟩ := C106_time hM Y h1 h2
  refine ⟨x, z, ⟨x1, x2⟩, ⟨z1, z2⟩, fun s hs hY n hn l hl => ?_⟩
  obtain ⟨f1, P, -, -, -⟩ := Ephem.made hM hs (by omega) (by omega) hl
  have hp := C36_pillars l P.made P.range P.table P.near
  obtain ⟨d, hd⟩ := hp l.getDayInGanZhi (by simp)
  obtain ⟨t, ht⟩ := hp l.getTimeInGanZhi (by simp)
  obtain ⟨a, b, e⟩ := c s hs hY l hl d t hd ht
  refine ⟨a, b, ?_⟩
  obtain ⟨-, -, ⟨-, g1, -⟩, ⟨g2, -⟩, -⟩ := made_fields P.made (by have := P.range; omega) P.range.2
  rw [(P.day hd).2, f1] at g1
  rw [(P.time ht).2, f1] at g2
  rw [isDay_iff hs.1] at hn
  rw [← hn] at g1
  rw [e, g2]
  congr 2
  split_ifs <;> omega

/-- **C114** (full statement: at every clock time) number the double-hours of all days in one row, the hour from 23:00 belonging to the double-hour of the
midnight after it: before 23:00 the star of the hour is read off this count `12 (n + 1) + (hour + 1) / 2`, up except from the day of the summer
solstice to the day before the winter solstice, where it goes down. -/
theorem C114_hours_partial (hM : M.Good) (Y : ℤ) (h1 : 1584 < Y) (h2 : Y < 6890) :
    ∃ x z : ℤ, (16 ≤ x ∧ x ≤ 25) ∧ (16 ≤ z ∧ z ≤ 25) ∧
      ∀ s : Solar, s.Valid → s.year = Y → ∀ n, IsDay n s.date → ∀ l, Lunar.fromSolar (astro M) s = .ok l →
        (s.month = 6 → s.day = x → l.getQi = .ok ['夏', '至']) ∧ (s.month = 12 → s.day = z → l.getQi = .ok ['冬', '至']) ∧
        (s.hour < 23 → l.getTimeNineStar = .ok ⟨(if s.month < 6 ∨ s.month = 6 ∧ s.day < x ∨ s.month = 12 ∧ z ≤ s.day then
          12 * (n + 1) + (s.hour + 1) / 2 else 8 - (12 * (n + 1) + (s.hour + 1) / 2)) % 9⟩) := by
  obtain ⟨x, z, hx, hz, c⟩ := star hM Y h1 h2
  refine ⟨x, z, hx, hz, fun s hs hY n hn l hl => ?_⟩
  obtain ⟨a, b, e⟩ := c s hs hY n hn l hl
  refine ⟨a, b, fun hh => ?_⟩
  have := hs.2.1
  rw [show (s.hour + 1) / 2 % 12 = (s.hour + 1) / 2 by omega] at e
  exact e

/-- **C114** fails from 23:00 on: although the hour before midnight and the hour after it are one double-hour with one pillar, their stars always differ,
as the first is counted from the beginning of the day that ends. -/
theorem C114_late_hour_violated (hM : M.Good) (s s' : Solar) (hs : s.Valid) (hs' : s'.Valid) (h1 : 1584 < s.year) (h2 : s'.year < 6890) (n : ℤ)
    (hn : IsDay n s.date) (hn' : IsDay (n + 1) s'.date) (hh : s.hour = 23) (hh' : s'.hour = 0) (l l' : Lunar)
    (hl : Lunar.fromSolar (astro M) s = .ok l) (hl' : Lunar.fromSolar (astro M) s' = .ok l') :
    l.getTimeInGanZhi = l'.getTimeInGanZhi ∧ l.getTimeNineStar ≠ l'.getTimeNineStar := by
  have le : s.year ≤ s'.year := by
    have := (JD.jdn_lt_iff hs.1 hs'.1).1 (by rw [isDay_iff hs.1] at hn; rw [isDay_iff hs'.1] at hn'; omega)
    simp only [Cal.DateLt, Solar.date] at this
    omega
  obtain ⟨x, z, -, -, c⟩ := star hM s.year h1 (by omega)
  obtain ⟨x', z', -, -, c'⟩ := star hM s'.year (by omega) h2
  obtain ⟨-, -, e⟩ := c s hs rfl n hn l hl
  obtain ⟨-, -, e'⟩ := c' s' hs' rfl (n + 1) hn' l' hl'
  constructor
  · obtain ⟨f1, P, -, -, -⟩ := Ephem.made hM hs h1 (by omega) hl
    obtain ⟨f1', P', -, -, -⟩ := Ephem.made hM hs' (by omega) h2 hl'
    obtain ⟨-, -, ⟨-, -, g1, -⟩, ⟨g2, g3⟩, -⟩ := made_fields P.made (by have := P.range; omega) P.range.2
    obtain ⟨-, -, ⟨-, -, g1', -⟩, ⟨g2', g3'⟩, -⟩ := made_fields P'.made (by have := P'.range; omega) P'.range.2
    rw [isDay_iff hs.1] at hn
    rw [isDay_iff hs'.1] at hn'
    rw [f1, ← hn, if_pos hh] at g1
    rw [f1', ← hn', if_neg (by omega)] at g1'
    rw [g1, f1, hh] at g3
    rw [g1', f1', hh'] at g3'
    rw [f1, hh] at g2
    rw [f1', hh'] at g2'
    unfold getTimeInGanZhi
    rw [g2, g2', g3, g3', show n + 1 - 11 + 0 = n - 11 + 1 by ring]
    norm_num
  · rw [e, e', hh, hh']
    intro q
    have q' := congrArg NineStar.index (Except.ok.inj q)
    dsimp only at q'
    clear e e' c c' q
    split_ifs at q' <;> omega

/-- 25 July 2026, before the hour 23: `n` = 2461247, the stars go down -/
example : ∃ l, Lunar.fromSolar (astro Libm.cut) ⟨2026, 7, 25, 8, 0, 0⟩ = .ok l ∧ l.getTimeNineStar = .ok ⟨(8 - (12 * 2461248 + 4)) % 9⟩ := by
  obtain ⟨l, e, -⟩ := C84_round_trip Libm.cut_good ⟨2026, 7, 25, 8, 0, 0⟩ (by decide) (by decide) (by decide)
  obtain ⟨x, z, -, -, c⟩ := C114_hours_partial Libm.cut_good 2026 (by decide) (by decide)
  obtain ⟨-, -, h⟩ := c ⟨2026, 7, 25, 8, 0, 0⟩ (by decide) rfl 2461247 ((isDay_iff (by decide)).2 (by decide)) l e
  have := h (by decide)
  simp at this
  exact ⟨l, e, this⟩

/-- the midnight before 1 January 2027 -/
example : ∃ l l', Lunar.fromSolar (astro Libm.cut) ⟨2026, 12, 31, 23, 30, 0⟩ = .ok l ∧ Lunar.fromSolar (astro Libm.cut) ⟨2027, 1, 1, 0, 30, 0⟩ = .ok l' ∧
    l.getTimeInGanZhi = l'.getTimeInGanZhi ∧ l.getTimeNineStar ≠ l'.getTimeNineStar := by
  obtain ⟨l, e, -⟩ := C84_round_trip Libm.cut_good ⟨2026, 12, 31, 23, 30, 0⟩ (by decide) (by decide) (by decide)
  obtain ⟨l', e', -⟩ := C84_round_trip Libm.cut_good ⟨2027, 1, 1, 0, 30, 0⟩ (by decide) (by decide) (by decide)
  exact ⟨l, l', e, e', C114_late_hour_violated Libm.cut_good ⟨2026, 12, 31, 23, 30, 0⟩ ⟨2027, 1, 1, 0, 30, 0⟩ (by decide) (by decide) (by decide) (by decide) 2461406
    ((isDay_iff (by decide)).2 (by decide)) ((isDay_iff (by decide)).2 (by decide)) rfl rfl l l' e e'⟩

end
