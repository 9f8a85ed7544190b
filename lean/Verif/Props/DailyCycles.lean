import Verif.Props.TermDates
import Verif.Props.MonthPillar
import Verif.Props.DayLore

/-! # C104: the month and year pillars by the civil date, and the cycles of the days across a Jie

C34, C35, C72 and C73 say what the pillars, the officers (建除) and the spirits (天神) are for a given table of solar terms.  Here they
are said of the library's own calendar in terms of the civil date, and followed from one day to the next. -/

section
open Spec ShouXing Lunar

variable {M : Libm}

/-- the Jie of a civil month -/
theorem jie_in (hM : M.Good) (Y k : ℤ) (h1 : 1584 ≤ Y) (h2 : Y ≤ 6890) (k1 : 1 ≤ k) (k2 : k ≤ 12) :
    (Ephem.moment (Ephem.full hM) (24 * (Y - 2000) + 17 + 2 * k)).year = Y ∧ (Ephem.moment (Ephem.full hM) (24 * (Y - 2000) + 17 + 2 * k)).month = k ∧
      (Ephem.moment (Ephem.full hM) (24 * (Y - 2000) + 17 + 2 * k)).Valid := by
  obtain ⟨d, -, a, b, -⟩ := Ephem.possible_date hM h1 h2 (i := 2 * k.toNat) (by omega) (by omega)
  rw [show 24 * (Y - 2000) + 17 + ((2 * k.toNat : ℕ) : ℤ) = 24 * (Y - 2000) + 17 + 2 * k by omega] at a b
  exact ⟨a, by omega, (Ephem.moment_spec (Ephem.full hM) (by omega) (by omega)).2.1⟩

/-- **C104** every month `k` of a year `Y` has a day `dj`, one of its first ten and the day `getJie` names: from it on the month pillar
is number `12 (Y - 4) + k`, before it that of the month before.  By instants only the day itself is open.  The year pillar by
立春 changes on that day of February. -/
theorem C104_month (hM : M.Good) (Y k : ℤ) (h1 : 1584 < Y) (h2 : Y < 6890) (k1 : 1 ≤ k) (k2 : k ≤ 12) :
    ∃ dj : ℤ, 1 ≤ dj ∧ dj ≤ 10 ∧
      ∀ s : Solar, s.Valid → s.year = Y → s.month = k → ∀ l, Lunar.fromSolar (astro M) s = .ok l →
        l.getJie = .ok (if s.day = dj then termName (2 * k.toNat) else []) ∧
        l.getMonthInGanZhi = .ok (ganZhi (if s.day < dj then 12 * (Y - 4) + k - 1 else 12 * (Y - 4) + k)) ∧
        (s.day ≠ dj → l.getMonthInGanZhiExact = l.getMonthInGanZhi) ∧
        (s.day = dj → l.getMonthInGanZhiExact = .ok (ganZhi (12 * (Y - 4) + k - 1)) ∨ l.getMonthInGanZhiExact = .ok (ganZhi (12 * (Y - 4) + k))) ∧
        l.getYearInGanZhiByLiChun = .ok (ganZhi (if k = 1 ∨ k = 2 ∧ s.day < dj then Y - 5 else Y - 4)) := by
  obtain ⟨y0, m0, v0⟩ := jie_in hM Y k h1.le h2.le k1 k2
  have y1 : Cal.DateLt (Ephem.moment (Ephem.full hM) (24 * (Y - 2000) + 17 + 2 * (k - 1))).date ⟨Y, k, 1⟩ := by
    rcases eq_or_lt_of_le k1 with e | e
    · obtain ⟨a, b, -⟩ := jie_in hM (Y - 1) 12 (by omega) (by omega) (by omega) (by omega)
      rw [show 24 * (Y - 1 - 2000) + 17 + 2 * 12 = 24 * (Y - 2000) + 17 + 2 * (k - 1) by omega] at a
      exact .inl (by change (Ephem.moment _ _).year < Y; omega)
    · obtain ⟨a, b, -⟩ := jie_in hM Y (k - 1) (by omega) (by omega) (by omega) (by omega)
      exact .inr ⟨a, .inl (by change (Ephem.moment _ _).month < k; omega)⟩
  have y2 : Cal.DateLt ⟨Y, k, 31⟩ (Ephem.moment (Ephem.full hM) (24 * (Y - 2000) + 17 + 2 * (k + 1))).date := by
    rcases eq_or_lt_of_le k2 with e | e
    · obtain ⟨a, b, -⟩ := jie_in hM (Y + 1) 1 (by omega) (by omega) (by omega) (by omega)
      rw [show 24 * (Y + 1 - 2000) + 17 + 2 * 1 = 24 * (Y - 2000) + 17 + 2 * (k + 1) by omega] at a
      exact .inl (by change Y < (Ephem.moment _ _).year; omega)
    · obtain ⟨a, b, -⟩ := jie_in hM Y (k + 1) (by omega) (by omega) (by omega) (by omega)
      exact .inr ⟨a.symm, .inl (by change k < (Ephem.moment _ _).month; omega)⟩
  obtain ⟨d1, d2, -, -, jq⟩ := month_terms hM Y k h1 h2 k1 k2 _ _ rfl rfl
  rw [show 24 * (Y - 2000) + 17 + ((2 * k.toNat : ℕ) : ℤ) = 24 * (Y - 2000) + 17 + 2 * k by omega] at d1 d2 jq
  refine ⟨_, d1, d2, ?_⟩
  intro s hs hY hk l hl
  obtain ⟨f1, Pr, -, -, t⟩ := Ephem.made hM hs (by omega) (by omega) hl
  have val : ∀ n : ℤ, 24 * (1584 - 2000) + 17 ≤ n → n ≤ 24 * (6890 - 2000) + 47 → (Ephem.moment (Ephem.full hM) n).Valid :=
    fun n a b => (Ephem.moment_spec (Ephem.full hM) a b).2.1
  have z0 : JD.jdn s.date < JD.jdn (Ephem.moment (Ephem.full hM) (24 * (Y - 2000) + 17 + 2 * k)).date ↔
      s.day < (Ephem.moment (Ephem.full hM) (24 * (Y - 2000) + 17 + 2 * k)).day := by
    rw [JD.jdn_lt_iff hs.1 v0.1]
    simp only [Cal.DateLt, Solar.date]
    omega
  have z0' : JD.jdn (Ephem.moment (Ephem.full hM) (24 * (Y - 2000) + 17 + 2 * k)).date < JD.jdn s.date ↔
      (Ephem.moment (Ephem.full hM) (24 * (Y - 2000) + 17 + 2 * k)).day < s.day := by
    rw [JD.jdn_lt_iff v0.1 hs.1]
    simp only [Cal.DateLt, Solar.date]
    omega
  have sd := hs.1.2.2.1
  have sd2 : s.day ≤ 31 := hs.1.2.2.2.1.trans (Cal.lastDay_bounds _ _).2
  have z1 : JD.jdn (Ephem.moment (Ephem.full hM) (24 * (Y - 2000) + 17 + 2 * (k - 1))).date < JD.jdn s.date := by
    rw [JD.jdn_lt_iff (val _ (by omega) (by omega)).1 hs.1]
    simp only [Cal.DateLt, Solar.date] at *
    omega
  have z2 : JD.jdn s.date < JD.jdn (Ephem.moment (Ephem.full hM) (24 * (Y - 2000) + 17 + 2 * (k + 1))).date := by
    rw [JD.jdn_lt_iff hs.1 (val _ (by omega) (by omega)).1]
    simp only [Cal.DateLt, Solar.date] at *
    omega
  -- which pillars the bounds leave
  have fin : ∀ p : ℤ, 24 * (1584 - 2000) + 17 ≤ 2 * p - 47887 → 2 * p - 47885 ≤ 24 * (6890 - 2000) + 47 →
      JD.jdn (Ephem.moment (Ephem.full hM) (2 * p - 47887)).date ≤ JD.jdn s.date → JD.jdn s.date ≤ JD.jdn (Ephem.moment (Ephem.full hM) (2 * p - 47885)).date →
      (p = 12 * (Y - 4) + k - 1 ∧ 2 * p - 47885 = 24 * (Y - 2000) + 17 + 2 * k) ∨ (p = 12 * (Y - 4) + k ∧ 2 * p - 47887 = 24 * (Y - 2000) + 17 + 2 * k) := by
    intro p a b c d
    by_contra e
    rcases lt_or_ge p (12 * (Y - 4) + k - 1) with g | g
    · rcases eq_or_lt_of_le (show 2 * p - 47885 ≤ 24 * (Y - 2000) + 17 + 2 * (k - 1) by omega) with g' | g'
      · rw [g'] at d; omega
      · have := Ephem.moment_lt hM (by omega) g' (by omega); omega
    · rcases eq_or_lt_of_le (show 24 * (Y - 2000) + 17 + 2 * (k + 1) ≤ 2 * p - 47887 by omega) with g' | g'
      · rw [← g'] at c; omega
      · have := Ephem.moment_lt hM (by omega) g' (by omega); omega
  obtain ⟨⟨p, a1, a2, a3, a4, a5⟩, ⟨q, b1, b2, b3, b4, b5⟩⟩ := Ephem.pillar_between hM hs (by omega) (by omega) hl
  have fp := fin p a2 a3 a4 a5.le
  have fq := fin q b2 b3 b4 b5
  have lc := C34_year_pillars l Pr.made Pr.range Pr.table Pr.near _ (by rw [t 4 (by norm_num)])
  rw [f1] at lc
  obtain ⟨-, l1, l2, -⟩ := lc
  obtain ⟨w1, w2, w3⟩ := jie_in hM s.year 2 (by omega) (by omega) (by norm_num) (by norm_num)
  rw [show 24 * (s.year - 2000) + 17 + ((4 : ℕ) : ℤ) = 24 * (s.year - 2000) + 17 + 2 * 2 by norm_num] at l1 l2
  rw [Solar.dayAtOrBefore_iff w3 hs] at l1
  rw [Solar.dayBefore_iff hs w3] at l2
  have e1 := JD.jdn_eq hs.1
  have e2 := JD.jdn_eq w3.1
  have z3 : JD.jdn s.date < JD.jdn (Ephem.moment (Ephem.full hM) (24 * (s.year - 2000) + 17 + 2 * 2)).date ↔
      k = 1 ∨ k = 2 ∧ s.day < (Ephem.moment (Ephem.full hM) (24 * (Y - 2000) + 17 + 2 * k)).day := by
    rw [JD.jdn_lt_iff hs.1 w3.1]
    simp only [Cal.DateLt, Solar.date]
    by_cases c : k = 2
    · subst c
      rw [← hY] at *
      omega
    · omega
  refine ⟨(jq s hs hY hk l hl).1, ?_, fun h => ?_, fun h => ?_, ?_⟩
  · rw [a1]
    rcases fp with ⟨c, d⟩ | ⟨c, d⟩
    · rw [d] at a5
      rw [if_pos (z0.1 a5), c]
    · rw [d] at a4
      rw [if_neg (by omega), c]
  · rw [a1, b1]
    rcases fp with ⟨c, d⟩ | ⟨c, d⟩ <;> rcases fq with ⟨c', d'⟩ | ⟨c', d'⟩
    · rw [c, c']
    · rw [d] at a5
      rw [d'] at b4
      omega
    · rw [d] at a4
      rw [d'] at b5
      omega
    · rw [c, c']
  · rcases fq with ⟨c, -⟩ | ⟨c, -⟩
    · exact .inl (by rw [b1, c])
    · exact .inr (by rw [b1, c])
  · split_ifs with c
    · rw [l2 (by have := z3.2 c; omega), show s.year - 1 - 4 = Y - 5 by omega]
    · rw [l1 (by have := mt z3.1 c; omega), hY]

/-- **C104** so from the eleventh of a month on the month pillar, by days and by instants, needs no table of terms -/
theorem C104_after_ten (hM : M.Good) (s : Solar) (hs : s.Valid) (h1 : 1584 < s.year) (h2 : s.year < 6890) (h : 10 < s.day) (l : Lunar)
    (hl : Lunar.fromSolar (astro M) s = .ok l) :
    l.getMonthInGanZhi = .ok (ganZhi (12 * (s.year - 4) + s.month)) ∧ l.getMonthInGanZhiExact = .ok (ganZhi (12 * (s.year - 4) + s.month)) := by
  obtain ⟨dj, a, b, c⟩ := C104_month hM s.year s.month h1 h2 hs.1.1 hs.1.2.1
  obtain ⟨-, e, f, -⟩ := c s hs rfl rfl l hl
  rw [if_neg (by omega)] at e
  exact ⟨e, by rw [f (by omega), e]⟩

private theorem spirit_back (d m : ℤ) : spirit (d + 1 - dragonBranch (m + 1)) = spirit (d - dragonBranch m - 1) := by
  have e : (d + 1 - dragonBranch (m + 1)) % 12 = (d - dragonBranch m - 1) % 12 := by unfold dragonBranch; omega
  unfold spirit
  rw [e]

/-- **C104** from one day to the next: the month pillar goes on by one on the day of a Jie and stays on all others; the officer
goes on by one, but on the day of a Jie it is that of the day before; the spirit goes on by one, but on the day of a Jie
it goes back by one. -/
theorem C104_next (hM : M.Good) (s t : Solar) (hs : s.Valid) (ht : t.Valid) (hst : t.date = tomorrow s.date) (h1 : 1584 < s.year)
    (h2 : t.year < 6890) (l l' : Lunar) (hl : Lunar.fromSolar (astro M) s = .ok l) (hl' : Lunar.fromSolar (astro M) t = .ok l') :
    ∃ m o c, l.getMonthInGanZhi = .ok (ganZhi m) ∧ l.getZhiXing = .ok [officer o] ∧ l.getDayTianShen = .ok (spirit c) ∧
      (l'.getJie = .ok [] → l'.getMonthInGanZhi = .ok (ganZhi m) ∧ l'.getZhiXing = .ok [officer (o + 1)] ∧
        l'.getDayTianShen = .ok (spirit (c + 1))) ∧
      (l'.getJie ≠ .ok [] → l'.getMonthInGanZhi = .ok (ganZhi (m + 1)) ∧ l'.getZhiXing = .ok [officer o] ∧
        l'.getDayTianShen = .ok (spirit (c - 1))) := by
  have y12 : s.year ≤ t.year ∧ t.year ≤ s.year + 1 := by
    have e : t.year = (tomorrow s.date).y := by rw [← hst]; rfl
    rw [e]
    unfold tomorrow
    split_ifs <;> simp_all [Solar.date]
  obtain ⟨f1, P, -⟩ := Ephem.made hM hs h1 (by omega) hl
  obtain ⟨f1', P', -⟩ := Ephem.made hM ht (by omega) h2 hl'
  choose! D hD using C104_month hM
  obtain ⟨a1, a2, a⟩ := hD s.year s.month h1 (by omega) hs.1.1 hs.1.2.1
  obtain ⟨b1, b2, b⟩ := hD t.year t.month (by omega) h2 ht.1.1 ht.1.2.1
  obtain ⟨dj, ej⟩ : ∃ x, x = D s.year s.month := ⟨_, rfl⟩
  obtain ⟨dj', ej'⟩ : ∃ x, x = D t.year t.month := ⟨_, rfl⟩
  rw [← ej] at a1 a2 a
  rw [← ej'] at b1 b2 b
  obtain ⟨-, a3, -⟩ := a s hs rfl rfl l hl
  obtain ⟨b4, b3, -⟩ := b t ht rfl rfl l' hl'
  obtain ⟨d, e1, e2⟩ := C31_advances l l' P.made P'.made (by have := P.range; omega) P'.range.2 (by rw [f1, f1']; exact hst)
  have name : ∀ n : ℕ, 1 ≤ n → n ≤ 12 → termName (2 * n) ≠ [] := by
    intro n n1 n2
    interval_cases n <;> decide
  have nm := name t.month.toNat (by have := ht.1.1; change 1 ≤ t.month at this; omega) (by have := ht.1.2.1; change t.month ≤ 12 at this; omega)
  have jie : l'.getJie = .ok [] ↔ t.day ≠ dj' := by
    rw [b4]
    split_ifs with c
    · simpa [c] using nm
    · simpa using c
  -- the number of the month pillar goes on exactly on the day of the Jie
  have step : (if t.day < dj' then 12 * (t.year - 4) + t.month - 1 else 12 * (t.year - 4) + t.month) =
      (if s.day < dj then 12 * (s.year - 4) + s.month - 1 else 12 * (s.year - 4) + s.month) + if t.day = dj' then 1 else 0 := by
    have n82 : s.date ≠ ⟨1582, 10, 4⟩ := by
      intro c
      have : s.year = 1582 := congrArg Date.y c
      omega
    have lb := (Cal.lastDay_bounds s.year s.month).1
    have dt : s.day ≤ lastDay s.year s.month := hs.1.2.2.2.1
    have mo : s.month ≤ 12 := hs.1.2.1
    have go : ∀ y m d, t.date = ⟨y, m, d⟩ → t.year = y ∧ t.month = m ∧ t.day = d := fun y m d h =>
      ⟨congrArg Date.y h, congrArg Date.m h, congrArg Date.d h⟩
    unfold tomorrow at hst
    rw [if_neg n82] at hst
    by_cases c2 : s.day < lastDay s.year s.month
    · obtain ⟨g1, g2, g3⟩ := go s.year s.month (s.day + 1) (hst.trans (if_pos c2))
      rw [g1, g2, ← ej] at ej'
      split_ifs <;> omega
    · have hst := hst.trans (if_neg c2)
      by_cases c3 : s.month < 12
      · obtain ⟨g1, g2, g3⟩ := go s.year (s.month + 1) 1 (hst.trans (if_pos c3))
        split_ifs <;> omega
      · obtain ⟨g1, g2, g3⟩ := go (s.year + 1) 1 1 (hst.trans (if_neg c3))
        split_ifs <;> omega
  refine ⟨_, _, _, a3, C72_officer l P d _ e1 a3, (C73_day l P d _ e1 a3).1, fun h => ?_, fun h => ?_⟩
  · rw [if_neg (jie.1 h), add_zero] at step
    rw [step] at b3
    refine ⟨b3, ?_, ?_⟩
    · rw [C72_officer l' P' _ _ e2 b3]
      congr 3
      ring
    · rw [(C73_day l' P' _ _ e2 b3).1]
      congr 2
      ring
  · have td : t.day = dj' := by by_contra c; exact h (jie.2 c)
    rw [if_pos td] at step
    rw [step] at b3
    refine ⟨b3, ?_, ?_⟩
    · rw [C72_officer l' P' _ _ e2 b3, add_sub_add_right_eq_sub]
    · rw [(C73_day l' P' _ _ e2 b3).1, spirit_back]

/-- 2024-03-05 is the day of 惊蛰: the officer of 4 March again -/
example : ∃ l l' m o c, Lunar.fromSolar (astro Libm.cut) ⟨2024, 3, 4, 8, 0, 0⟩ = .ok l ∧ Lunar.fromSolar (astro Libm.cut) ⟨2024, 3, 5, 8, 0, 0⟩ = .ok l' ∧
    l.getMonthInGanZhi = .ok (ganZhi m) ∧ l.getZhiXing = .ok [officer o] ∧ l.getDayTianShen = .ok (spirit c) ∧
    (l'.getJie ≠ .ok [] → l'.getZhiXing = .ok [officer o]) := by
  obtain ⟨l, e, -⟩ := C84_round_trip Libm.cut_good ⟨2024, 3, 4, 8, 0, 0⟩ (by decide) (by decide) (by decide)
  obtain ⟨l', e', -⟩ := C84_round_trip Libm.cut_good ⟨2024, 3, 5, 8, 0, 0⟩ (by decide) (by decide) (by decide)
  obtain ⟨m, o, c, h1, h2, h3, -, h4⟩ := C104_next Libm.cut_good _ _ (by decide) (by decide) (by decide) (by decide) (by decide) l l' e e'
  exact ⟨l, l', m, o, c, e, e', h1, h2, h3, fun h => (h4 h).2.1⟩

/-- 2026-07-25: the pillar is number `12 · 2022 + 7`, 乙未, with no table at hand -/
example : ∃ l, Lunar.fromSolar (astro Libm.cut) ⟨2026, 7, 25, 8, 0, 0⟩ = .ok l ∧ l.getMonthInGanZhi = .ok ['乙', '未'] := by
  obtain ⟨l, e, -⟩ := C84_round_trip Libm.cut_good ⟨2026, 7, 25, 8, 0, 0⟩ (by decide) (by decide) (by decide)
  have := (C104_after_ten Libm.cut_good _ (by decide) (by decide) (by decide) (by decide) l e).1
  exact ⟨l, e, this.trans (by decide +kernel)⟩

end
