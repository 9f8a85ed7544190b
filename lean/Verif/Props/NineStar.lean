import Verif.Model.NineStar
import Verif.Props.EightChar
import Verif.Props.GanZhi
import Verif.Props.ShuJiuFu
import Mathlib.Tactic.IntervalCases

/-! # C48: the nine stars of years, months, days and hours

Star number `i` (from 0) is the `i + 1`-st star. -/

section
open Spec LunarUtil Lunar Solar
variable {l : Lunar}

/-! ## every getter of a star -/

/-- **C48** every getter of the stars 0..8 returns a value, and so do the two string forms. -/
theorem C48_getters (s : NineStar) (h0 : 0 ≤ s.index) (h8 : s.index ≤ 8) :
    (∀ f ∈ [NineStar.getNumber, NineStar.getColor, NineStar.getWuXing, NineStar.getPosition, NineStar.getPositionDesc,
      NineStar.getNameInXuanKong, NineStar.getNameInBeiDou, NineStar.getNameInQiMen, NineStar.getNameInTaiYi,
      NineStar.getLuckInQiMen, NineStar.getLuckInXuanKong, NineStar.getYinYangInQiMen, NineStar.getTypeInTaiYi,
      NineStar.getBaMenInQiMen, NineStar.getSongInTaiYi, NineStar.toString, NineStar.toFullString],
      ∃ t, f s = .ok t) ∧
    s.getNumber = .ok [['一', '二', '三', '四', '五', '六', '七', '八', '九'].getD s.index.toNat '?'] := by
  obtain ⟨i⟩ := s
  dsimp only at h0 h8
  have key : ∀ i : Fin 9, (∀ f ∈ [NineStar.getNumber, NineStar.getColor, NineStar.getWuXing, NineStar.getPosition, NineStar.getPositionDesc,
      NineStar.getNameInXuanKong, NineStar.getNameInBeiDou, NineStar.getNameInQiMen, NineStar.getNameInTaiYi,
      NineStar.getLuckInQiMen, NineStar.getLuckInXuanKong, NineStar.getYinYangInQiMen, NineStar.getTypeInTaiYi,
      NineStar.getBaMenInQiMen, NineStar.getSongInTaiYi, NineStar.toString, NineStar.toFullString],
      (f ⟨((i : ℕ) : ℤ)⟩).toOption.isSome) ∧
      NineStar.getNumber ⟨((i : ℕ) : ℤ)⟩ = .ok [['一', '二', '三', '四', '五', '六', '七', '八', '九'].getD ((i : ℕ) : ℤ).toNat '?'] := by
    decide +kernel
  have := key ⟨i.toNat, by omega⟩
  simp only [show ((i.toNat : ℕ) : ℤ) = i by omega] at this
  refine ⟨fun f hf => ?_, this.2⟩
  have hs := this.1 f hf
  cases hfi : f ⟨i⟩ with
  | ok t => exact ⟨t, rfl⟩
  | error e => rw [hfi] at hs; cases hs

example : NineStar.toString ⟨2⟩ = .ok "三碧木天玑".toList := by decide +kernel

/-! ## years -/

private theorem ganZhi_eq (n : ℤ) : (do
    let gan ← pyIndex GAN (n % 10 + 1)
    let zhi ← pyIndex ZHI (n % 12 + 1)
    return gan ++ zhi : Except PyErr PyStr) = .ok (ganZhi n) := by
  rw [gan_index (by omega) (by omega), zhi_index (by omega) (by omega), stem_emod, branch_emod]
  rfl

private theorem offset_eq {E : ℤ} (h : -2696 ≤ E) :
    (if 0 = (62 + (E + 2696).tdiv 60 % 3 * 3 - ((E - 4) % 60 + 1)) % 9 then (9 : ℤ)
      else (62 + (E + 2696).tdiv 60 % 3 * 3 - ((E - 4) % 60 + 1)) % 9) - 1 = (1 - E) % 9 := by
  rw [Int.tdiv_eq_ediv_of_nonneg (by omega), show (E + 2696) / 60 = (E - 4) / 60 + 45 by omega]
  obtain ⟨q, hq⟩ : ∃ q, q = (E - 4) / 60 := ⟨_, rfl⟩
  obtain ⟨r, hr⟩ : ∃ r, r = (E - 4) % 60 := ⟨_, rfl⟩
  have he : E = 60 * q + r + 4 := by omega
  rw [← hq, ← hr, he]
  clear hq hr he
  split_ifs <;> omega

/-- **C48** the star of a lunar year: `(1 - Y) mod 9`, one less every year. -/
theorem C48_lunarYear (A : Astro) (Y : ℤ) (h : -2696 ≤ Y) : (LunarYear.make A Y).getNineStar = .ok ⟨(1 - Y) % 9⟩ := by
  unfold LunarYear.getNineStar LunarYear.getGanZhi
  have e1 : (LunarYear.make A Y).ganIndex = (Y - 4) % 10 := rfl
  have e2 : (LunarYear.make A Y).zhiIndex = (Y - 4) % 12 := rfl
  have e3 : (LunarYear.make A Y).year = Y := rfl
  rw [e1, e2, e3, ganZhi_eq]
  simp only [bind, Except.bind, pure, Except.pure]
  rw [C29_index, offset_eq h]

/-- 2024 is a year of the third star -/
example (A : Astro) : (LunarYear.make A 2024).getNineStar = .ok ⟨2⟩ := C48_lunarYear A 2024 (by decide)

private theorem yearStar_eq {E : ℤ} (he : l.getYearInGanZhi = .ok (ganZhi (l.year - 4))) (h : -2696 ≤ E)
    (hE : E = l.year ∨ E = l.year + 1 ∨ E = l.year - 1) : l.yearNineStar (ganZhi (E - 4)) = .ok ⟨(1 - E) % 9⟩ := by
  unfold yearNineStar
  rw [he]
  simp only [bind, Except.bind, pure, Except.pure]
  rw [C29_index, C29_index]
  have : (l.year + (if (E - 4) % 60 + 1 - ((l.year - 4) % 60 + 1) > 1 then (E - 4) % 60 + 1 - ((l.year - 4) % 60 + 1) - 60
      else if (E - 4) % 60 + 1 - ((l.year - 4) % 60 + 1) < -1 then (E - 4) % 60 + 1 - ((l.year - 4) % 60 + 1) + 60
      else (E - 4) % 60 + 1 - ((l.year - 4) % 60 + 1))) = E := by
    split_ifs <;> omega
  rw [this, offset_eq h]

/-- **C48** the year star of a date: `(1 - E) mod 9` where the year `E` begins at New Year (sect 1), at
the instant of Li Chun (sect 3) or on the day of Li Chun (otherwise). -/
theorem C48_year (h : l.Proper) (lc : Solar) (hlc : l.jieQi[4]? = some lc) :
    l.getYearNineStar 1 = .ok ⟨(1 - l.year) % 9⟩ ∧
    (AtOrBefore lc l.solar → l.getYearNineStar 3 = .ok ⟨(1 - l.solar.year) % 9⟩) ∧
    (Before l.solar lc → l.getYearNineStar 3 = .ok ⟨(1 - (l.solar.year - 1)) % 9⟩) ∧
    ∀ sect, sect ≠ 1 → sect ≠ 3 →
      (DayAtOrBefore lc l.solar → l.getYearNineStar sect = .ok ⟨(1 - l.solar.year) % 9⟩) ∧
      (DayBefore l.solar lc → l.getYearNineStar sect = .ok ⟨(1 - (l.solar.year - 1)) % 9⟩) := by
  obtain ⟨y1, y2, y3, y4, y5⟩ := C34_year_pillars l h.made h.range h.table h.near lc hlc
  have r := h.range
  have nr := h.near
  refine ⟨?_, fun c => ?_, fun c => ?_, fun sect n1 n3 => ⟨fun c => ?_, fun c => ?_⟩⟩ <;> unfold getYearNineStar
  · rw [if_pos rfl, y1]
    exact yearStar_eq y1 (by omega) (.inl rfl)
  · rw [if_neg (by decide), if_pos rfl, y4 c]
    exact yearStar_eq y1 (by omega) (by omega)
  · rw [if_neg (by decide), if_pos rfl, y5 c]
    exact yearStar_eq y1 (by omega) (by omega)
  · rw [if_neg (Ne.symm n1), if_neg (Ne.symm n3), y2 c]
    exact yearStar_eq y1 (by omega) (by omega)
  · rw [if_neg (Ne.symm n1), if_neg (Ne.symm n3), y3 c]
    exact yearStar_eq y1 (by omega) (by omega)

/-- on the day of Li Chun 2024, before New Year: fourth star by New Year, third by Li Chun -/
example : sample.getYearNineStar 1 = .ok ⟨3⟩ ∧ sample.getYearNineStar = .ok ⟨2⟩ := by
  obtain ⟨a, -, -, b⟩ := C48_year sample_proper ⟨2024, 2, 4, 16, 26, 53⟩ (by decide +kernel)
  exact ⟨a, (b 2 (by decide) (by decide)).1 ((dayAtOrBefore_iff (by decide) (by decide)).2 (by decide))⟩

/-! ## months -/

private theorem monthStar_eq {Y k y m : ℤ} (hk : 0 ≤ k ∧ k ≤ 14) (hy : y = (Y - 4 - if k < 3 then 1 else 0) % 12)
    (hm : m = (12 * (Y - 4) + 2 + (k - 3)) % 12) : monthNineStar y m = ⟨-(12 * (Y - 4) + k - 1) % 9⟩ := by
  unfold monthNineStar BASE_MONTH_ZHI_INDEX
  dsimp only
  congr 1
  subst hy hm
  split_ifs <;> omega

/-- **C48** the month star by instants: with exactly the first `k` Jie of the table not later than the
moment, the month is number `12 (Y - 4) + k - 1` (as for the pillar in C35) and its star is minus that
number mod 9: one less every Jie month, also over the ends of years. -/
theorem C48_month_exact (h : l.Proper) (k : ℕ) (hk : k ≤ 14)
    (h1 : ∀ i < k, ∀ s, l.jieQi[2 * i]? = some s → AtOrBefore s l.solar)
    (h2 : ∀ s, l.jieQi[2 * k]? = some s → Before l.solar s) :
    l.getMonthNineStar 3 = ⟨-(12 * (l.solar.year - 4) + k - 1) % 9⟩ := by
  obtain ⟨hl, h9, T, hy⟩ := h
  obtain ⟨lc, hlc, mlc, -, -⟩ := term_liChun T
  obtain ⟨⟨y, ey, _, _, _, _, f5, f6⟩, ⟨_, _, m3, m4⟩, _⟩ := made_fields hl (by omega) h9.2
  obtain ⟨p, ep, _, _, _, _, g5, g6⟩ := computeYear_eq T hl.1 rfl h9 hy hlc
  rw [ey] at ep
  cases ep
  have hf : Str.Four l.solar := h9
  obtain ⟨a1, a2⟩ := monthIndex_eq T (fmt := Solar.toYmdHms) (cur := l.solar.toYmdHms) Cal.secNo (Cal.secNo l.solar)
    (fun e he => Str.hms_lt hl.1 (T.valid e he) hf (T.four e he))
    (fun e he => Str.hms_le (T.valid e he) hl.1 (T.four e he) hf)
    (fun i j h a b ha hb => (table_le T h ha hb).1)
    (fun i hi s hs => (atOrBefore_iff (T.valid s (List.mem_of_getElem? hs)) hl.1).1 (h1 i hi s hs))
    (fun s hs => (before_iff hl.1 (T.valid s (List.mem_of_getElem? hs))).1 (h2 s hs)) (by omega) hlc
  rw [a1] at m4
  unfold getMonthNineStar
  rw [if_neg (by decide), if_pos rfl]
  refine monthStar_eq (by omega) ?_ ?_
  · rw [f6, g6]
    congr 2
    by_cases h : k < 3
    · rw [if_pos (a2.1 h), if_pos (by omega)]
    · rw [if_neg (fun hc => h (a2.2 hc)), if_neg (by omega)]
  · rw [m4]
    unfold monthZhi BASE_MONTH_ZHI_INDEX
    omega

/-- **C48** the month star by whole days (the default). -/
theorem C48_month_day (h : l.Proper) (sect : ℤ) (s1 : sect ≠ 1) (s3 : sect ≠ 3) (k : ℕ) (hk : k ≤ 14)
    (h1 : ∀ i < k, ∀ s, l.jieQi[2 * i]? = some s → DayAtOrBefore s l.solar)
    (h2 : ∀ s, l.jieQi[2 * k]? = some s → DayBefore l.solar s) :
    l.getMonthNineStar sect = ⟨-(12 * (l.solar.year - 4) + k - 1) % 9⟩ := by
  obtain ⟨hl, h9, T, hy⟩ := h
  obtain ⟨lc, hlc, mlc, -, -⟩ := term_liChun T
  obtain ⟨⟨y, ey, _, _, f5, f6, _⟩, ⟨m3, m4, _, _⟩, _⟩ := made_fields hl (by omega) h9.2
  obtain ⟨p, ep, _, _, g5, g6, _⟩ := computeYear_eq T hl.1 rfl h9 hy hlc
  rw [ey] at ep
  cases ep
  have hf : Str.Four l.solar := h9
  obtain ⟨a1, a2⟩ := monthIndex_eq T (fmt := Solar.toYmd) (cur := l.solar.toYmd) (fun s => Cal.dn s.date) (Cal.dn l.solar.date)
    (fun e he => Str.ymd_lt hl.1 (T.valid e he) hf (T.four e he))
    (fun e he => Str.ymd_le (T.valid e he) hl.1 (T.four e he) hf)
    (fun i j h a b ha hb => (table_le T h ha hb).2)
    (fun i hi s hs => (dayAtOrBefore_iff (T.valid s (List.mem_of_getElem? hs)) hl.1).1 (h1 i hi s hs))
    (fun s hs => (dayBefore_iff hl.1 (T.valid s (List.mem_of_getElem? hs))).1 (h2 s hs)) (by omega) hlc
  rw [a1] at m4
  unfold getMonthNineStar
  rw [if_neg (Ne.symm s1), if_neg (Ne.symm s3)]
  refine monthStar_eq (by omega) ?_ ?_
  · rw [f6, g6]
    congr 2
    by_cases h : k < 3
    · rw [if_pos (a2.1 h), if_pos (by omega)]
    · rw [if_neg (fun hc => h (a2.2 hc)), if_neg (by omega)]
  · rw [m4]
    unfold monthZhi BASE_MONTH_ZHI_INDEX
    omega

/-- 寅 month of 2024: fifth star -/
example : sample.getMonthNineStar 3 = ⟨-(12 * (2024 - 4) + (3 : ℕ) - 1) % 9⟩ ∧ sample.getMonthNineStar = ⟨4⟩ := by
  decide +kernel

/-- **C48** the star of a lunar month, a leap month having that of the month before: month `m` of year
`y` is number `12 (y - 4) + m + 1`, the star is minus that mod 9. -/
theorem C48_lunarMonth (A : Astro) (mo : LunarMonth) (h1 : 1 ≤ |mo.month|) (h2 : |mo.month| ≤ 12) :
    mo.getNineStar A = ⟨-(12 * (mo.year - 4) + |mo.month| + 1) % 9⟩ := by
  unfold LunarMonth.getNineStar BASE_MONTH_ZHI_INDEX
  have e2 : (LunarYear.make A mo.year).zhiIndex = (mo.year - 4) % 12 := rfl
  rw [e2]
  generalize |mo.month| = m at *
  dsimp only
  congr 1
  split_ifs <;> omega

example (A : Astro) : LunarMonth.getNineStar A { year := 2023, month := -2, dayCount := 29, firstJulianDay := 0, index := 3 } = ⟨6⟩ :=
  C48_lunarMonth A _ (by decide) (by decide)

/-- the date of New Year 2024 (2024-02-10) with the same table -/
private def newYear : Lunar :=
  { sample with
    year := 2024, month := 1, day := 1, hour := 0, minute := 0, second := 0
    solar := ⟨2024, 2, 10, 0, 0, 0⟩, yearGanIndex := 0, yearZhiIndex := 4
    dayGanIndex := 0, dayZhiIndex := 4, dayGanIndexExact := 0, dayZhiIndexExact := 4
    dayGanIndexExact2 := 0, dayZhiIndexExact2 := 4, timeGanIndex := 0, timeZhiIndex := 0, weekIndex := 6 }

private theorem newYear_proper : newYear.Proper := by
  refine ⟨⟨by decide, ?_⟩, by decide, terms2024_table, by decide⟩
  have hv : (⟨2024, 2, 10, 0, 0, 0⟩ : Solar).Valid := by decide
  have e1 := dayOffset_eq hv (by decide) (by decide)
  have e2 := JD.getWeek_eq hv (by decide) (by decide)
  have e3 : JD.jdn (⟨2024, 2, 10, 0, 0, 0⟩ : Solar).date = 2460351 := by decide
  rw [e3] at e1 e2
  unfold compute
  simp only [newYear, sample]
  rw [e1, e2]
  decide +kernel

/-- **C48** fails for the month star with sect 1, which takes the year from New Year but the month from
the Jie: within one month (丙寅, 2024-02-04 to 2024-03-04) the star changes at New Year. -/
theorem C48_month_sect1_violated : ∃ l l' : Lunar, l.Proper ∧ l'.Proper ∧
    l.getMonthInGanZhi = .ok ['丙', '寅'] ∧ l'.getMonthInGanZhi = .ok ['丙', '寅'] ∧
    l.solar.toYmd = "2024-02-04".toList ∧ l'.solar.toYmd = "2024-02-10".toList ∧
    l.getMonthNineStar 1 = ⟨7⟩ ∧ l'.getMonthNineStar 1 = ⟨4⟩ :=
  ⟨sample, newYear, sample_proper, newYear_proper, by decide +kernel, by decide +kernel, by decide +kernel,
    by decide +kernel, by decide +kernel, by decide +kernel⟩

/-! ## days -/

/-- the day with Julian day number `z` is the 甲子 day nearest to day `d` (the later one of two) -/
def IsNearJiaZi (z d : ℤ) : Prop := ganZhi (z - 11) = ['甲', '子'] ∧ d - 29 ≤ z ∧ z ≤ d + 30

private theorem jiaZi_iff (n : ℤ) : ganZhi n = ['甲', '子'] ↔ n % 60 = 0 := by
  rw [show (['甲', '子'] : List Char) = ganZhi 0 from by decide, ganZhi_eq_iff]
  omega

private theorem year_near {x y : Date} (hx : x.Valid) (hy : y.Valid) (h : Cal.dn y ≤ Cal.dn x + 30) : y.y ≤ x.y + 1 := by
  by_contra hc
  have v1 : (⟨x.y + 1, 1, 1⟩ : Date).Valid := by unfold Date.Valid lastDay; simp
  have v2 : (⟨x.y + 2, 1, 1⟩ : Date).Valid := by unfold Date.Valid lastDay; simp
  have a := Cal.dayNo_lt hx v1 (by unfold Cal.DateLt; left; show x.y < x.y + 1; omega)
  have b : Cal.dn ⟨x.y + 2, 1, 1⟩ ≤ Cal.dn y := by
    by_contra hb
    have := (Cal.dayNo_lt_iff hy v2).1 (by omega)
    unfold Cal.DateLt at this
    dsimp only at this
    have := hy.1
    have := hy.2.2.1
    omega
  have c : Cal.dn ⟨x.y + 2, 1, 1⟩ ≥ Cal.dn ⟨x.y + 1, 1, 1⟩ + 355 := by
    have e := Cal.yearStart_succ (x.y + 1)
    have e' : SolarUtil.getDaysOfYear (x.y + 1) ≥ 355 := by unfold SolarUtil.getDaysOfYear; split_ifs <;> omega
    rw [show x.y + 1 + 1 = x.y + 2 by ring] at e
    unfold Cal.dn Cal.dayNo Cal.monthStart
    dsimp only
    rw [Cal.cum_one, Cal.cum_one]
    unfold Cal.ord
    simp only [show ¬ ((1 : ℤ) = 10) by decide, and_false, false_and, if_false]
    omega
  omega

private theorem near_eq {A : Astro} {lo hi : ℤ} (H : Almanac A lo hi) {s : Solar} (hs : s.Valid) (y1 : lo < s.year)
    (y2 : s.year < hi) (y3 : 1 ≤ s.year) (y4 : s.year ≤ 9998) {z d : ℤ} (hd : IsDay d s.date) (hz : IsNearJiaZi z d) :
    ∃ x t, Lunar.fromSolar A s = .ok x ∧ x.getDayInGanZhi = .ok (ganZhi (d - 11)) ∧
      nearJiaZi s (getJiaZiIndex (ganZhi (d - 11))) = .ok t ∧ t.Valid ∧ Str.Four t ∧ Cal.dn t.date = z - 1721057 := by
  obtain ⟨x, ex, sx, mx, -⟩ := C38_round_trip H s hs y1 y2
  have hd' := (isDay_iff hs.1).1 hd
  have f := (made_fields mx (by rw [sx]; omega) (by rw [sx]; omega)).2.2.1
  rw [sx, ← hd'] at f
  rw [JD.jdn_eq hs.1] at hd'
  rw [IsNearJiaZi, jiaZi_iff] at hz
  obtain ⟨t, e, v, -, hn⟩ := Cal.nextDay_spec hs (z - d)
  refine ⟨x, t, ex, pair_eq f.1 f.2.1, ?_, v, ⟨?_, ?_⟩, by omega⟩
  · rw [C29_index]
    unfold nearJiaZi
    rw [← e]
    by_cases c : (d - 11) % 60 > 29
    · rw [if_pos c, show 60 - (d - 11) % 60 = z - d by omega]
    · rw [if_neg c, show -((d - 11) % 60) = z - d by omega]
  · have := year_near v.1 hs.1 (by omega)
    simp only [Solar.date] at this
    omega
  · have := year_near hs.1 v.1 (by omega)
    simp only [Solar.date] at this
    omega

/-- **C48** the day star: let `Z₁`, `X`, `Z₂` be the 甲子 days nearest to the winter solstice (day `a`),
the summer solstice (`b`) and the next winter solstice (`c`).  From `Z₁` the stars go up from the
first, from `X` down from the ninth, from `Z₂` up from the first; before `Z₁` they go down to the
first. -/
theorem C48_day {A : Astro} {lo hi Y : ℤ} (H : Almanac A lo hi) (T : TermTable Y l.jieQi) (hs : l.solar.Valid)
    (hs9 : 0 ≤ l.solar.year ∧ l.solar.year ≤ 9999) (z1 x z2 : Solar)
    (h1 : l.jieQi[1]? = some z1) (h2 : l.jieQi[13]? = some x) (h3 : l.jieQi[25]? = some z2)
    (hy : lo < z1.year ∧ z2.year < hi) (hy9 : 1 ≤ z1.year ∧ z2.year ≤ 9998)
    (n a b c Z1 X Z2 : ℤ) (hn : IsDay n l.solar.date) (ha : IsDay a z1.date) (hb : IsDay b x.date) (hc : IsDay c z2.date)
    (hZ1 : IsNearJiaZi Z1 a) (hX : IsNearJiaZi X b) (hZ2 : IsNearJiaZi Z2 c) (hgap : a + 59 ≤ b ∧ b + 59 ≤ c) :
    (Z1 ≤ n → n < X → l.getDayNineStar A = .ok ⟨(n - Z1) % 9⟩) ∧
    (X ≤ n → n < Z2 → l.getDayNineStar A = .ok ⟨(X - 1 - n) % 9⟩) ∧
    (Z2 ≤ n → l.getDayNineStar A = .ok ⟨(n - Z2) % 9⟩) ∧
    (n < Z1 → l.getDayNineStar A = .ok ⟨(Z1 - 1 - n) % 9⟩) := by
  have v1 := T.valid _ (List.mem_of_getElem? h1)
  have v2 := T.valid _ (List.mem_of_getElem? h2)
  have v3 := T.valid _ (List.mem_of_getElem? h3)
  have t1 : term l.jieQi ['冬', '至'] = .ok z1 := term_key T.len (by decide) h1
  have t2 : term l.jieQi ['夏', '至'] = .ok x := term_key T.len (by decide) h2
  have t3 : term l.jieQi ['D', 'O', 'N', 'G', '_', 'Z', 'H', 'I'] = .ok z2 := term_key T.len (by decide) h3
  have mono : ∀ {p q : Solar}, p.Valid → q.Valid → Cal.dn p.date < Cal.dn q.date → p.year ≤ q.year := by
    intro p q hp hq h
    have := (Cal.dayNo_lt_iff hp.1 hq.1).1 h
    unfold Cal.DateLt at this
    simp only [Solar.date] at this
    omega
  have ea := (isDay_iff v1.1).1 ha
  have eb := (isDay_iff v2.1).1 hb
  have ec := (isDay_iff v3.1).1 hc
  have en := (isDay_iff hs.1).1 hn
  rw [JD.jdn_eq v1.1] at ea
  rw [JD.jdn_eq v2.1] at eb
  rw [JD.jdn_eq v3.1] at ec
  rw [JD.jdn_eq hs.1] at en
  have m1 := mono v1 v2 (by omega)
  have m2 := mono v2 v3 (by omega)
  obtain ⟨l1, s1, p1, q1, r1, w1, u1, d1⟩ := near_eq H v1 hy.1 (by omega) hy9.1 (by omega) ha hZ1
  obtain ⟨l2, s2, p2, q2, r2, w2, u2, d2⟩ := near_eq H v2 (by omega) (by omega) (by omega) (by omega) hb hX
  obtain ⟨l3, s3, p3, q3, r3, w3, u3, d3⟩ := near_eq H v3 (by omega) hy.2 (by omega) hy9.2 hc hZ2
  have o1 := hZ1.2
  have o2 := hX.2
  have o3 := hZ2.2
  have hf : Str.Four l.solar := hs9
  have main : l.getDayNineStar A =
      if Z1 ≤ n ∧ n < X then .ok ⟨(n - Z1) % 9⟩
      else if X ≤ n ∧ n < Z2 then .ok ⟨8 - (n - X) % 9⟩
      else if Z2 ≤ n then .ok ⟨(n - Z2) % 9⟩
      else if n < Z1 then .ok ⟨(8 + (Z1 - n)) % 9⟩
      else .ok ⟨0⟩ := by
    unfold getDayNineStar
    rw [t1, t2, t3]
    simp only [bind, Except.bind]
    rw [p1, p2, p3]
    dsimp only
    rw [q1, q2, q3]
    dsimp only
    rw [r1, r2, r3]
    dsimp only
    rw [Str.ymd_le w1 hs u1 hf, Str.ymd_lt hs w2 hf u2, Str.ymd_le w2 hs u2 hf, Str.ymd_lt hs w3 hf u3,
      Str.ymd_le w3 hs u3 hf, Str.ymd_lt hs w1 hf u1, Cal.subtract_spec hs w1, Cal.subtract_spec hs w2,
      Cal.subtract_spec hs w3, Cal.subtract_spec w1 hs, d1, d2, d3,
      show Cal.dn l.solar.date = n - 1721057 by omega]
    simp only [Bool.and_eq_true, decide_eq_true_eq, pure, Except.pure, sub_sub_sub_cancel_right,
      sub_le_sub_iff_right, sub_lt_sub_iff_right]
  rw [main]
  refine ⟨fun c1 c2 => ?_, fun c1 c2 => ?_, fun c1 => ?_, fun c1 => ?_⟩
  · rw [if_pos ⟨c1, c2⟩]
  · rw [if_neg (by omega), if_pos ⟨c1, c2⟩]; congr 2; omega
  · rw [if_neg (by omega), if_neg (by omega), if_pos c1]
  · rw [if_neg (by omega), if_neg (by omega), if_neg (by omega), if_pos c1]; congr 2; omega

/-- winter solstice 2023-12-22 (戊午 is 2460311 - 10), nearest 甲子 2024-01-01; 2024-02-04 is day 34: eighth star -/
example : sample.getDayNineStar Sample.astro = .ok ⟨7⟩ :=
  (C48_day (l := sample) Sample.almanac terms2024_table (by decide) (by decide) ⟨2023, 12, 22, 11, 27, 9⟩ ⟨2024, 6, 21, 4, 50, 46⟩
    ⟨2024, 12, 21, 17, 20, 20⟩ (by decide +kernel) (by decide +kernel) (by decide +kernel) (by decide) (by decide)
    2460345 2460301 2460483 2460666 2460311 2460491 2460671 ((isDay_iff (by decide)).2 (by decide)) ((isDay_iff (by decide)).2 (by decide))
    ((isDay_iff (by decide)).2 (by decide)) ((isDay_iff (by decide)).2 (by decide))
    (by unfold IsNearJiaZi; decide) (by unfold IsNearJiaZi; decide) (by unfold IsNearJiaZi; decide) (by decide)).1 (by decide) (by decide)

/-! ## hours -/

/-- **C48** the star of a double-hour: between the winter and the summer solstice, and again from the
next winter solstice, the stars of the hours go up, continuously from the first hour of a 子 day;
otherwise they go down.  `b` is the branch of the day, `t` the number of the double-hour. -/
theorem C48_time (h : l.Proper) (z1 x z2 : Solar) (h1 : l.jieQi[1]? = some z1) (h2 : l.jieQi[13]? = some x)
    (h3 : l.jieQi[25]? = some z2) :
    let up := (DayAtOrBefore z1 l.solar ∧ DayBefore l.solar x) ∨ DayAtOrBefore z2 l.solar
    let hours := 12 * l.dayZhiIndex + l.timeZhiIndex
    (up → l.getTimeNineStar = .ok ⟨hours % 9⟩) ∧ (¬ up → l.getTimeNineStar = .ok ⟨(8 - hours) % 9⟩) := by
  obtain ⟨hl, h9, T, hy⟩ := h
  have v1 := T.valid _ (List.mem_of_getElem? h1)
  have v2 := T.valid _ (List.mem_of_getElem? h2)
  have v3 := T.valid _ (List.mem_of_getElem? h3)
  have u1 := T.four _ (List.mem_of_getElem? h1)
  have u2 := T.four _ (List.mem_of_getElem? h2)
  have u3 := T.four _ (List.mem_of_getElem? h3)
  have t1 : term l.jieQi ['冬', '至'] = .ok z1 := term_key T.len (by decide) h1
  have t2 : term l.jieQi ['夏', '至'] = .ok x := term_key T.len (by decide) h2
  have t3 : term l.jieQi ['D', 'O', 'N', 'G', '_', 'Z', 'H', 'I'] = .ok z2 := term_key T.len (by decide) h3
  obtain ⟨-, -, ⟨-, f2, -⟩, ⟨f4, -⟩, -⟩ := made_fields hl (by omega) h9.2
  have hf : Str.Four l.solar := h9
  intro up hours
  have hb : 0 ≤ l.dayZhiIndex ∧ l.dayZhiIndex < 12 := by omega
  have ht : 0 ≤ l.timeZhiIndex ∧ l.timeZhiIndex < 12 := by omega
  have key : ∀ (b : Fin 12) (t : Fin 12) (asc : Bool), (do
      let day_zhi ← pyIndex ZHI (((b : ℕ) : ℤ) + 1)
      let start : ℤ :=
        if day_zhi ∈ [['子'], ['午'], ['卯'], ['酉']] then (if asc then 0 else 8)
        else if day_zhi ∈ [['辰'], ['戌'], ['丑'], ['未']] then (if asc then 3 else 5)
        else if asc then 6 else 2
      let index := if asc then start + ((t : ℕ) : ℤ) else start + 9 - ((t : ℕ) : ℤ)
      return ⟨index % 9⟩ : Except PyErr NineStar) =
      .ok ⟨(if asc then 12 * ((b : ℕ) : ℤ) + ((t : ℕ) : ℤ) else 8 - (12 * ((b : ℕ) : ℤ) + ((t : ℕ) : ℤ))) % 9⟩ := by
    decide +kernel
  have k := key ⟨l.dayZhiIndex.toNat, by omega⟩ ⟨l.timeZhiIndex.toNat, by omega⟩
  simp only [show ((l.dayZhiIndex.toNat : ℕ) : ℤ) = l.dayZhiIndex by omega,
    show ((l.timeZhiIndex.toNat : ℕ) : ℤ) = l.timeZhiIndex by omega] at k
  have main : l.getTimeNineStar =
      .ok ⟨(if (decide (Cal.dn z1.date ≤ Cal.dn l.solar.date ∧ Cal.dn l.solar.date < Cal.dn x.date ∨ Cal.dn z2.date ≤ Cal.dn l.solar.date)) then hours
        else 8 - hours) % 9⟩ := by
    rw [← k]
    unfold getTimeNineStar getDayZhi
    rw [t1, t2, t3]
    simp only [bind, Except.bind, pure, Except.pure]
    rw [Str.ymd_le v1 hl.1 u1 hf, Str.ymd_lt hl.1 v2 hf u2, Str.ymd_le v3 hl.1 u3 hf]
    by_cases c : Cal.dn z1.date ≤ Cal.dn l.solar.date ∧ Cal.dn l.solar.date < Cal.dn x.date
    · rw [if_pos (by simpa using c)]
      simp only [c, true_and, true_or, decide_true]
    · rw [if_neg (by simpa using c)]
      simp only [c, false_or]
  have hup : up ↔ (Cal.dn z1.date ≤ Cal.dn l.solar.date ∧ Cal.dn l.solar.date < Cal.dn x.date ∨ Cal.dn z2.date ≤ Cal.dn l.solar.date) := by
    show _ ∧ _ ∨ _ ↔ _
    rw [dayAtOrBefore_iff v1 hl.1, dayAtOrBefore_iff v3 hl.1, dayBefore_iff hl.1 v2]
  rw [main]
  refine ⟨fun c => ?_, fun c => ?_⟩
  · rw [if_pos (by rw [decide_eq_true_eq]; exact hup.1 c)]
  · rw [if_neg (by rw [decide_eq_true_eq]; exact fun hc => c (hup.2 hc))]

/-- 戌 day, 子 hour, after the winter solstice: 120 hours, fourth star -/
example : sample.getTimeNineStar = .ok ⟨3⟩ := by decide +kernel

/-! ## C65: the three cycles of sixty years and the nine periods of twenty -/

/-- **C65** counting cycles of sixty years from the year 1864 (first year of an upper cycle) they are
called 上元, 中元, 下元 in turn, and counting periods of twenty years from the same year they are called
一运 to 九运 in turn; both for all years from -2696 on. -/
theorem C65_cycles (A : Astro) (Y : ℤ) (h : -2696 ≤ Y) :
    (LunarYear.make A Y).getYuan = .ok [['上', '中', '下'].getD ((Y - 1864) / 60 % 3).toNat '?', '元'] ∧
    (LunarYear.make A Y).getYun =
      .ok [['一', '二', '三', '四', '五', '六', '七', '八', '九'].getD ((Y - 1864) / 20 % 9).toNat '?', '运'] := by
  have e3 : (LunarYear.make A Y).year = Y := rfl
  constructor
  · unfold LunarYear.getYuan
    rw [e3, Int.tdiv_eq_ediv_of_nonneg (by omega), show (Y + 2696) / 60 = (Y - 1864) / 60 + 76 by omega]
    generalize (Y - 1864) / 60 = q
    have key : ∀ i : Fin 3, (do return (← pyIndex LunarYear.YUAN ((((i : ℕ) : ℤ) + 76) % 3)) ++ ['元'] : Except PyErr PyStr) =
        .ok [['上', '中', '下'].getD (((i : ℕ) : ℤ)).toNat '?', '元'] := by decide +kernel
    have := key ⟨(q % 3).toNat, by omega⟩
    simp only [show (((q % 3).toNat : ℕ) : ℤ) = q % 3 by omega] at this
    rw [show (q + 76) % 3 = (q % 3 + 76) % 3 by omega, this]
  · unfold LunarYear.getYun
    rw [e3, Int.tdiv_eq_ediv_of_nonneg (by omega), show (Y + 2696) / 20 = (Y - 1864) / 20 + 228 by omega]
    generalize (Y - 1864) / 20 = q
    have key : ∀ i : Fin 9, (do return (← pyIndex LunarYear.YUN ((((i : ℕ) : ℤ) + 228) % 9)) ++ ['运'] : Except PyErr PyStr) =
        .ok [['一', '二', '三', '四', '五', '六', '七', '八', '九'].getD (((i : ℕ) : ℤ)).toNat '?', '运'] := by decide +kernel
    have := key ⟨(q % 9).toNat, by omega⟩
    simp only [show (((q % 9).toNat : ℕ) : ℤ) = q % 9 by omega] at this
    rw [show (q + 228) % 9 = (q % 9 + 228) % 9 by omega, this]

/-- 2024 begins the ninth period, in the lower cycle of 1984 -/
example (A : Astro) : (LunarYear.make A 2024).getYuan = .ok ['下', '元'] ∧ (LunarYear.make A 2024).getYun = .ok ['九', '运'] :=
  C65_cycles A 2024 (by decide)

end
