import Verif.Proof.Pillars

/-! # C31-C36, C49: pillars and mansions of a `Lunar`

`l.Made` says that `l` is what the constructor builds from its solar moment and its table of terms;
`TermTable Y jq` is the hypothesis on the table (chronological, Li Chun in the solar year `Y`). -/

section
open Spec LunarUtil Lunar Solar

/-- a table of terms of 2024 (to the minute) for the examples -/
def terms2024 : List Solar :=
  [⟨2023, 12, 7, 17, 32, 44⟩, ⟨2023, 12, 22, 11, 27, 9⟩, ⟨2024, 1, 6, 4, 49, 9⟩, ⟨2024, 1, 20, 22, 7, 8⟩,
   ⟨2024, 2, 4, 16, 26, 53⟩, ⟨2024, 2, 19, 12, 12, 58⟩, ⟨2024, 3, 5, 10, 22, 31⟩, ⟨2024, 3, 20, 11, 6, 12⟩,
   ⟨2024, 4, 4, 15, 2, 3⟩, ⟨2024, 4, 19, 21, 59, 33⟩, ⟨2024, 5, 5, 8, 9, 51⟩, ⟨2024, 5, 20, 20, 59, 17⟩,
   ⟨2024, 6, 5, 12, 9, 40⟩, ⟨2024, 6, 21, 4, 50, 46⟩, ⟨2024, 7, 6, 22, 19, 49⟩, ⟨2024, 7, 22, 15, 44, 13⟩,
   ⟨2024, 8, 7, 8, 9, 1⟩, ⟨2024, 8, 22, 22, 54, 48⟩, ⟨2024, 9, 7, 11, 11, 6⟩, ⟨2024, 9, 22, 20, 43, 27⟩,
   ⟨2024, 10, 8, 2, 59, 43⟩, ⟨2024, 10, 23, 6, 14, 32⟩, ⟨2024, 11, 7, 6, 19, 49⟩, ⟨2024, 11, 22, 3, 56, 16⟩,
   ⟨2024, 12, 6, 23, 16, 47⟩, ⟨2024, 12, 21, 17, 20, 20⟩, ⟨2025, 1, 5, 10, 32, 31⟩, ⟨2025, 1, 20, 3, 59, 52⟩,
   ⟨2025, 2, 3, 22, 10, 13⟩, ⟨2025, 2, 18, 18, 6, 18⟩, ⟨2025, 3, 5, 16, 7, 2⟩]

/-- the table meets the hypotheses used below -/
theorem terms2024_table : TermTable 2024 terms2024 := by
  have hv : ∀ s ∈ terms2024, s.Valid := by decide
  refine ⟨by decide, hv, by decide, ?_, by rintro s ⟨⟩; rfl⟩
  have : terms2024.Pairwise (fun a b => Cal.secNo a < Cal.secNo b) := by decide +kernel
  exact List.Pairwise.imp_of_mem (fun ha hb h => (before_iff (hv _ ha) (hv _ hb)).2 h) this

/-- the lunar date of 2024-02-04 23:30 (2023 twelfth month 25), before New Year, after Li Chun -/
def sample : Lunar :=
  { year := 2023, month := 12, day := 25, hour := 23, minute := 30, second := 0
    solar := ⟨2024, 2, 4, 23, 30, 0⟩, jieQi := terms2024
    yearGanIndex := 9, yearZhiIndex := 3, yearGanIndexByLiChun := 0, yearZhiIndexByLiChun := 4
    yearGanIndexExact := 0, yearZhiIndexExact := 4, monthGanIndex := 2, monthZhiIndex := 2
    monthGanIndexExact := 2, monthZhiIndexExact := 2, dayGanIndex := 4, dayZhiIndex := 10
    dayGanIndexExact := 5, dayZhiIndexExact := 11, dayGanIndexExact2 := 4, dayZhiIndexExact2 := 10
    timeGanIndex := 0, timeZhiIndex := 0, weekIndex := 0 }

/-- it is what the constructor builds -/
theorem sample_made : sample.Made := by
  refine ⟨by decide, ?_⟩
  have hv : (⟨2024, 2, 4, 23, 30, 0⟩ : Solar).Valid := by decide
  have e1 := dayOffset_eq hv (by decide) (by decide)
  have e2 := JD.getWeek_eq hv (by decide) (by decide)
  have e3 : JD.jdn (⟨2024, 2, 4, 23, 30, 0⟩ : Solar).date = 2460345 := by decide
  rw [e3] at e1 e2
  unfold compute
  simp only [sample]
  rw [e1, e2]
  decide +kernel

/-! ## C31 -/

private theorem jdn_after {x y : Date} (hx : x.Valid) (hy : y.Valid) {n : ℤ} (h : DaysAfter n x y) :
    JD.jdn y = JD.jdn x + n := by
  rw [JD.jdn_eq hx, JD.jdn_eq hy, (Cal.daysAfter_iff hx hy n).1 h]; ring

private theorem after2000 {y : Date} (hy : y.Valid) {n : ℤ} (h : DaysAfter n ⟨2000, 1, 1⟩ y) :
    JD.jdn y = 2451545 + n := by
  rw [jdn_after (by decide) hy h]; congr 1

private theorem ganZhi_congr {a b : ℤ} (h : (a - b) % 60 = 0) : ganZhi a = ganZhi b := by
  unfold ganZhi stem branch
  rw [show a % 10 = b % 10 by omega, show a % 12 = b % 12 by omega]

private theorem ganZhi_inj {a b : ℤ} (h : ganZhi a = ganZhi b) : (a - b) % 60 = 0 := by
  unfold ganZhi stem branch at h
  have k1 : ∀ i j : Fin 10, stems.getD i '?' = stems.getD j '?' → i = j := by decide
  have k2 : ∀ i j : Fin 12, branches.getD i '?' = branches.getD j '?' → i = j := by decide
  simp only [List.cons.injEq, and_true] at h
  have h1 := k1 ⟨(a % 10).toNat, by omega⟩ ⟨(b % 10).toNat, by omega⟩ h.1
  have h2 := k2 ⟨(a % 12).toNat, by omega⟩ ⟨(b % 12).toNat, by omega⟩ h.2
  simp only [Fin.mk.injEq] at h1 h2
  omega

/-- **C31** the day pillar: 2000-01-01 is 戊午 (number 54), `n` days later it is number `54 + n`. -/
theorem C31_day_pillar (l : Lunar) (hl : l.Made) (h0 : -4715 ≤ l.solar.year) (h1 : l.solar.year ≤ 9999)
    (n : ℤ) (hn : DaysAfter n ⟨2000, 1, 1⟩ l.solar.date) :
    l.getDayInGanZhi = .ok (ganZhi (54 + n)) := by
  obtain ⟨_, _, ⟨f1, f2, _⟩, _⟩ := made_fields hl h0 h1
  rw [after2000 hl.1.1 hn] at f1 f2
  exact pair_eq (by rw [f1]; omega) (by rw [f2]; omega)

/-- **C31** the pillar of the following civil day is the following pair. -/
theorem C31_advances (l l' : Lunar) (hl : l.Made) (hl' : l'.Made) (h0 : -4715 ≤ l.solar.year)
    (h1 : l'.solar.year ≤ 9999) (hd : l'.solar.date = tomorrow l.solar.date) :
    ∃ k, l.getDayInGanZhi = .ok (ganZhi k) ∧ l'.getDayInGanZhi = .ok (ganZhi (k + 1)) := by
  have hd1 : DaysAfter 1 l.solar.date l'.solar.date := .inl ⟨by decide, hd.symm⟩
  have hlt := (Cal.daysAfter_iff hl.1.1 hl'.1.1 1).1 hd1
  have hord := (Cal.dayNo_lt_iff hl.1.1 hl'.1.1).1 (by omega)
  have hyy : l.solar.year ≤ l'.solar.year := by
    unfold Cal.DateLt at hord
    simp only [Solar.date] at hord
    omega
  obtain ⟨_, _, ⟨f1, f2, _⟩, _⟩ := made_fields hl h0 (by omega)
  obtain ⟨_, _, ⟨g1, g2, _⟩, _⟩ := made_fields hl' (by omega) h1
  rw [jdn_after hl.1.1 hl'.1.1 hd1] at g1 g2
  refine ⟨JD.jdn l.solar.date - 11, pair_eq f1 f2, pair_eq (by rw [g1]; omega) (by rw [g2]; omega)⟩

/-- **C31** equal day pillars iff the distance in days is a multiple of 60. -/
theorem C31_period (l l' : Lunar) (hl : l.Made) (hl' : l'.Made)
    (h0 : -4715 ≤ l.solar.year) (h1 : l.solar.year ≤ 9999) (h0' : -4715 ≤ l'.solar.year) (h1' : l'.solar.year ≤ 9999)
    (n : ℤ) (hn : DaysAfter n l.solar.date l'.solar.date) :
    l.getDayInGanZhi = l'.getDayInGanZhi ↔ 60 ∣ n := by
  obtain ⟨_, _, ⟨f1, f2, _⟩, _⟩ := made_fields hl h0 h1
  obtain ⟨_, _, ⟨g1, g2, _⟩, _⟩ := made_fields hl' h0' h1'
  rw [jdn_after hl.1.1 hl'.1.1 hn] at g1 g2
  have e1 : l.getDayInGanZhi = .ok (ganZhi (JD.jdn l.solar.date - 11)) := pair_eq f1 f2
  have e2 : l'.getDayInGanZhi = .ok (ganZhi (JD.jdn l.solar.date + n - 11)) := pair_eq g1 g2
  rw [e1, e2, Except.ok.injEq]
  constructor
  · intro h; have := ganZhi_inj h; omega
  · intro h; exact ganZhi_congr (by omega)

/-- 2024-02-04 is 8800 days after 2000-01-01: pair 8854 mod 60 = 34, 戊戌 -/
example : sample.getDayInGanZhi = .ok ['戊', '戌'] :=
  C31_day_pillar sample sample_made (by decide) (by decide) 8800
    ((Cal.daysAfter_iff (by decide) (by decide) _).2 (by decide +kernel))

/-! ## C32 -/

/-- **C32** sect 1: from 23:00 on the day pillar is that of the next day; otherwise, and in sect 2
always, it is the day's own. -/
theorem C32_late_night (l : Lunar) (hl : l.Made) (h0 : -4715 ≤ l.solar.year) (h1 : l.solar.year ≤ 9999) :
    l.getDayInGanZhiExact2 = l.getDayInGanZhi ∧
    ∃ k, l.getDayInGanZhi = .ok (ganZhi k) ∧
      l.getDayInGanZhiExact = .ok (ganZhi (if l.hour = 23 then k + 1 else k)) ∧
      (l.getDayInGanZhiExact = l.getDayInGanZhi ↔ l.hour ≠ 23) := by
  obtain ⟨_, _, ⟨f1, f2, f3, f4, f5, f6⟩, _, _, hh, _⟩ := made_fields hl h0 h1
  have e : l.getDayInGanZhiExact = .ok (ganZhi (if l.hour = 23 then JD.jdn l.solar.date - 11 + 1 else JD.jdn l.solar.date - 11)) := by
    refine pair_eq ?_ ?_
    · rw [f3, ← hh]; split_ifs <;> simp
    · rw [f4, ← hh]; split_ifs <;> simp
  have e1 : l.getDayInGanZhi = .ok (ganZhi (JD.jdn l.solar.date - 11)) := pair_eq f1 f2
  refine ⟨?_, JD.jdn l.solar.date - 11, e1, e, ?_⟩
  · unfold getDayInGanZhiExact2 getDayInGanZhi
    rw [f1, f2, f5, f6]
  · rw [e, e1, Except.ok.injEq]
    constructor
    · intro h hc
      rw [if_pos hc] at h
      have := ganZhi_inj h
      omega
    · intro h; rw [if_neg h]

example : sample.getDayInGanZhiExact = .ok ['己', '亥'] ∧ sample.getDayInGanZhiExact2 = .ok ['戊', '戌'] := by
  decide +kernel

/-! ## C33 -/

/-- **C33** the double-hour of a clock time `h:m`. -/
theorem C33_time_index (h m : ℤ) (h0 : 0 ≤ h) (h1 : h ≤ 23) (m0 : 0 ≤ m) (m1 : m ≤ 59) :
    let i := getTimeZhiIndex (fmtD 2 h ++ [':'] ++ fmtD 2 m)
    0 ≤ i ∧ i ≤ 11 ∧ (if h = 23 ∨ h = 0 then i = 0 else 2 * i - 1 ≤ h ∧ h ≤ 2 * i) := by
  have e : fmtD 2 h ++ [':'] ++ fmtD 2 m = hm h m := by
    have key : ∀ a : Fin 24, ∀ b : Fin 60, fmtD 2 (a : ℕ) ++ [':'] ++ fmtD 2 (b : ℕ) = hm (a : ℕ) (b : ℕ) := by
      decide +kernel
    have := key ⟨h.toNat, by omega⟩ ⟨m.toNat, by omega⟩
    simpa only [show ((h.toNat : ℕ) : ℤ) = h by omega, show ((m.toNat : ℕ) : ℤ) = m by omega] using this
  intro i
  have hi : i = (h + 1) / 2 % 12 := by
    show getTimeZhiIndex _ = _
    rw [e, timeZhi_eq h0 h1 m0 m1]
  rw [hi]
  refine ⟨by omega, by omega, ?_⟩
  split_ifs <;> omega

example : getTimeZhiIndex ['2', '2', ':', '5', '9'] = 11 ∧ getTimeZhiIndex ['0', '0', ':', '5', '9'] = 0 := by
  decide +kernel

/-- **C33** the hour pillar: the double-hour beginning 1999-12-31 23:00 is 壬子 (number 48), and the
pillar advances by one every 7200 seconds from there, over all midnights. -/
theorem C33_hour_pillar (l : Lunar) (hl : l.Made) (h0 : -4715 ≤ l.solar.year) (h1 : l.solar.year ≤ 9999)
    (n : ℤ) (hn : SecondsAfter n ⟨1999, 12, 31⟩ 23 0 0 l.solar.date l.solar.hour l.solar.minute l.solar.second) :
    l.getTimeInGanZhi = .ok (ganZhi (48 + n / 7200)) := by
  obtain ⟨_, _, ⟨_, _, f3, _⟩, ⟨f5, f6⟩, _⟩ := made_fields hl h0 h1
  obtain ⟨k, hk, hn⟩ := hn
  have hj := jdn_after (by decide) hl.1.1 hk
  have e0 : JD.jdn ⟨1999, 12, 31⟩ = 2451544 := by decide
  obtain ⟨c1, c2, c3, c4, c5, c6⟩ := hl.1.2
  rw [f3] at f6
  rw [hj, e0] at f6
  unfold getTimeInGanZhi
  generalize l.solar.hour = h at *
  generalize l.solar.minute = m at *
  generalize l.solar.second = s at *
  have hq : n / 7200 = 12 * (k - 1) + (h + 1) / 2 := by omega
  rw [hq]
  by_cases h23 : h = 23
  · subst h23
    rw [if_pos rfl] at f6
    exact pair_eq (by rw [f6]; omega) (by rw [f5]; omega)
  · rw [if_neg h23] at f6
    exact pair_eq (by rw [f6]; omega) (by rw [f5]; omega)

/-- 2024-02-04 23:30 belongs to the 甲子 hour of the next day 己亥 -/
example : sample.getTimeInGanZhi = .ok ['甲', '子'] := by decide +kernel

/-! ## C34 -/

/-- **C34** the three year pillars, for a lunar date whose lunar year is its solar year `Y` or `Y - 1`:
by New Year the pillar of the lunar year; by Li Chun's day, and by Li Chun's instant, that of `Y` from
Li Chun on and of `Y - 1` before. Year 4 is 甲子. -/
theorem C34_year_pillars (l : Lunar) (hl : l.Made) (h9 : 0 ≤ l.solar.year ∧ l.solar.year ≤ 9999)
    (T : TermTable l.solar.year l.jieQi) (hy : l.year = l.solar.year ∨ l.year = l.solar.year - 1)
    (lc : Solar) (hlc : l.jieQi[4]? = some lc) :
    l.getYearInGanZhi = .ok (ganZhi (l.year - 4)) ∧
    (DayAtOrBefore lc l.solar → l.getYearInGanZhiByLiChun = .ok (ganZhi (l.solar.year - 4))) ∧
    (DayBefore l.solar lc → l.getYearInGanZhiByLiChun = .ok (ganZhi (l.solar.year - 1 - 4))) ∧
    (AtOrBefore lc l.solar → l.getYearInGanZhiExact = .ok (ganZhi (l.solar.year - 4))) ∧
    (Before l.solar lc → l.getYearInGanZhiExact = .ok (ganZhi (l.solar.year - 1 - 4))) := by
  obtain ⟨⟨y, ey, f1, f2, f3, f4, f5, f6⟩, _⟩ := made_fields hl (by omega) h9.2
  obtain ⟨p, ep, g1, g2, g3, g4, g5, g6⟩ := computeYear_eq T hl.1 rfl h9 hy hlc
  rw [ey] at ep
  cases ep
  have hv := T.valid _ (List.mem_of_getElem? hlc)
  rw [dayAtOrBefore_iff hv hl.1, dayBefore_iff hl.1 hv, atOrBefore_iff hv hl.1, before_iff hl.1 hv]
  refine ⟨pair_eq (f1.trans g1) (f2.trans g2), ?_, ?_, ?_, ?_⟩ <;> intro h
  · refine pair_eq (f3.trans (g3.trans ?_)) (f4.trans (g4.trans ?_)) <;> rw [if_neg (by omega)] <;> omega
  · refine pair_eq (f3.trans (g3.trans ?_)) (f4.trans (g4.trans ?_)) <;> rw [if_pos (by omega)] <;> omega
  · refine pair_eq (f5.trans (g5.trans ?_)) (f6.trans (g6.trans ?_)) <;> rw [if_neg (by omega)] <;> omega
  · refine pair_eq (f5.trans (g5.trans ?_)) (f6.trans (g6.trans ?_)) <;> rw [if_pos (by omega)] <;> omega

/-- before New Year, after Li Chun: 癸卯 by New Year, 甲辰 by Li Chun -/
example : sample.getYearInGanZhi = .ok ['癸', '卯'] ∧ sample.getYearInGanZhiByLiChun = .ok ['甲', '辰'] ∧
    sample.getYearInGanZhiExact = .ok ['甲', '辰'] := by decide +kernel

/-- **C34** the restriction on the lunar year is needed: when the lunar year is ahead of the solar
year (year beginning in December, as in AD 8-23 and 237-239 in the library's own month tables), the Li
Chun pillars before Li Chun are those of the *next* lunar year. -/
theorem C34_lunar_year_ahead_violated :
    ∃ p, computeYear 2025 ⟨2024, 12, 30, 0, 0, 0⟩ terms2024 = .ok p ∧
      pair p.ganL p.zhiL = .ok (ganZhi (2025 - 4)) ∧ pair p.ganE p.zhiE = .ok (ganZhi (2025 - 4)) ∧
      ganZhi (2025 - 4) ≠ ganZhi (2024 - 4) :=
  ⟨⟨1, 5, 1, 5, 1, 5⟩, by decide +kernel, by decide +kernel, by decide +kernel, by decide +kernel⟩

/-! ## C35 -/

/-- **C35** the exact month pillar: with exactly the first `k` Jie of the table (entries 0, 2, 4, ...)
not later than the moment, the pillar is number `12 (Y - 4) + k - 1`.  In particular from Li Chun
(`k = 3`) on it is number `12 (Y - 4) + 2`, the 寅 month by the five-tigers rule. -/
theorem C35_month_pillar_exact (l : Lunar) (hl : l.Made) (h9 : 0 ≤ l.solar.year ∧ l.solar.year ≤ 9999)
    (T : TermTable l.solar.year l.jieQi) (hy : l.year = l.solar.year ∨ l.year = l.solar.year - 1)
    (k : ℕ) (hk : k ≤ 16) (h1 : ∀ i < k, ∀ s, l.jieQi[2 * i]? = some s → AtOrBefore s l.solar)
    (h2 : ∀ s, l.jieQi[2 * k]? = some s → Before l.solar s) :
    l.getMonthInGanZhiExact = .ok (ganZhi (12 * (l.solar.year - 4) + k - 1)) := by
  obtain ⟨lc, hlc, mlc, -, -⟩ := term_liChun T
  obtain ⟨⟨y, ey, _, _, _, _, f5, f6⟩, ⟨_, _, m3, m4⟩, _⟩ := made_fields hl (by omega) h9.2
  obtain ⟨p, ep, _, _, _, _, g5, g6⟩ := computeYear_eq T hl.1 rfl h9 hy hlc
  rw [ey] at ep
  cases ep
  have hf : Str.Four l.solar := h9
  obtain ⟨a1, a2⟩ := monthIndex_eq T (fmt := Solar.toYmdHms) (cur := l.solar.toYmdHms) Cal.secNo (Cal.secNo l.solar)
    (fun e he => Str.hms_lt hl.1 (T.valid e he) hf (T.four e he))
    (fun e he => Str.hms_le (T.valid e he) hl.1 (T.four e he) hf)
    (fun i j h a b ha hb => (table_le T h ha hb).1)
    (fun i hi s hs => (atOrBefore_iff (T.valid s (List.mem_of_getElem? hs)) hl.1).1 (h1 i hi s hs))
    (fun s hs => (before_iff hl.1 (T.valid s (List.mem_of_getElem? hs))).1 (h2 s hs)) hk hlc
  rw [a1] at m3 m4
  have hg : l.yearGanIndexExact = (l.solar.year - 4 - if ((k : ℤ) - 3 < 0) then 1 else 0) % 10 := by
    rw [f5, g5]
    congr 2
    by_cases h : k < 3
    · rw [if_pos (a2.1 h), if_pos (by omega)]
    · rw [if_neg (fun hc => h (a2.2 hc)), if_neg (by omega)]
  obtain ⟨b1, b2⟩ := monthGanZhi_eq (Y := l.solar.year) hg
  exact pair_eq (by rw [m3, b1]; omega) (by rw [m4, b2]; omega)

/-- **C35** the month pillar by whole days: the same with days in place of instants. -/
theorem C35_month_pillar_day (l : Lunar) (hl : l.Made) (h9 : 0 ≤ l.solar.year ∧ l.solar.year ≤ 9999)
    (T : TermTable l.solar.year l.jieQi) (hy : l.year = l.solar.year ∨ l.year = l.solar.year - 1)
    (k : ℕ) (hk : k ≤ 16) (h1 : ∀ i < k, ∀ s, l.jieQi[2 * i]? = some s → DayAtOrBefore s l.solar)
    (h2 : ∀ s, l.jieQi[2 * k]? = some s → DayBefore l.solar s) :
    l.getMonthInGanZhi = .ok (ganZhi (12 * (l.solar.year - 4) + k - 1)) := by
  obtain ⟨lc, hlc, mlc, -, -⟩ := term_liChun T
  obtain ⟨⟨y, ey, _, _, f5, f6, _⟩, ⟨m3, m4, _, _⟩, _⟩ := made_fields hl (by omega) h9.2
  obtain ⟨p, ep, _, _, g5, g6, _⟩ := computeYear_eq T hl.1 rfl h9 hy hlc
  rw [ey] at ep
  cases ep
  have hf : Str.Four l.solar := h9
  obtain ⟨a1, a2⟩ := monthIndex_eq T (fmt := Solar.toYmd) (cur := l.solar.toYmd) (fun s => Cal.dn s.date) (Cal.dn l.solar.date)
    (fun e he => Str.ymd_lt hl.1 (T.valid e he) hf (T.four e he))
    (fun e he => Str.ymd_le (T.valid e he) hl.1 (T.four e he) hf)
    (fun i j h a b ha hb => (table_le T h ha hb).2)
    (fun i hi s hs => (dayAtOrBefore_iff (T.valid s (List.mem_of_getElem? hs)) hl.1).1 (h1 i hi s hs))
    (fun s hs => (dayBefore_iff hl.1 (T.valid s (List.mem_of_getElem? hs))).1 (h2 s hs)) hk hlc
  rw [a1] at m3 m4
  have hg : l.yearGanIndexByLiChun = (l.solar.year - 4 - if ((k : ℤ) - 3 < 0) then 1 else 0) % 10 := by
    rw [f5, g5]
    congr 2
    by_cases h : k < 3
    · rw [if_pos (a2.1 h), if_pos (by omega)]
    · rw [if_neg (fun hc => h (a2.2 hc)), if_neg (by omega)]
  obtain ⟨b1, b2⟩ := monthGanZhi_eq (Y := l.solar.year) hg
  exact pair_eq (by rw [m3, b1]; omega) (by rw [m4, b2]; omega)

/-- **C35** the `k` of the two theorems exists for every moment and table (by instants and by days). -/
theorem C35_count_exists (s : Solar) (hs : s.Valid) (Y : ℤ) (jq : List Solar) (T : TermTable Y jq) :
    (∃ k : ℕ, k ≤ 16 ∧ (∀ i < k, ∀ t, jq[2 * i]? = some t → AtOrBefore t s) ∧ ∀ t, jq[2 * k]? = some t → Before s t) ∧
    (∃ k : ℕ, k ≤ 16 ∧ (∀ i < k, ∀ t, jq[2 * i]? = some t → DayAtOrBefore t s) ∧ ∀ t, jq[2 * k]? = some t → DayBefore s t) := by
  have key : ∀ P : Solar → Prop, ∃ k : ℕ, k ≤ 16 ∧ (∀ i < k, ∀ t, jq[2 * i]? = some t → P t) ∧
      ∀ t, jq[2 * k]? = some t → ¬ P t := by
    intro P
    have hex : ∃ k : ℕ, ∀ t, jq[2 * k]? = some t → ¬ P t :=
      ⟨16, fun t ht => by rw [List.getElem?_eq_none (by rw [T.len]; decide)] at ht; cases ht⟩
    classical
    refine ⟨Nat.find hex, Nat.find_min' hex ?_, ?_, Nat.find_spec hex⟩
    · intro t ht; rw [List.getElem?_eq_none (by rw [T.len]; decide)] at ht; cases ht
    · intro i hi t ht
      have := Nat.find_min hex hi
      push Not at this
      obtain ⟨t', ht', hP⟩ := this
      rw [ht] at ht'
      cases ht'
      exact hP
  constructor
  · obtain ⟨k, a, b, c⟩ := key (fun t => AtOrBefore t s)
    refine ⟨k, a, b, fun t ht => ?_⟩
    have hv := T.valid _ (List.mem_of_getElem? ht)
    have := c t ht
    rw [atOrBefore_iff hv hs] at this
    rw [before_iff hs hv]; omega
  · obtain ⟨k, a, b, c⟩ := key (fun t => DayAtOrBefore t s)
    refine ⟨k, a, b, fun t ht => ?_⟩
    have hv := T.valid _ (List.mem_of_getElem? ht)
    have := c t ht
    rw [dayAtOrBefore_iff hv hs] at this
    rw [dayBefore_iff hs hv]; omega

/-- 2024-02-04 23:30 is past the Jie DA_XUE, 小寒, 立春 (`k = 3`): 丙寅 -/
example : sample.getMonthInGanZhiExact = .ok (ganZhi (12 * (2024 - 4) + 3 - 1)) ∧
    ganZhi (12 * (2024 - 4) + 3 - 1) = ['丙', '寅'] := by decide +kernel

/-! ## C36 (pillars of the date; the derived pillars are in `Props/EightChar.lean`) -/

/-- **C36** every pillar of a date in every convention is one of the sixty pairs. -/
theorem C36_pillars (l : Lunar) (hl : l.Made) (h9 : 0 ≤ l.solar.year ∧ l.solar.year ≤ 9999)
    (T : TermTable l.solar.year l.jieQi) (hy : l.year = l.solar.year ∨ l.year = l.solar.year - 1) :
    ∀ p ∈ [l.getYearInGanZhi, l.getYearInGanZhiByLiChun, l.getYearInGanZhiExact, l.getMonthInGanZhi,
      l.getMonthInGanZhiExact, l.getDayInGanZhi, l.getDayInGanZhiExact, l.getDayInGanZhiExact2, l.getTimeInGanZhi],
      ∃ n, p = .ok (ganZhi n) := by
  obtain ⟨lc, hlc, mlc, -, -⟩ := term_liChun T
  obtain ⟨y1, y2, y3, y4, y5⟩ := C34_year_pillars l hl h9 T hy lc hlc
  have hv := T.valid _ mlc
  rw [dayAtOrBefore_iff hv hl.1] at y2
  rw [dayBefore_iff hl.1 hv] at y3
  rw [atOrBefore_iff hv hl.1] at y4
  rw [before_iff hl.1 hv] at y5
  obtain ⟨⟨k, a, b, c⟩, ⟨k', a', b', c'⟩⟩ := C35_count_exists l.solar hl.1 _ _ T
  have m1 := C35_month_pillar_exact l hl h9 T hy k a b c
  have m2 := C35_month_pillar_day l hl h9 T hy k' a' b' c'
  obtain ⟨d1, k1, d2, d3, _⟩ := C32_late_night l hl (by omega) h9.2
  obtain ⟨_, _, ⟨_, _, f3, f4, _⟩, ⟨f5, f6⟩, _⟩ := made_fields hl (by omega) h9.2
  intro p hp
  simp only [List.mem_cons, List.not_mem_nil, or_false] at hp
  rcases hp with rfl | rfl | rfl | rfl | rfl | rfl | rfl | rfl | rfl
  · exact ⟨_, y1⟩
  · rcases Int.lt_or_le (Cal.dn l.solar.date) (Cal.dn lc.date) with h | h
    · exact ⟨_, y3 h⟩
    · exact ⟨_, y2 h⟩
  · rcases Int.lt_or_le (Cal.secNo l.solar) (Cal.secNo lc) with h | h
    · exact ⟨_, y5 h⟩
    · exact ⟨_, y4 h⟩
  · exact ⟨_, m2⟩
  · exact ⟨_, m1⟩
  · exact ⟨_, d2⟩
  · exact ⟨_, d3⟩
  · exact ⟨_, d1.trans d2⟩
  · refine ⟨_, C33_hour_pillar l hl (by omega) h9.2 (Cal.secNo l.solar - Cal.secNo ⟨1999, 12, 31, 23, 0, 0⟩)
      ((Cal.secondsAfter_iff (s := ⟨1999, 12, 31, 23, 0, 0⟩) (by decide) hl.1 _).2 (by omega))⟩

/-! ## C49 -/

/-- the twenty-eight mansions in order -/
def mansions : List Char :=
  ['角', '亢', '氐', '房', '心', '尾', '箕', '斗', '牛', '女', '虚', '危', '室', '壁',
   '奎', '娄', '胃', '昴', '毕', '觜', '参', '井', '鬼', '柳', '星', '张', '翼', '轸']

/-- **C49** 2000-01-01 has mansion 胃 (number 16 from 角 = 0), `n` days later it is number `16 + n`
cyclically. -/
theorem C49_mansion (l : Lunar) (hl : l.Made) (h0 : -4712 ≤ l.solar.year) (h1 : l.solar.year ≤ 9999)
    (n : ℤ) (hn : DaysAfter n ⟨2000, 1, 1⟩ l.solar.date) :
    l.getXiu = .ok [mansions.getD ((16 + n) % 28).toNat '?'] := by
  obtain ⟨_, _, ⟨_, f2, _⟩, _, f3, _⟩ := made_fields hl (by omega) h1
  rw [JD.getWeek_eq hl.1 h0 h1] at f3
  rw [after2000 hl.1.1 hn] at f2 f3
  unfold getXiu
  rw [f2, f3]
  have key : ∀ i : Fin 84,
      (do let z ← pyIndex ZHI ((2451545 + ((i : ℕ) : ℤ) - 11) % 12 + 1)
          pyDict XIU (z ++ pyStrInt ((2451545 + ((i : ℕ) : ℤ) + 1) % 7)) : Except PyErr PyStr)
        = .ok [mansions.getD ((16 + ((i : ℕ) : ℤ)) % 28).toNat '?'] := by decide +kernel
  have := key ⟨(n % 84).toNat, by omega⟩
  simp only [show (((n % 84).toNat : ℕ) : ℤ) = n % 84 by omega] at this
  rw [show (2451545 + n % 84 - 11) % 12 = (2451545 + n - 11) % 12 by omega,
    show (2451545 + n % 84 + 1) % 7 = (2451545 + n + 1) % 7 by omega,
    show (16 + n % 84) % 28 = (16 + n) % 28 by omega] at this
  exact this

/-- 2024-02-04, 8800 days after: mansion number 8816 mod 28 = 24, 星 -/
example : sample.getXiu = .ok ['星'] := by decide +kernel

end
