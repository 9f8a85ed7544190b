import Verif.Proof.Ephem.Made
import Verif.Model.YiJi
import Verif.Model.LunarDay

/-! # C115: what is told of a double-hour and of a day does not change within it -/

section
open Spec ShouXing Lunar LunarUtil

variable {M : Libm}

/-- `s` and `s'` belong to one double-hour: both hours are of one day between two odd hours of the clock, or one is the last hour of a
day and the other the first of the next -/
def OneDoubleHour (s s' : Solar) : Prop :=
  ∃ n n', IsDay n s.date ∧ IsDay n' s'.date ∧ 12 * n + (s.hour + 1) / 2 = 12 * n' + (s'.hour + 1) / 2

/-- the answers of `Lunar` for the double-hour of a moment, except `getTimeNineStar` -/
def hourAnswers (l : Lunar) : List (Except PyErr PyStr) :=
  [l.getTimeGan, l.getTimeZhi, l.getTimeInGanZhi, l.getTimeShengXiao, l.getTimePositionXi, l.getTimePositionXiDesc, l.getTimePositionYangGui,
   l.getTimePositionYangGuiDesc, l.getTimePositionYinGui, l.getTimePositionYinGuiDesc, l.getTimePositionFu 1, l.getTimePositionFu,
   l.getTimePositionFuDesc 1, l.getTimePositionFuDesc, l.getTimePositionCai, l.getTimePositionCaiDesc, l.getTimeChong, l.getTimeChongGan,
   l.getTimeChongGanTie, l.getTimeChongShengXiao, l.getTimeChongDesc, l.getTimeSha, l.getTimeNaYin, l.getTimeTianShen, l.getTimeTianShenType,
   l.getTimeTianShenLuck, l.getTimeXun, l.getTimeXunKong]

/-- **C115** two moments of one double-hour, also on both sides of midnight, are told the same of it. -/
theorem C115_double_hour (hM : M.Good) {s s' : Solar} (hs : s.Valid) (hs' : s'.Valid) (h1 : 1584 < s.year) (h2 : s.year < 6890)
    (h1' : 1584 < s'.year) (h2' : s'.year < 6890) {l l' : Lunar} (hl : Lunar.fromSolar (astro M) s = .ok l)
    (hl' : Lunar.fromSolar (astro M) s' = .ok l') (h : OneDoubleHour s s') :
    hourAnswers l = hourAnswers l' ∧ l.getTimeYi = l'.getTimeYi ∧ l.getTimeJi = l'.getTimeJi := by
  obtain ⟨f1, P, -, -, -⟩ := Ephem.made hM hs h1 h2 hl
  obtain ⟨f1', P', -, -, -⟩ := Ephem.made hM hs' h1' h2' hl'
  obtain ⟨-, -, ⟨-, -, g1, g4, -⟩, ⟨g2, g3⟩, -⟩ := made_fields P.made (by have := P.range; omega) P.range.2
  obtain ⟨-, -, ⟨-, -, g1', g4', -⟩, ⟨g2', g3'⟩, -⟩ := made_fields P'.made (by have := P'.range; omega) P'.range.2
  obtain ⟨n, n', hn, hn', e⟩ := h
  rw [isDay_iff hs.1] at hn
  rw [isDay_iff hs'.1] at hn'
  rw [f1] at g1 g2 g3 g4
  rw [f1'] at g1' g2' g3' g4'
  rw [← hn] at g1 g4
  rw [← hn'] at g1' g4'
  have a := hs.2.1
  have b := hs.2.2.1
  have a' := hs'.2.1
  have b' := hs'.2.2.1
  have k1 : (n - 11 + if s.hour = 23 then 1 else 0) = (n' - 11 + if s'.hour = 23 then 1 else 0) := by split_ifs <;> omega
  have k2 : (s.hour + 1) / 2 % 12 = (s'.hour + 1) / 2 % 12 := by omega
  have t1 : l.dayGanIndexExact = l'.dayGanIndexExact := by rw [g1, g1', k1]
  have t2 : l.dayZhiIndexExact = l'.dayZhiIndexExact := by rw [g4, g4', k1]
  have t3 : l.timeZhiIndex = l'.timeZhiIndex := by rw [g2, g2', k2]
  have t4 : l.timeGanIndex = l'.timeGanIndex := by rw [g3, g3', t1, k2]
  refine ⟨?_, ?_, ?_⟩
  · simp only [hourAnswers, getTimeGan, getTimeZhi, getTimeInGanZhi, getTimeShengXiao, getTimePositionXi, getTimePositionXiDesc, getTimePositionYangGui,
      getTimePositionYangGuiDesc, getTimePositionYinGui, getTimePositionYinGuiDesc, getTimePositionFu, getTimePositionFuDesc, getTimePositionCai,
      getTimePositionCaiDesc, getTimeChong, getTimeChongGan, getTimeChongGanTie, getTimeChongShengXiao, getTimeChongDesc, getTimeSha, getTimeNaYin,
      getTimeTianShen, getTimeTianShenType, getTimeTianShenLuck, getTimeXun, getTimeXunKong, getDayZhiExact, t1, t2, t3, t4]
  · simp only [Lunar.getTimeYi, getDayInGanZhiExact, getTimeInGanZhi, t1, t2, t3, t4]
  · simp only [Lunar.getTimeJi, getDayInGanZhiExact, getTimeInGanZhi, t1, t2, t3, t4]

/-! ## the civil day -/

/-- what two lunar objects of one civil day have in common -/
private structure SameDay (l l' : Lunar) : Prop where
  year : l.year = l'.year
  month : l.month = l'.month
  day : l.day = l'.day
  jq : l.jieQi = l'.jieQi
  sy : l.solar.year = l'.solar.year
  sm : l.solar.month = l'.solar.month
  sd : l.solar.day = l'.solar.day
  ymd : l.solar.toYmd = l'.solar.toYmd
  yg : l.yearGanIndex = l'.yearGanIndex
  yz : l.yearZhiIndex = l'.yearZhiIndex
  lg : l.yearGanIndexByLiChun = l'.yearGanIndexByLiChun
  lz : l.yearZhiIndexByLiChun = l'.yearZhiIndexByLiChun
  mg : l.monthGanIndex = l'.monthGanIndex
  mz : l.monthZhiIndex = l'.monthZhiIndex
  dg : l.dayGanIndex = l'.dayGanIndex
  dz : l.dayZhiIndex = l'.dayZhiIndex
  d2g : l.dayGanIndexExact2 = l'.dayGanIndexExact2
  d2z : l.dayZhiIndexExact2 = l'.dayZhiIndexExact2
  week : l.weekIndex = l'.weekIndex

private theorem computeYear_civil {Y : ℤ} {s s' : Solar} {J : List Solar} {y y' : YearPart} (hy : computeYear Y s J = .ok y) (hy' : computeYear Y s' J = .ok y')
    (e : s.year = s'.year) (e' : s.toYmd = s'.toYmd) : y.gan = y'.gan ∧ y.zhi = y'.zhi ∧ y.ganL = y'.ganL ∧ y.zhiL = y'.zhiL := by
  unfold computeYear at hy hy'
  rw [e, e'] at hy
  simp only [bind, Except.bind] at hy hy'
  split at hy
  · cases hy
  · rename_i a ha
    rw [ha] at hy'
    dsimp only at hy'
    by_cases c : a.year ≠ s'.year
    · rw [if_pos c] at hy hy'
      split at hy
      · cases hy
      · rename_i b hb
        rw [hb] at hy'
        cases hy
        cases hy'
        refine ⟨rfl, rfl, ?_, ?_⟩ <;> dsimp only <;> split_ifs <;> rfl
    · rw [if_neg c] at hy hy'
      cases hy
      cases hy'
      refine ⟨rfl, rfl, ?_, ?_⟩ <;> dsimp only <;> split_ifs <;> rfl

private theorem sameDay (hM : M.Good) {s s' : Solar} (hs : s.Valid) (hs' : s'.Valid) (h1 : 1584 < s.year) (h2 : s.year < 6890) (h : s.date = s'.date)
    {l l' : Lunar} (hl : Lunar.fromSolar (astro M) s = .ok l) (hl' : Lunar.fromSolar (astro M) s' = .ok l') : SameDay l l' := by
  have ey : s.year = s'.year := congrArg Date.y h
  have em : s.month = s'.month := congrArg Date.m h
  have ed : s.day = s'.day := congrArg Date.d h
  obtain ⟨_, e, -, -, -, -, k, f4, f5, f6, f7⟩ := C38_round_trip (Ephem.almanac (Ephem.full hM)) s hs h1 h2
  rw [hl] at e
  cases e
  obtain ⟨_, e, -, -, -, -, k', f4', f5', f6', f7'⟩ := C38_round_trip (Ephem.almanac (Ephem.full hM)) s' hs' (by omega) (by omega)
  rw [hl'] at e
  cases e
  rw [isDay_iff hs.1] at f7
  rw [isDay_iff hs'.1, ← h] at f7'
  have kk : k = k' := (Ephem.almanac (Ephem.full hM)).month_unique (n := JD.jdn s.date) (by omega) (by omega) (by omega) (by omega)
  subst kk
  have ym := f4.trans f4'.symm
  rw [Prod.mk.injEq] at ym
  obtain ⟨g1, P, -, -, t⟩ := Ephem.made hM hs h1 h2 hl
  obtain ⟨g1', P', -, -, t'⟩ := Ephem.made hM hs' (by omega) (by omega) hl'
  have jq : l.jieQi = l'.jieQi := by
    refine List.ext_getElem? fun i => ?_
    by_cases c : i < 31
    · rw [t i c, t' i c, ey]
    · rw [List.getElem?_eq_none (by rw [P.table.len]; omega), List.getElem?_eq_none (by rw [P'.table.len]; omega)]
  have ymd : s.toYmd = s'.toYmd := by unfold Solar.toYmd; rw [ey, em, ed]
  obtain ⟨⟨y, c0, c1, c2, c3, c4, -⟩, ⟨b1, b2, -⟩, ⟨d1, d2, -, -, d3, d4⟩, -, w, -⟩ := made_fields P.made (by have := P.range; omega) P.range.2
  obtain ⟨⟨y', c0', c1', c2', c3', c4', -⟩, ⟨b1', b2', -⟩, ⟨d1', d2', -, -, d3', d4'⟩, -, w', -⟩ := made_fields P'.made (by have := P'.range; omega) P'.range.2
  rw [ym.1, jq] at c0
  obtain ⟨e1, e2, e3, e4⟩ := computeYear_civil c0 c0' (by rw [g1, g1', ey]) (by rw [g1, g1', ymd])
  have lg : l.yearGanIndexByLiChun = l'.yearGanIndexByLiChun := by rw [c3, c3', e3]
  have dd : l.solar.date = l'.solar.date := by rw [g1, g1', h]
  exact ⟨ym.1, ym.2, by omega, jq, by rw [g1, g1', ey], by rw [g1, g1', em], by rw [g1, g1', ed], by rw [g1, g1', ymd], by rw [c1, c1', e1],
    by rw [c2, c2', e2], lg, by rw [c4, c4', e4], by rw [b1, b1', lg, jq, g1, g1', ymd], by rw [b2, b2', jq, g1, g1', ymd], by rw [d1, d1', dd],
    by rw [d2, d2', dd], by rw [d3, d3', dd], by rw [d4, d4', dd], by rw [w, w', g1, g1']; rw [JD.getWeek_eq hs (by omega) (by omega), JD.getWeek_eq hs' (by omega) (by omega), h]⟩

/-- the answers of `Lunar` for the civil day of a moment that are texts -/
def dayAnswers (l : Lunar) : List (Except PyErr PyStr) :=
  [l.getYearInGanZhi, l.getYearInGanZhiByLiChun, l.getMonthInGanZhi, l.getDayInGanZhi, l.getDayInGanZhiExact2, l.getYearShengXiao, l.getYearShengXiaoByLiChun,
   l.getMonthShengXiao, l.getDayShengXiao, l.getYearInChinese, l.getMonthInChinese, l.getDayInChinese, l.getPengZuGan, l.getPengZuZhi,
   l.getDayPositionXi, l.getDayPositionYangGui, l.getDayPositionYinGui, l.getDayPositionFu 1, l.getDayPositionFu, l.getDayPositionCai,
   l.getYearPositionTaiSui 1, l.getYearPositionTaiSui, l.getMonthPositionTaiSui, l.getDayPositionTaiSui 1, l.getDayPositionTaiSui, l.getDayChong,
   l.getDayChongGan, l.getDayChongGanTie, l.getDayChongShengXiao, l.getDayChongDesc, l.getDaySha, l.getYearNaYin, l.getMonthNaYin, l.getDayNaYin, l.getSeason,
   l.getWeekInChinese, l.getXiu, l.getXiuLuck, l.getXiuSong, l.getZheng, l.getAnimal, l.getGong, l.getShou, l.getZhiXing, l.getDayTianShen, l.getDayTianShenType,
   l.getDayTianShenLuck, l.getDayPositionTai, l.getMonthPositionTai, l.getYueXiang, l.getLiuYao, l.getDayLu, l.getYearXun, l.getYearXunByLiChun, l.getYearXunKong,
   l.getYearXunKongByLiChun, l.getMonthXun, l.getMonthXunKong, l.getDayXun, l.getDayXunExact2, l.getDayXunKong, l.getDayXunKongExact2,
   l.getJie, l.getQi, l.getJieQi, l.getHou, l.getWuHou]

/-- **C115** two moments of one civil day are told the same of it: the lunar date, pillars, positions, spirits, terms and pentads, stars, dog days and nines,
what is good and bad to do, the festivals. -/
theorem C115_day (hM : M.Good) {s s' : Solar} (hs : s.Valid) (hs' : s'.Valid) (h1 : 1584 < s.year) (h2 : s.year < 6889) (h : s.date = s'.date)
    {l l' : Lunar} (hl : Lunar.fromSolar (astro M) s = .ok l) (hl' : Lunar.fromSolar (astro M) s' = .ok l') :
    (l.year, l.month, l.day) = (l'.year, l'.month, l'.day) ∧ dayAnswers l = dayAnswers l' ∧
    (l.getYearNineStar 1 = l'.getYearNineStar 1 ∧ l.getYearNineStar = l'.getYearNineStar ∧ l.getMonthNineStar 1 = l'.getMonthNineStar 1 ∧
      l.getMonthNineStar = l'.getMonthNineStar ∧ l.getDayNineStar (astro M) = l'.getDayNineStar (astro M)) ∧
    (l.getShuJiu = l'.getShuJiu ∧ l.getFu (astro M) = l'.getFu (astro M)) ∧
    (l.getDayYi = l'.getDayYi ∧ l.getDayJi = l'.getDayJi ∧ l.getDayJiShen = l'.getDayJiShen ∧ l.getDayXiongSha = l'.getDayXiongSha) ∧
    (l.getFestivals (astro M) = l'.getFestivals (astro M) ∧ l.getOtherFestivals (astro M) = l'.getOtherFestivals (astro M)) := by
  obtain ⟨year, month, day, jq, sy, sm, sd, ymd, yg, yz, lg, lz, mg, mz, dg, dz, d2g, d2z, week⟩ := sameDay hM hs hs' h1 (by omega) h hl hl'
  have sy' : s.year = s'.year := congrArg Date.y h
  have sub : ∀ o, l.solar.subtract o = l'.solar.subtract o := fun o => by unfold Solar.subtract; rw [sy, sm, sd]
  have sub' : ∀ o, Solar.subtract o l.solar = Solar.subtract o l'.solar := fun o => by unfold Solar.subtract; rw [sy, sm, sd]
  have prev : l.getPrevJieQi true = l'.getPrevJieQi true := by
    unfold getPrevJieQi getNearJieQi
    simp only [fmtOf, if_true, ymd, jq]
  have same : ∀ d, Lunar.sameDay d l.solar = Lunar.sameDay d l'.solar := by
    intro d
    unfold Lunar.sameDay
    rw [decide_eq_decide, sy, sm, sd]
  have find : ∀ ks, findTerm l ks = findTerm l' ks := by
    intro ks
    induction ks with
    | nil => rfl
    | cons k ks ih => unfold findTerm; simp only [jq, same, ih]
  refine ⟨by rw [year, month, day], ?_, ⟨?_, ?_, ?_, ?_, ?_⟩, ⟨?_, ?_⟩, ⟨?_, ?_, ?_, ?_⟩, ?_, ?_⟩
  · simp only [dayAnswers, getYearInGanZhi, getYearInGanZhiByLiChun, getMonthInGanZhi, getDayInGanZhi, getDayInGanZhiExact2, getYearShengXiao,
      getYearShengXiaoByLiChun, getMonthShengXiao, getDayShengXiao, getYearInChinese, getMonthInChinese, getDayInChinese, getPengZuGan, getPengZuZhi,
      getDayPositionXi, getDayPositionYangGui, getDayPositionYinGui, getDayPositionFu, getDayPositionCai,
      getYearPositionTaiSui, getMonthPositionTaiSui, getDayPositionTaiSui, getDayChong,
      getDayChongGan, getDayChongGanTie, getDayChongShengXiao, getDayChongDesc, getDaySha, getYearNaYin, getMonthNaYin, getDayNaYin, getSeason,
      getWeekInChinese, getXiu, getXiuLuck, getXiuSong, getZheng, getAnimal, getGong, getShou, getZhiXing, getDayTianShen, getDayTianShenType,
      getDayTianShenLuck, getDayPositionTai, getMonthPositionTai, getYueXiang, getLiuYao, getDayLu, getYearXun, getYearXunByLiChun, getYearXunKong,
      getYearXunKongByLiChun, getMonthXun, getMonthXunKong, getDayXun, getDayXunExact2, getDayXunKong, getDayXunKongExact2,
      getJie, getQi, getJieQi, getHou, getWuHou, getDayGan, getDayZhi, getMonthZhi, find, prev, sub,
      year, month, day, yg, yz, lg, lz, mg, mz, dg, dz, d2g, d2z, week]
    norm_num
  · simp only [getYearNineStar, yearNineStar, getYearInGanZhi, yg, yz, year, if_true]
  · simp [getYearNineStar, yearNineStar, getYearInGanZhi, getYearInGanZhiByLiChun, yg, yz, lg, lz, year]
  · simp only [getMonthNineStar, yz, mz, if_true]
  · simp [getMonthNineStar, lz, mz]
  · simp only [getDayNineStar, ymd, jq, sub, sub']
  · simp only [getShuJiu, sy, sm, sd, jq]
  · simp only [getFu, sy, sm, sd, jq]
  · simp [Lunar.getDayYi, getMonthInGanZhi, getDayInGanZhi, mg, mz, dg, dz]
  · simp [Lunar.getDayJi, getMonthInGanZhi, getDayInGanZhi, mg, mz, dg, dz]
  · simp only [Lunar.getDayJiShen, getDayInGanZhi, dg, dz, month]
  · simp only [Lunar.getDayXiongSha, getDayInGanZhi, dg, dz, month]
  · obtain ⟨f1, -⟩ := Ephem.made hM hs h1 (by omega) hl
    obtain ⟨f1', -⟩ := Ephem.made hM hs' (by rw [sy'] at h1; exact h1) (by omega) hl'
    obtain ⟨u, u1, u2, u3, u4⟩ := Cal.nextDay_spec hs 1
    obtain ⟨u', u1', u2', u3', u4'⟩ := Cal.nextDay_spec hs' 1
    have du : u.date = u'.date := Cal.dayNo_inj u2.1 u2'.1 (by rw [u4, u4', h])
    have low : s.year ≤ u.year := by
      have := (Cal.dayNo_lt_iff hs.1 u2.1).1 (by change Cal.dn s.date < Cal.dn u.date; omega)
      simp only [Cal.DateLt, Solar.date] at this
      omega
    have high : u.year ≤ s.year + 1 := by
      by_contra c
      have vm : Date.Valid ⟨s.year + 1, 1, 1⟩ := ⟨by norm_num, by norm_num, by norm_num, by simp [lastDay], by simp⟩
      have a := (Cal.dayNo_lt_iff hs.1 vm).2 (.inl (by simp [Solar.date]))
      have b := (Cal.dayNo_lt_iff vm u2.1).2 (.inl (by simp only [Solar.date]; omega))
      change Cal.dn s.date < Cal.dn _ at a
      change Cal.dn _ < Cal.dn u.date at b
      omega
    obtain ⟨k, ek, -⟩ := C38_round_trip (Ephem.almanac (Ephem.full hM)) u u2 (by omega) (by omega)
    have uy : u.year = u'.year := congrArg Date.y du
    obtain ⟨k', ek', -⟩ := C38_round_trip (Ephem.almanac (Ephem.full hM)) u' u2' (by omega) (by omega)
    have e := (sameDay hM u2 u2' (by omega) (by omega) du ek ek').year
    have n1 : l.next (astro M) 1 = .ok k := by unfold Lunar.next; rw [f1, u1]; exact ek
    have n2 : l'.next (astro M) 1 = .ok k' := by unfold Lunar.next; rw [f1', u1']; exact ek'
    simp only [getFestivals, n1, n2, month, day, year, e, bind, Except.bind]
  · simp only [getOtherFestivals, ymd, jq, month, day]

/-- half an hour before and after the midnight of New Year 2027 -/
example (hM : M.Good) {l l' : Lunar} (h : Lunar.fromSolar (astro M) ⟨2026, 12, 31, 23, 30, 0⟩ = .ok l)
    (h' : Lunar.fromSolar (astro M) ⟨2027, 1, 1, 0, 30, 0⟩ = .ok l') : l.getTimeTianShen = l'.getTimeTianShen := by
  have := (C115_double_hour hM (by decide) (by decide) (by decide) (by decide) (by decide) (by decide) h h'
    ⟨2461406, 2461407, (isDay_iff (by decide)).2 (by decide), (isDay_iff (by decide)).2 (by decide), by decide⟩).1
  simp only [hourAnswers, List.cons.injEq] at this
  tauto

/-- the beginning and the end of a day -/
example (hM : M.Good) {l l' : Lunar} (h : Lunar.fromSolar (astro M) ⟨2027, 2, 4, 0, 0, 0⟩ = .ok l)
    (h' : Lunar.fromSolar (astro M) ⟨2027, 2, 4, 23, 59, 59⟩ = .ok l') : l.getFestivals (astro M) = l'.getFestivals (astro M) :=
  (C115_day hM (s := ⟨2027, 2, 4, 0, 0, 0⟩) (s' := ⟨2027, 2, 4, 23, 59, 59⟩) (by decide) (by decide) (by decide) (by decide) rfl h h').2.2.2.2.2.1

end
