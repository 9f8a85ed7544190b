import Verif.Model.LunarTime
import Verif.Proof.BaZi
import Verif.Proof.LunarDay
import Verif.Proof.SampleAlmanac
import Verif.Props.LunarDate
import Verif.Props.NineStar

/-! # C79: double-hours (`LunarTime`) -/

open Spec Lunar
open LunarUtil (getTimeZhiIndex)

section
variable {A : Astro} {lo hi : ℤ}

private theorem hm_fmt {h m : ℤ} (h0 : 0 ≤ h) (h1 : h ≤ 23) (m0 : 0 ≤ m) (m1 : m ≤ 59) :
    fmtD 2 h ++ [':'] ++ fmtD 2 m = hm h m := by
  have key : ∀ a : Fin 24, ∀ b : Fin 60, fmtD 2 (a : ℕ) ++ [':'] ++ fmtD 2 (b : ℕ) = hm (a : ℕ) (b : ℕ) := by
    decide +kernel
  have := key ⟨h.toNat, by omega⟩ ⟨m.toNat, by omega⟩
  simpa only [show ((h.toNat : ℕ) : ℤ) = h by omega, show ((m.toNat : ℕ) : ℤ) = m by omega] using this

/-- what a constructor that does not raise has done -/
private theorem parts {y m d h mi s : ℤ} {l : Lunar} (e : Lunar.fromYmdHms A y m d h mi s = .ok l) :
    ClockOk h mi s ∧ l.hour = h ∧ l.minute = mi ∧ l.timeZhiIndex = getTimeZhiIndex (hm h mi) ∧
      l.timeGanIndex = (l.dayGanIndexExact % 5 * 2 + getTimeZhiIndex (hm h mi)) % 10 := by
  unfold Lunar.fromYmdHms at e
  dsimp only at e
  split at e
  · cases e
  split_ifs at e
  obtain ⟨noon, -, e⟩ := BaZi.bind_ok e
  obtain ⟨sol, e1, e⟩ := BaZi.bind_ok e
  obtain ⟨jq, -, e⟩ := BaZi.bind_ok e
  have hc : ClockOk h mi s := by
    rcases C11_result noon.year noon.month noon.day h mi s with q | q
    · exact ((C11_accepts_iff_partial noon.year noon.month noon.day h mi s).mp q).2.2.2.2
    · rw [q] at e1; cases e1
  unfold compute at e
  obtain ⟨yp, -, e⟩ := BaZi.bind_ok e
  obtain ⟨off, -, e⟩ := BaZi.bind_ok e
  dsimp only at e
  cases e
  exact ⟨hc, rfl, rfl, rfl, rfl⟩

private theorem same_index {y m d h mi s : ℤ} {t : LunarTime} (e : LunarTime.fromYmdHms A y m d h mi s = .ok t) :
    Lunar.fromYmdHms A y m d h mi s = .ok t.lunar ∧ t.ganIndex = t.lunar.timeGanIndex ∧ t.zhiIndex = t.lunar.timeZhiIndex ∧
      ClockOk h mi s ∧ t.lunar.hour = h := by
  unfold LunarTime.fromYmdHms at e
  obtain ⟨l, el, e⟩ := BaZi.bind_ok e
  cases e
  obtain ⟨hc, p1, p2, p3, p4⟩ := parts el
  refine ⟨el, ?_, ?_, hc, p1⟩
  · show (_ : ℤ) = l.timeGanIndex
    rw [p4, hm_fmt hc.1 hc.2.1 hc.2.2.1 hc.2.2.2.1]
  · show (_ : ℤ) = l.timeZhiIndex
    rw [p3, hm_fmt hc.1 hc.2.1 hc.2.2.1 hc.2.2.2.1]

/-- the getters of `t` and the `getTime…` getters of `l` give the same -/
structure SameHour (t : LunarTime) (l : Lunar) : Prop where
  gan : t.getGan = l.getTimeGan
  zhi : t.getZhi = l.getTimeZhi
  ganZhi : t.getGanZhi = l.getTimeInGanZhi ∧ t.toString = l.getTimeInGanZhi
  animal : t.getShengXiao = l.getTimeShengXiao
  joy : t.getPositionXi = l.getTimePositionXi ∧ t.getPositionXiDesc = l.getTimePositionXiDesc
  nobleDay : t.getPositionYangGui = l.getTimePositionYangGui ∧ t.getPositionYangGuiDesc = l.getTimePositionYangGuiDesc
  nobleNight : t.getPositionYinGui = l.getTimePositionYinGui ∧ t.getPositionYinGuiDesc = l.getTimePositionYinGuiDesc
  fortune : ∀ sect, t.getPositionFu sect = l.getTimePositionFu sect ∧ t.getPositionFuDesc sect = l.getTimePositionFuDesc sect
  wealth : t.getPositionCai = l.getTimePositionCai ∧ t.getPositionCaiDesc = l.getTimePositionCaiDesc
  clash : t.getChong = l.getTimeChong ∧ t.getChongGan = l.getTimeChongGan ∧ t.getChongGanTie = l.getTimeChongGanTie ∧
    t.getChongShengXiao = l.getTimeChongShengXiao ∧ t.getChongDesc = l.getTimeChongDesc
  evil : t.getSha = l.getTimeSha
  naYin : t.getNaYin = l.getTimeNaYin
  spirit : t.getTianShen = l.getTimeTianShen ∧ t.getTianShenType = l.getTimeTianShenType ∧ t.getTianShenLuck = l.getTimeTianShenLuck
  lists : t.getYi = l.getTimeYi ∧ t.getJi = l.getTimeJi
  decade : t.getXun = l.getTimeXun ∧ t.getXunKong = l.getTimeXunKong

/-- **C79** a double-hour says what the `getTime…` getters of the lunar date of that moment say; it can be made exactly when
the lunar date can -/
theorem C79_same (A : Astro) (y m d h mi s : ℤ) :
    (∀ t, LunarTime.fromYmdHms A y m d h mi s = .ok t → Lunar.fromYmdHms A y m d h mi s = .ok t.lunar ∧ SameHour t t.lunar) ∧
    (∀ l, Lunar.fromYmdHms A y m d h mi s = .ok l → ∃ t, LunarTime.fromYmdHms A y m d h mi s = .ok t) := by
  constructor
  · intro t e
    obtain ⟨el, g, z, -⟩ := same_index e
    refine ⟨el, ?_⟩
    obtain ⟨l, zi, gi⟩ := t
    dsimp only at g z
    subst g z
    have gz : LunarTime.getGanZhi ⟨l, l.timeZhiIndex, l.timeGanIndex⟩ = l.getTimeInGanZhi := rfl
    exact
      { gan := rfl, zhi := rfl, ganZhi := ⟨gz, gz⟩, animal := rfl, joy := ⟨rfl, rfl⟩, nobleDay := ⟨rfl, rfl⟩
        nobleNight := ⟨rfl, rfl⟩, fortune := fun _ => ⟨rfl, rfl⟩, wealth := ⟨rfl, rfl⟩
        clash := ⟨rfl, rfl, rfl, rfl, rfl⟩, evil := rfl, naYin := rfl, spirit := ⟨rfl, rfl, rfl⟩, lists := ⟨rfl, rfl⟩
        decade := ⟨rfl, rfl⟩ }
  · intro l e
    unfold LunarTime.fromYmdHms
    rw [e]
    exact ⟨_, rfl⟩

private theorem min_max : ∀ a b : Fin 24, ∀ c : Fin 60,
    let lo := if ((a : ℕ) : ℤ) < 1 then ['0', '0', ':', '0', '0'] else if ((a : ℕ) : ℤ) > 22 then ['2', '3', ':', '0', '0']
      else fmtD 2 (if ((a : ℕ) : ℤ) % 2 = 0 then ((a : ℕ) : ℤ) - 1 else ((a : ℕ) : ℤ)) ++ [':', '0', '0']
    let hi := if ((a : ℕ) : ℤ) < 1 then ['0', '0', ':', '5', '9'] else if ((a : ℕ) : ℤ) > 22 then ['2', '3', ':', '5', '9']
      else fmtD 2 (if ((a : ℕ) : ℤ) % 2 ≠ 0 then ((a : ℕ) : ℤ) + 1 else ((a : ℕ) : ℤ)) ++ [':', '5', '9']
    (strLe lo (fmtD 2 (b : ℕ) ++ [':'] ++ fmtD 2 (c : ℕ)) && strLe (fmtD 2 (b : ℕ) ++ [':'] ++ fmtD 2 (c : ℕ)) hi) =
      decide ((((b : ℕ) : ℤ) + 1) / 2 = (((a : ℕ) : ℤ) + 1) / 2) := by
  decide +kernel


/-- **C79** `getMinHm` and `getMaxHm` bound the double-hour: a time of day is between them, as texts, exactly when it is in the
same double-hour (the first and the last hour of a day, both 子, are two) -/
theorem C79_interval (A : Astro) (y m d h mi s : ℤ) (t : LunarTime) (e : LunarTime.fromYmdHms A y m d h mi s = .ok t)
    (h' mi' : ℤ) (c : 0 ≤ h' ∧ h' ≤ 23 ∧ 0 ≤ mi' ∧ mi' ≤ 59) :
    let now := fmtD 2 h' ++ [':'] ++ fmtD 2 mi'
    (strLe t.getMinHm now = true ∧ strLe now t.getMaxHm = true) ↔ (h' + 1) / 2 = (h + 1) / 2 := by
  obtain ⟨-, -, -, hc, hh⟩ := same_index e
  have hc1 := hc.1
  have hc2 := hc.2.1
  have := min_max ⟨h.toNat, by omega⟩ ⟨h'.toNat, by omega⟩ ⟨mi'.toNat, by omega⟩
  simp only [show ((h.toNat : ℕ) : ℤ) = h by omega, show ((h'.toNat : ℕ) : ℤ) = h' by omega,
    show ((mi'.toNat : ℕ) : ℤ) = mi' by omega] at this
  intro now
  rw [← Bool.and_eq_true]
  unfold LunarTime.getMinHm LunarTime.getMaxHm
  dsimp only
  rw [hh]
  rw [this, decide_eq_true_iff]

/-- **C79** `getTimes`: thirteen double-hours of the day, whose pillars go on by one, from the first hour of the day pillar
(甲子 for 甲 and 己 days, …) to the first hour of the next; every minute of the day is in exactly one of them -/
theorem C79_times (H : Almanac A lo hi) (y m d h mi s : ℤ) (l : Lunar) (h1 : lo < y) (h2 : y < hi)
    (hl : Lunar.fromYmdHms A y m d h mi s = .ok l) (n : ℤ) (hn : l.getDayInGanZhi = .ok (ganZhi n)) :
    ∃ ts, l.getTimes A = .ok ts ∧ ts.length = 13 ∧
      (∀ i : ℕ, i < 13 → ∃ t, ts[i]? = some t ∧ t.getGanZhi = .ok (ganZhi (12 * n + i)) ∧
        (t.lunar.year, t.lunar.month, t.lunar.day) = (y, m, d)) ∧
      ∀ h' mi', 0 ≤ h' ∧ h' ≤ 23 ∧ 0 ≤ mi' ∧ mi' ≤ 59 → ∃ i, i < 13 ∧ ∀ j t, ts[j]? = some t →
        ((strLe t.getMinHm (fmtD 2 h' ++ [':'] ++ fmtD 2 mi') = true ∧ strLe (fmtD 2 h' ++ [':'] ++ fmtD 2 mi') t.getMaxHm = true) ↔ j = i) := by
  have q := (C39_round_trip H y m d h mi s l h1 h2 hl).1
  simp only [Prod.mk.injEq] at q
  obtain ⟨f1, f2, f3, -⟩ := q
  obtain ⟨k, x, hk, d1, d2, hx, hn', x1, x2, hc⟩ := accepted H h1 h2 hl
  have k1 : (H.key k).1 = y := by rw [hk]
  have k2 : (H.key k).2 = m := by rw [hk]
  have h9 := H.year_range (Y := x.y) x1 x2
  obtain ⟨l0, e0, -, -, -, -, -, q6, q7, -⟩ := H.fromYmdHms_ok (k := k) (by omega) (by omega) d1 d2 hx hn' x1 x2 hc
  rw [k1, k2, hl] at e0
  cases e0
  have r1 : -4715 ≤ x.y := by omega
  have hday : (JD.jdn x - 11) % 10 = n % 10 ∧ (JD.jdn x - 11) % 12 = n % 12 := by
    obtain ⟨-, -, ⟨g, z, -⟩, -⟩ := made_fields q7 (by rw [q6]; exact r1) (by rw [q6]; exact h9.2)
    have hd : l.solar.date = x := by rw [q6]; rfl
    rw [hd] at g z
    have := pair_bounds (n := n) (g := l.dayGanIndex) (z := l.dayZhiIndex) (by omega) (by omega) (by omega) (by omega) hn
    omega
  have F : ∀ i : ℕ, i < 13 → ∃ t, LunarTime.fromYmdHms A y m d (if i = 0 then 0 else 2 * (i : ℤ) - 1) 0 0 = .ok t ∧
      t.getGanZhi = .ok (ganZhi (12 * n + i)) ∧ (t.lunar.year, t.lunar.month, t.lunar.day) = (y, m, d) := by
    intro i hi
    have hc' : ClockOk (if i = 0 then 0 else 2 * (i : ℤ) - 1) 0 0 := by unfold ClockOk; split_ifs <;> omega
    obtain ⟨l', e', q1', q2', -, -, -, q6', q7', -⟩ := H.fromYmdHms_ok (k := k) (by omega) (by omega) d1 d2 hx hn' x1 x2 hc'
    rw [k1, k2] at e'
    obtain ⟨t, et⟩ := (C79_same A y m d _ 0 0).2 l' e'
    obtain ⟨el, S⟩ := (C79_same A y m d _ 0 0).1 t et
    rw [e'] at el
    cases el
    refine ⟨t, et, ?_, ?_⟩
    · rw [S.ganZhi.1]
      obtain ⟨-, -, ⟨-, -, g, -⟩, ⟨tz, tg⟩, -⟩ := made_fields q7' (by rw [q6']; exact r1) (by rw [q6']; exact h9.2)
      have hd : t.lunar.solar.date = x := by rw [q6']; rfl
      have hh : t.lunar.solar.hour = (if i = 0 then 0 else 2 * (i : ℤ) - 1) := by rw [q6']
      rw [hd, hh] at g
      rw [hh] at tz tg
      unfold getTimeInGanZhi pair
      rw [gan_index (by omega) (by omega), zhi_index (by omega) (by omega)]
      simp only [bind, Except.bind, pure, Except.pure, ganZhi, List.cons_append, List.nil_append]
      have a : t.lunar.timeGanIndex % 10 = (12 * n + i) % 10 := by split_ifs at g tz tg <;> omega
      have b : t.lunar.timeZhiIndex % 12 = (12 * n + i) % 12 := by split_ifs at g tz tg <;> omega
      unfold stem branch
      rw [a, b]
    · have : (t.lunar.year, t.lunar.month) = (y, m) := by rw [q1', hk]
      rw [q2', show t.lunar.year = y from congrArg Prod.fst this, show t.lunar.month = m from congrArg Prod.snd this]
  have : Nonempty LunarTime := ⟨(F 0 (by omega)).choose⟩
  choose! g hg1 hg2 hg3 using F
  have ht : l.getTimes A = .ok ((List.range 13).map g) := by
    unfold getTimes
    rw [f1, f2, f3]
    have e0 := hg1 0 (by omega)
    have e1 := hg1 1 (by omega)
    have e2 := hg1 2 (by omega)
    have e3 := hg1 3 (by omega)
    have e4 := hg1 4 (by omega)
    have e5 := hg1 5 (by omega)
    have e6 := hg1 6 (by omega)
    have e7 := hg1 7 (by omega)
    have e8 := hg1 8 (by omega)
    have e9 := hg1 9 (by omega)
    have e10 := hg1 10 (by omega)
    have e11 := hg1 11 (by omega)
    have e12 := hg1 12 (by omega)
    norm_num at e0 e1 e2 e3 e4 e5 e6 e7 e8 e9 e10 e11 e12
    have hr : pyRange 0 12 = [0, 1, 2, 3, 4, 5, 6, 7, 8, 9, 10, 11] := by decide
    have hr' : List.range 13 = [0, 1, 2, 3, 4, 5, 6, 7, 8, 9, 10, 11, 12] := by decide
    rw [hr, hr']
    norm_num only [List.mapM_cons, List.mapM_nil, List.map_cons, List.map_nil]
    simp only [e0, e1, e2, e3, e4, e5, e6, e7, e8, e9, e10, e11, e12, bind, Except.bind, pure, Except.pure]
  refine ⟨_, ht, by simp, ?_, ?_⟩
  · intro i hi
    exact ⟨g i, by simp [hi], hg2 i hi, hg3 i hi⟩
  · intro h' mi' c
    refine ⟨((h' + 1) / 2).toNat, by omega, ?_⟩
    intro j t hj
    have hj13 : j < 13 := by
      by_contra hc
      rw [List.getElem?_eq_none (by simp; omega)] at hj
      cases hj
    have : t = g j := by
      rw [List.getElem?_map, List.getElem?_range hj13] at hj
      exact (Option.some.inj hj).symm
    subst this
    have := C79_interval A y m d _ 0 0 (g j) (hg1 j hj13) h' mi' c
    dsimp only at this
    rw [this]
    split_ifs <;> omega

/-- the day 2024-12-29 (2025-01-28, a 丁酉 day): twelve hours from 庚子 to 辛亥, then 壬子; noon is in 11:00-12:59, 丙午 -/
example : ∃ l ts, Lunar.fromYmdHms Sample.astro 2024 12 29 12 0 0 = .ok l ∧ l.getTimes Sample.astro = .ok ts ∧
    (∃ t, ts[0]? = some t ∧ t.getGanZhi = .ok ['庚', '子']) ∧ (∃ t, ts[12]? = some t ∧ t.getGanZhi = .ok ['壬', '子']) ∧
    ∃ t, l.getTime Sample.astro = .ok t ∧ t.getGanZhi = .ok ['丙', '午'] ∧ t.getMinHm = ['1', '1', ':', '0', '0'] := by
  obtain ⟨l, e, y, d, h, mi, s, q6, q7, -⟩ := Sample.almanac.fromYmdHms_ok (k := 38) (d := 29) (h := 12) (mi := 0) (s := 0) (x := ⟨2025, 1, 28⟩)
    (by decide +kernel) (by decide +kernel) (by decide) (by decide +kernel) (by decide)
    ((isDay_iff (by decide)).mpr (by decide +kernel)) (by decide) (by decide) (by decide)
  have hk : Sample.almanac.key 38 = (2024, 12) := by decide +kernel
  rw [hk] at e y
  have hd : l.getDayInGanZhi = .ok (ganZhi 33) := by
    obtain ⟨-, -, ⟨g, z, -⟩, -⟩ := made_fields q7 (by rw [q6]; decide) (by rw [q6]; decide)
    unfold getDayInGanZhi
    rw [g, z, q6]
    decide +kernel
  have ht : l.getTimeInGanZhi = .ok ['丙', '午'] := by
    obtain ⟨-, -, ⟨-, -, g, -⟩, ⟨tz, tg⟩, -⟩ := made_fields q7 (by rw [q6]; decide) (by rw [q6]; decide)
    unfold getTimeInGanZhi
    rw [tz, tg, g, q6]
    decide +kernel
  obtain ⟨ts, e1, -, e2, -⟩ := C79_times Sample.almanac 2024 12 29 12 0 0 l (by decide) (by decide) e 33 hd
  obtain ⟨t0, a0, b0, -⟩ := e2 0 (by decide)
  obtain ⟨t12, a12, b12, -⟩ := e2 12 (by decide)
  obtain ⟨t, et⟩ := (C79_same Sample.astro 2024 12 29 12 0 0).2 l e
  obtain ⟨el, S⟩ := (C79_same Sample.astro 2024 12 29 12 0 0).1 t et
  rw [e] at el
  cases el
  rw [Prod.mk.injEq] at y
  refine ⟨t.lunar, ts, e, e1, ⟨t0, a0, b0⟩, ⟨t12, a12, b12⟩, t, ?_, by rw [S.ganZhi.1, ht], ?_⟩
  · unfold getTime
    rw [y.1, y.2, d, h, mi, s]
    exact et
  · unfold LunarTime.getMinHm
    rw [h]
    decide

/-- **C79** a double-hour has no nine star: `getNineStar` compares a `Solar` with a text, and raises for every lunar date with a
table of terms, though `Lunar.getTimeNineStar` has a value for the same moment -/
theorem C79_nineStar_violated (t : LunarTime) (h : t.lunar.Proper) :
    t.getNineStar = .error .typeError ∧ ∃ s, t.lunar.getTimeNineStar = .ok s := by
  have T := h.table
  have len := T.len
  have h1 : t.lunar.jieQi[1]? = some t.lunar.jieQi[1] := List.getElem?_eq_getElem (by omega)
  have h2 : t.lunar.jieQi[13]? = some t.lunar.jieQi[13] := List.getElem?_eq_getElem (by omega)
  have h3 : t.lunar.jieQi[25]? = some t.lunar.jieQi[25] := List.getElem?_eq_getElem (by omega)
  constructor
  · unfold LunarTime.getNineStar
    rw [show term t.lunar.jieQi ['冬', '至'] = .ok _ from term_key len (by decide) h1]
    rfl
  · obtain ⟨a, b⟩ := C48_time h _ _ _ h1 h2 h3
    by_cases up : (Solar.DayAtOrBefore t.lunar.jieQi[1] t.lunar.solar ∧ Solar.DayBefore t.lunar.solar t.lunar.jieQi[13]) ∨
        Solar.DayAtOrBefore t.lunar.jieQi[25] t.lunar.solar
    · exact ⟨_, a up⟩
    · exact ⟨_, b up⟩

/-- the sample date has a nine star of the hour, its double-hour raises -/
example : sample.getTimeNineStar = .ok ⟨3⟩ ∧ LunarTime.getNineStar ⟨sample, 0, 2⟩ = .error .typeError := by
  decide +kernel

/-! ## C38: the dates the other theorems speak of -/

/-- **C38** the lunar dates the constructors make are `Proper` (the hypothesis of the theorems on pillars, charts and attributes),
except where the lunar year is ahead of the solar year: in years beginning in December (AD 8-23 and 237-239) -/
theorem C38_proper (H : Almanac A lo hi) (s : Solar) (l : Lunar) (hs : s.Valid) (h1 : lo < s.year) (h2 : s.year < hi)
    (h0 : 0 ≤ lo + 1) (hl : Lunar.fromSolar A s = .ok l) :
    l.Proper ∨ l.year = s.year + 1 := by
  obtain ⟨l', e, f1, f2, f3, -, k, f4, f5, f6, f7⟩ := C38_round_trip H s hs h1 h2
  rw [hl] at e
  cases e
  have h9 := H.year_range (Y := s.year) h1.le h2.le
  have hn := (isDay_iff hs.1).mp f7
  obtain ⟨c1, c2⟩ := H.covers _ h1.le h2.le s.date _ hs.1 rfl ((isDay_iff hs.1).mpr rfl)
  obtain ⟨i, hi', g1, g2⟩ := H.month_of_day c1 c2
  obtain rfl : k = H.start s.year + i := H.month_unique (n := JD.jdn s.date) (by omega) (by omega) g1 g2
  obtain ⟨n1, n2⟩ := H.near _ h1.le h2.le i hi'
  rw [← f4] at n1 n2
  dsimp only at n1 n2
  by_cases c : l.year = s.year + 1
  · exact .inr c
  · left
    exact ⟨f2, by rw [f1]; omega, by rw [f1]; exact f3, by rw [f1]; omega⟩

/-- 2024-02-09 -/
example : ∃ l, Lunar.fromSolar Sample.astro ⟨2024, 2, 9, 23, 30, 0⟩ = .ok l ∧ l.Proper := by
  obtain ⟨l, e, -, -, -, -, k, h1, h2, h3, h4⟩ :=
    C38_round_trip Sample.almanac ⟨2024, 2, 9, 23, 30, 0⟩ (by decide) (by decide) (by decide)
  refine ⟨l, e, ?_⟩
  rw [isDay_iff (by decide)] at h4
  have j : JD.jdn (⟨2024, 2, 9, 23, 30, 0⟩ : Solar).date = 2460350 := by decide
  have m1 : Sample.almanac.first 26 = 2460321 := by decide +kernel
  have m2 : Sample.almanac.first (26 + 1) = 2460351 := by decide +kernel
  have hk : k = 26 := Sample.almanac.month_unique (n := 2460350) (by omega) (by omega) (by omega) (by omega)
  subst hk
  rcases C38_proper Sample.almanac ⟨2024, 2, 9, 23, 30, 0⟩ l (by decide) (by decide) (by decide) (by decide) e with h | h
  · exact h
  · rw [show Sample.almanac.key 26 = (2023, 12) by decide +kernel, Prod.mk.injEq] at h1
    rw [h1.1] at h
    cases h

end
