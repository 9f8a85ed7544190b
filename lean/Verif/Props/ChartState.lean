import Verif.Proof.EightChar
import Verif.Model.ChartState
import Verif.Props.Constancy

/-! # C116: the eight characters say all of a chart; the two conventions of the day -/

section
open Spec ShouXing Lunar LunarUtil EightChar

variable {M : Libm}

/-- two charts give the same answers -/
structure SameChart (e e' : EightChar) : Prop where
  pillar : ∀ p, e.get p = e'.get p
  gan : ∀ p, e.getGan p = e'.getGan p
  zhi : ∀ p, e.getZhi p = e'.getZhi p
  hideGan : ∀ p, e.getHideGan p = e'.getHideGan p
  wuXing : ∀ p, e.getWuXing p = e'.getWuXing p
  naYin : ∀ p, e.getNaYin p = e'.getNaYin p
  shiShenGan : ∀ p, e.getShiShenGan p = e'.getShiShenGan p
  shiShenZhi : ∀ p, e.getShiShenZhi p = e'.getShiShenZhi p
  diShi : ∀ p, e.getDiShi p = e'.getDiShi p
  xun : ∀ p, e.getXun p = e'.getXun p
  xunKong : ∀ p, e.getXunKong p = e'.getXunKong p
  taiYuan : e.getTaiYuan = e'.getTaiYuan
  taiXi : e.getTaiXi = e'.getTaiXi
  mingGong : e.getMingGong = e'.getMingGong
  shenGong : e.getShenGong = e'.getShenGong

/-- **C116** charts with the same text, of whatever moments and conventions, give the same answers. -/
theorem C116_eight (e e' : EightChar) (h : e.lunar.Proper) (h' : e'.lunar.Proper) (ht : e.toString = e'.toString) : SameChart e e' := by
  have all : ∀ p, e.get p = e'.get p := by
    obtain ⟨y, hy⟩ := exists_at h .year
    obtain ⟨m, hm⟩ := exists_at h .month
    obtain ⟨d, hd⟩ := exists_at h .day
    obtain ⟨t, ht1⟩ := exists_at h .time
    obtain ⟨y', hy'⟩ := exists_at h' .year
    obtain ⟨m', hm'⟩ := exists_at h' .month
    obtain ⟨d', hd'⟩ := exists_at h' .day
    obtain ⟨t', ht'⟩ := exists_at h' .time
    unfold EightChar.toString at ht
    rw [hy.get, hm.get, hd.get, ht1.get, hy'.get, hm'.get, hd'.get, ht'.get] at ht
    simp only [bind, Except.bind, pure, Except.pure, Except.ok.injEq, ganZhi, List.cons_append, List.nil_append, List.cons.injEq, true_and, and_true] at ht
    intro p
    cases p
    · rw [hy.get, hy'.get]; simp [ganZhi, ht]
    · rw [hm.get, hm'.get]; simp [ganZhi, ht]
    · rw [hd.get, hd'.get]; simp [ganZhi, ht]
    · rw [ht1.get, ht'.get]; simp [ganZhi, ht]
  have num : ∀ p, e.ganIndex p = e'.ganIndex p ∧ e.zhiIndex p = e'.zhiIndex p := by
    intro p
    obtain ⟨n, hn⟩ := exists_at h p
    obtain ⟨n', hn'⟩ := exists_at h' p
    have := all p
    rw [hn.get, hn'.get] at this
    have := ganZhi_eq_iff.1 (Except.ok.inj this)
    rw [hn.gan, hn.zhi, hn'.gan, hn'.zhi]
    omega
  have gan : ∀ p, e.getGan p = e'.getGan p := fun p => by unfold EightChar.getGan; rw [(num p).1]
  have zhi : ∀ p, e.getZhi p = e'.getZhi p := fun p => by unfold EightChar.getZhi; rw [(num p).2]
  have dg : e.getDayGanIndex = e'.getDayGanIndex := (num .day).1
  have dz : e.getDayZhiIndex = e'.getDayZhiIndex := (num .day).2
  have mg : e.lunar.monthGanIndexExact = e'.lunar.monthGanIndexExact := (num .month).1
  have mz : e.lunar.monthZhiIndexExact = e'.lunar.monthZhiIndexExact := (num .month).2
  have yg : e.lunar.yearGanIndexExact = e'.lunar.yearGanIndexExact := (num .year).1
  exact {
    pillar := all, gan := gan, zhi := zhi
    hideGan := fun p => by unfold getHideGan; rw [zhi]
    wuXing := fun p => by unfold getWuXing; rw [gan, zhi]
    naYin := fun p => by unfold getNaYin; rw [all]
    shiShenGan := fun p => by cases p <;> unfold getShiShenGan <;> simp only [gan]
    shiShenZhi := fun p => by unfold getShiShenZhi; simp only [gan, zhi]
    diShi := fun p => by unfold getDiShi; rw [gan, dg, (num p).2]
    xun := fun p => by unfold EightChar.getXun; rw [all]
    xunKong := fun p => by unfold EightChar.getXunKong; rw [all]
    taiYuan := by unfold getTaiYuan; rw [mg, mz]
    taiXi := by unfold getTaiXi; rw [dg, dz]
    mingGong := by unfold getMingGong; rw [zhi, zhi, yg]
    shenGong := by unfold getShenGong; rw [zhi, zhi, yg] }

private theorem texts {e e' : EightChar} (h : ∀ p, e.get p = e'.get p) : e.toString = e'.toString := by unfold EightChar.toString; rw [h, h, h, h]

/-- **C116** before 23:00 the convention makes no difference ... -/
theorem C116_before_23 (l : Lunar) (h : l.Proper) (hh : l.solar.hour ≠ 23) (a b : ℤ) : SameChart ⟨a, l⟩ ⟨b, l⟩ := by
  refine C116_eight _ _ h h (texts fun p => ?_)
  obtain ⟨-, -, ⟨-, -, d3, d4, d5, d6⟩, -⟩ := made_fields h.made (by have := h.range; omega) h.range.2
  rw [if_neg hh, add_zero] at d3 d4
  cases p <;> simp only [EightChar.get, getDayInGanZhiExact, getDayInGanZhiExact2, d3, d4, d5, d6, ite_self]

/-- ... from 23:00 on, the day is the next one unless the convention is 2. -/
theorem C116_from_23 (l : Lunar) (h : l.Proper) (hh : l.solar.hour = 23) (n : ℤ) (hn : IsDay n l.solar.date) (a : ℤ) :
    EightChar.get ⟨a, l⟩ .day = .ok (ganZhi (n - 11 + if a = 2 then 0 else 1)) := by
  obtain ⟨-, -, ⟨-, -, d3, d4, d5, d6⟩, -⟩ := made_fields h.made (by have := h.range; omega) h.range.2
  rw [isDay_iff h.made.1.1] at hn
  rw [← hn, if_pos hh] at d3 d4
  rw [← hn] at d5 d6
  have p : ∀ k : ℤ, pair (k % 10) (k % 12) = .ok (ganZhi k) := by
    intro k
    unfold pair
    rw [gan_index (by omega) (by omega), zhi_index (by omega) (by omega)]
    simp only [bind, Except.bind, pure, Except.pure, List.cons_append, List.nil_append, ganZhi, stem, branch]
    rw [show k % 10 % 10 = k % 10 by omega, show k % 12 % 12 = k % 12 by omega]
  by_cases c : a = 2
  · simp only [EightChar.get, getDayInGanZhiExact2, d5, d6, c, if_true, p, add_zero]
  · simp only [EightChar.get, getDayInGanZhiExact, d3, d4, c, Ne.symm c, if_false, p]

/-- **C116** with a convention other than 2, a chart does not change within a double-hour, also at midnight, unless a Jie is passed. -/
theorem C116_double_hour (hM : M.Good) {s s' : Solar} (hs : s.Valid) (hs' : s'.Valid) (h1 : 1584 < s.year) (h2 : s.year < 6890)
    (h1' : 1584 < s'.year) (h2' : s'.year < 6890) {l l' : Lunar} (hl : Lunar.fromSolar (astro M) s = .ok l)
    (hl' : Lunar.fromSolar (astro M) s' = .ok l') (h : OneDoubleHour s s') (hy : l.getYearInGanZhiExact = l'.getYearInGanZhiExact)
    (hm : l.getMonthInGanZhiExact = l'.getMonthInGanZhiExact) (a : ℤ) (ha : a ≠ 2) : SameChart ⟨a, l⟩ ⟨a, l'⟩ := by
  obtain ⟨f1, P, -, -, -⟩ := Ephem.made hM hs h1 h2 hl
  obtain ⟨f1', P', -, -, -⟩ := Ephem.made hM hs' h1' h2' hl'
  have c := (C115_double_hour hM hs hs' h1 h2 h1' h2' hl hl' h).1
  have ti : l.getTimeInGanZhi = l'.getTimeInGanZhi := by
    simp only [hourAnswers, List.cons.injEq] at c
    exact c.2.2.1
  have da : l.getDayInGanZhiExact = l'.getDayInGanZhiExact := by
    obtain ⟨-, -, ⟨-, -, g1, g4, -⟩, -⟩ := made_fields P.made (by have := P.range; omega) P.range.2
    obtain ⟨-, -, ⟨-, -, g1', g4', -⟩, -⟩ := made_fields P'.made (by have := P'.range; omega) P'.range.2
    obtain ⟨n, n', hn, hn', e⟩ := h
    rw [isDay_iff hs.1] at hn
    rw [isDay_iff hs'.1] at hn'
    rw [f1, ← hn] at g1 g4
    rw [f1', ← hn'] at g1' g4'
    have a := hs.2.1
    have b := hs.2.2.1
    have a' := hs'.2.1
    have b' := hs'.2.2.1
    have k1 : (n - 11 + if s.hour = 23 then 1 else 0) = (n' - 11 + if s'.hour = 23 then 1 else 0) := by split_ifs <;> omega
    simp only [getDayInGanZhiExact, g1, g4, g1', g4', k1]
  refine C116_eight _ _ P P' (texts fun p => ?_)
  cases p <;> simp only [EightChar.get, Ne.symm ha, if_false, hy, hm, da, ti]

/-! ## the chart that a `Lunar` keeps -/

/-- the convention set last in a list of calls on the chart number `i`, `k` if none was -/
def lastSect (i : ℕ) (k : ℤ) : List ChartHeap.Call → ℤ
  | [] => k
  | .setSect j k' :: cs => lastSect i (if j = i then k' else k) cs
  | _ :: cs => lastSect i k cs

private theorem getEightChar_sects (h : ChartHeap) {i : ℕ} (hi : i < h.sects.length) :
    i < h.getEightChar.1.sects.length ∧ h.getEightChar.1.sects.getD i 2 = h.sects.getD i 2 := by
  unfold ChartHeap.getEightChar ChartHeap.fromLunar
  cases h.kept with
  | some j => exact ⟨hi, rfl⟩
  | none => exact ⟨by simp; omega, by simp [List.getD, List.getElem?_append_left hi]⟩

private theorem run_sects (cs : List ChartHeap.Call) : ∀ (h : ChartHeap) {i : ℕ} (_ : i < h.sects.length),
    i < (h.run cs).sects.length ∧ (h.run cs).sects.getD i 2 = lastSect i (h.sects.getD i 2) cs := by
  induction cs with
  | nil => exact fun h i hi => ⟨hi, rfl⟩
  | cons c cs ih =>
    intro h i hi
    change i < ((h.call c).run cs).sects.length ∧ ((h.call c).run cs).sects.getD i 2 = _
    cases c with
    | fromLunar =>
      have e : (h.call .fromLunar).sects.getD i 2 = h.sects.getD i 2 := by
        simp [ChartHeap.call, ChartHeap.fromLunar, List.getD, List.getElem?_append_left hi]
      have := ih (h.call .fromLunar) (i := i) (by simp [ChartHeap.call, ChartHeap.fromLunar]; omega)
      rw [e] at this
      exact this
    | getEightChar =>
      obtain ⟨a, b⟩ := getEightChar_sects h hi
      have := ih (h.call .getEightChar) a
      rw [show (h.call .getEightChar).sects.getD i 2 = h.sects.getD i 2 from b] at this
      exact this
    | getBaZi =>
      obtain ⟨a, b⟩ := getEightChar_sects h hi
      have := ih (h.call .getBaZi) a
      rw [show (h.call .getBaZi).sects.getD i 2 = h.sects.getD i 2 from b] at this
      exact this
    | setSect j k =>
      have e : (h.call (.setSect j k)).sects.getD i 2 = if j = i then k else h.sects.getD i 2 := by
        simp only [ChartHeap.call, ChartHeap.setSect, List.getD, List.getElem?_set]
        split_ifs <;> simp_all
      have := ih (h.call (.setSect j k)) (i := i) (by simpa [ChartHeap.call, ChartHeap.setSect] using hi)
      rw [e] at this
      exact this

private theorem run_kept (cs : List ChartHeap.Call) : ∀ (h : ChartHeap) {i : ℕ} (_ : h.kept = some i), (h.run cs).kept = some i := by
  induction cs with
  | nil => exact fun h i hi => hi
  | cons c cs ih =>
    intro h i hi
    refine ih (h.call c) ?_
    cases c <;> simp [ChartHeap.call, ChartHeap.fromLunar, ChartHeap.getEightChar, ChartHeap.setSect, hi]

/-- what `getEightChar` of an unread `Lunar` hands out -/
private theorem first (h : ChartHeap) (hk : h.kept = none) : h.getEightChar.2 < h.getEightChar.1.sects.length ∧
    h.getEightChar.1.sects.getD h.getEightChar.2 2 = 2 ∧ h.getEightChar.1.kept = some h.getEightChar.2 := by
  unfold ChartHeap.getEightChar ChartHeap.fromLunar
  rw [hk]
  simp [List.getD]

private theorem unread (cs : List ChartHeap.Call) : ∀ (h : ChartHeap) (_ : h.kept = none) (_ : ∀ c ∈ cs, c ≠ .getEightChar ∧ c ≠ .getBaZi),
    (h.run cs).kept = none := by
  induction cs with
  | nil => exact fun h hk _ => hk
  | cons c cs ih =>
    intro h hk hc
    refine ih (h.call c) ?_ fun c' m => hc c' (List.mem_cons_of_mem _ m)
    have := hc c List.mem_cons_self
    cases c <;> simp_all [ChartHeap.call, ChartHeap.fromLunar, ChartHeap.setSect]

/-- **C116** whatever a program did, `getEightChar` gives the one chart that it gave first, with the convention set last on that chart (2 if none was),
and the pillars and gods of `Lunar` are those of that chart; charts made by `fromLunar` have no part in it. -/
theorem C116_kept (l : Lunar) (cs cs' : List ChartHeap.Call) (hcs : ∀ c ∈ cs, c ≠ .getEightChar ∧ c ≠ .getBaZi) :
    let h := ChartHeap.run {} cs
    let i := h.getEightChar.2
    let h' := h.getEightChar.1.run cs'
    let e : EightChar := ⟨lastSect i 2 cs', l⟩
    h'.getEightChar.2 = i ∧ h'.chart l i = e ∧
      (h'.getBaZi l).2 = (do return [← e.get .year, ← e.get .month, ← e.get .day, ← e.get .time]) ∧
      ∀ p, (h'.getBaZiShiShenOfZhi l p).2 = e.getShiShenZhi p := by
  intro h i h' e
  obtain ⟨a, b, c⟩ := first h (unread cs {} rfl hcs)
  have k : h'.kept = some i := run_kept cs' _ c
  have s := (run_sects cs' h.getEightChar.1 a).2
  rw [b] at s
  have g : h'.getEightChar = (h', i) := by unfold ChartHeap.getEightChar; rw [k]
  have ch : h'.chart l i = e := by unfold ChartHeap.chart; rw [show h'.sects.getD i 2 = lastSect i 2 cs' from s]
  refine ⟨by rw [g], ch, ?_, fun p => ?_⟩
  · unfold ChartHeap.getBaZi; rw [g]; simp only [ch]
  · unfold ChartHeap.getBaZiShiShenOfZhi; rw [g]; simp only [ch]

/-- **C116** a chart made by `fromLunar` begins with the convention 2 and has the one set last on it. -/
theorem C116_made (l : Lunar) (h : ChartHeap) (cs : List ChartHeap.Call) :
    (h.fromLunar.1.run cs).chart l h.fromLunar.2 = ⟨lastSect h.fromLunar.2 2 cs, l⟩ := by
  have := (run_sects cs h.fromLunar.1 (i := h.fromLunar.2) (by simp [ChartHeap.fromLunar])).2
  unfold ChartHeap.chart
  rw [this]
  simp [ChartHeap.fromLunar, List.getD]

/-- a chart made apart, the chart of the `Lunar`, and `setSect` of both: the chart of the `Lunar` has the 1 that was set on it -/
example (l : Lunar) : ((ChartHeap.run {} [.fromLunar]).getEightChar.1.run [.setSect 1 1, .getBaZi, .setSect 0 3]).chart l 1 = ⟨1, l⟩ :=
  (C116_kept l [.fromLunar] [.setSect 1 1, .getBaZi, .setSect 0 3] (by simp)).2.1

/-- 22:30 -/
example (hM : M.Good) {l : Lunar} (hl : Lunar.fromSolar (astro M) ⟨2024, 2, 10, 22, 30, 0⟩ = .ok l) : SameChart ⟨1, l⟩ ⟨2, l⟩ := by
  obtain ⟨f, P, -⟩ := Ephem.made hM (s := ⟨2024, 2, 10, 22, 30, 0⟩) (by decide) (by decide) (by decide) hl
  exact C116_before_23 l P (by rw [f]; decide) 1 2

/-- 2024-02-10 was a day 甲辰; 23:30 with the convention 1 is of 乙巳 -/
example (hM : M.Good) {l : Lunar} (hl : Lunar.fromSolar (astro M) ⟨2024, 2, 10, 23, 30, 0⟩ = .ok l) :
    EightChar.get ⟨1, l⟩ .day = .ok (ganZhi 41) ∧ EightChar.get ⟨2, l⟩ .day = .ok (ganZhi 40) := by
  obtain ⟨f, P, -⟩ := Ephem.made hM (s := ⟨2024, 2, 10, 23, 30, 0⟩) (by decide) (by decide) (by decide) hl
  have hn : IsDay 2460351 l.solar.date := by rw [f]; exact (isDay_iff (by decide)).2 (by decide)
  have := C116_from_23 l P (by rw [f]) _ hn
  exact ⟨(this 1).trans (congrArg _ (by decide)), (this 2).trans (congrArg _ (by decide))⟩

/-- 23:30 and 0:30 -/
example (hM : M.Good) {l l' : Lunar} (hl : Lunar.fromSolar (astro M) ⟨2024, 2, 10, 23, 30, 0⟩ = .ok l)
    (hl' : Lunar.fromSolar (astro M) ⟨2024, 2, 11, 0, 30, 0⟩ = .ok l') (hy : l.getYearInGanZhiExact = l'.getYearInGanZhiExact)
    (hm : l.getMonthInGanZhiExact = l'.getMonthInGanZhiExact) : SameChart ⟨1, l⟩ ⟨1, l'⟩ :=
  C116_double_hour hM (s := ⟨2024, 2, 10, 23, 30, 0⟩) (s' := ⟨2024, 2, 11, 0, 30, 0⟩) (by decide) (by decide) (by decide) (by decide) (by decide) (by decide)
    hl hl' ⟨2460351, 2460352, (isDay_iff (by decide)).2 (by decide), (isDay_iff (by decide)).2 (by decide), by decide⟩ hy hm 1 (by decide)

end
