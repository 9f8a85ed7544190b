import Verif.Proof.Yun
import Verif.Proof.SampleAlmanac
import Verif.Props.LunarDate
import Verif.Props.EightChar

/-! # C50, C51: luck periods -/

section
open Spec LunarUtil Lunar EightChar Solar

variable {e : EightChar}

/-- the double hour of a clock hour as the almanac counts whole double hours from midnight: the last of
the day begins at 21 o'clock and is not left before midnight -/
def doubleHour (h : ℤ) : ℤ := if h ≤ 0 then 0 else if h ≤ 20 then (h + 1) / 2 else 11

private theorem doubleHour_eq {h : ℤ} (h0 : 0 ≤ h) (h1 : h ≤ 23) : min ((h + 1) / 2) 11 = doubleHour h := by
  unfold doubleHour
  split_ifs <;> omega

private theorem jie_valid (h : e.lunar.Proper) {P N : JieQi} (hp : e.lunar.getPrevJie = .ok (some P))
    (hn : e.lunar.getNextJie = .ok (some N)) :
    P.solar.Valid ∧ N.solar.Valid ∧ (0 ≤ P.solar.year ∧ P.solar.year ≤ 9999) ∧ (0 ≤ N.solar.year ∧ N.solar.year ≤ 9999) ∧
      Cal.secNo P.solar ≤ Cal.secNo e.lunar.solar ∧ Cal.secNo e.lunar.solar < Cal.secNo N.solar := by
  have hv := h.made.1
  rcases C45_prev h.table hv h.range .jie with ⟨i, s, -, a2, a3, -, a5⟩ | ⟨-, a⟩
  · have a5' : e.lunar.getPrevJie = _ := a5
    rw [hp] at a5'
    have hs : P.solar = s := congrArg JieQi.solar (Option.some.inj (Except.ok.inj a5'))
    rcases C45_next h.table hv h.range .jie with ⟨j, t, -, b2, b3, -, b5⟩ | ⟨-, b⟩
    · have b5' : e.lunar.getNextJie = _ := b5
      rw [hn] at b5'
      have ht : N.solar = t := congrArg JieQi.solar (Option.some.inj (Except.ok.inj b5'))
      have ms := List.mem_of_getElem? a2
      have mt := List.mem_of_getElem? b2
      rw [hs, ht]
      exact ⟨h.table.valid _ ms, h.table.valid _ mt, h.table.four _ ms, h.table.four _ mt,
        (atOrBefore_iff (h.table.valid _ ms) hv).1 a3, (before_iff hv (h.table.valid _ mt)).1 b3⟩
    · have b' : e.lunar.getNextJie = _ := b
      rw [hn] at b'; cases b'
  · have a' : e.lunar.getPrevJie = _ := a
    rw [hp] at a'; cases a'

/-- the direction: forward for a yang year (even pillar) and a man, or a yin year and a woman -/
private theorem make_eq (h : e.lunar.Proper) (y : ℤ) (hy : e.get .year = .ok (ganZhi y)) (gender sect : ℤ) {P N : JieQi}
    (hp : e.lunar.getPrevJie = .ok (some P)) (hn : e.lunar.getNextJie = .ok (some N)) :
    Yun.make e gender sect = (do
      let (a, m, d, t) ← Yun.span (if (y % 2 = 0 ↔ gender = 1) then e.lunar.solar else P.solar)
        (if (y % 2 = 0 ↔ gender = 1) then N.solar else e.lunar.solar) sect
      return ⟨e.lunar, gender, decide (y % 2 = 0 ↔ gender = 1), a, m, d, t⟩) := by
  have ha := (at_of_get h hy).gan
  have ha' : e.lunar.yearGanIndexExact = y % 10 := ha
  unfold Yun.make
  dsimp only
  rw [hp, hn, ha']
  have par : (y % 10 % 2 = 0) ↔ (y % 2 = 0) := by omega
  by_cases h1 : y % 2 = 0 <;> by_cases h2 : gender = 1 <;>
    simp [par, h1, h2, bind, Except.bind, pure, Except.pure]

/-- **C50** sect 1: three days (36 double hours) are a year, ..., one double hour is ten days; the
remainders are in range, and the direction is forward exactly for yang-man and yin-woman. -/
theorem C50_start (h : e.lunar.Proper) (y : ℤ) (hy : e.get .year = .ok (ganZhi y)) (gender sect : ℤ) (hsect : sect ≠ 2)
    (P N : JieQi) (hp : e.lunar.getPrevJie = .ok (some P)) (hn : e.lunar.getNextJie = .ok (some N)) :
    ∃ u n, Yun.make e gender sect = .ok u ∧ u.lunar = e.lunar ∧ u.gender = gender ∧
      (u.forward = true ↔ (y % 2 = 0 ↔ gender = 1)) ∧
      let a := if u.forward then e.lunar.solar else P.solar
      let b := if u.forward then N.solar else e.lunar.solar
      DaysAfter n a.date b.date ∧
      360 * u.startYear + 30 * u.startMonth + u.startDay = 10 * (12 * n + (doubleHour b.hour - doubleHour a.hour)) ∧
      u.startHour = 0 ∧ 0 ≤ u.startYear ∧ 0 ≤ u.startMonth ∧ u.startMonth < 12 ∧ 0 ≤ u.startDay ∧ u.startDay < 30 := by
  obtain ⟨vp, vn, fp, fn, lp, ln⟩ := jie_valid h hp hn
  have hv := h.made.1
  have c0 := hv.2
  have c1 := vp.2
  have c2 := vn.2
  unfold ClockOk at c0 c1 c2
  rw [make_eq h y hy gender sect hp hn]
  by_cases hf : (y % 2 = 0 ↔ gender = 1)
  · rw [if_pos hf, if_pos hf]
    obtain ⟨a, m, d, es, k1, k⟩ := Yun.span_one hv vn h.range fn ln.le hsect
    rw [es]
    refine ⟨_, Cal.dn N.solar.date - Cal.dn e.lunar.solar.date, rfl, rfl, rfl, by simp, ?_⟩
    simp only [decide_eq_true hf, if_true]
    refine ⟨(Cal.daysAfter_iff hv.1 vn.1 _).2 (by ring), ?_, trivial, k⟩
    rw [← doubleHour_eq (by omega) (by omega), ← doubleHour_eq (by omega) (by omega)]
    exact k1
  · rw [if_neg hf, if_neg hf]
    obtain ⟨a, m, d, es, k1, k⟩ := Yun.span_one vp hv fp h.range lp hsect
    rw [es]
    refine ⟨_, Cal.dn e.lunar.solar.date - Cal.dn P.solar.date, rfl, rfl, rfl, by simp, ?_⟩
    simp only [decide_eq_false hf, Bool.false_eq_true, if_false]
    refine ⟨(Cal.daysAfter_iff vp.1 hv.1 _).2 (by ring), ?_, trivial, k⟩
    rw [← doubleHour_eq (by omega) (by omega), ← doubleHour_eq (by omega) (by omega)]
    exact k1

/-- **C50** sect 2: by minutes, 4320 to a year, 360 to a month, 12 to a day, 1 to two hours. -/
theorem C50_start_minutes (h : e.lunar.Proper) (y : ℤ) (hy : e.get .year = .ok (ganZhi y)) (gender : ℤ)
    (P N : JieQi) (hp : e.lunar.getPrevJie = .ok (some P)) (hn : e.lunar.getNextJie = .ok (some N)) :
    ∃ u n, Yun.make e gender 2 = .ok u ∧ u.lunar = e.lunar ∧ u.gender = gender ∧
      (u.forward = true ↔ (y % 2 = 0 ↔ gender = 1)) ∧
      let a := if u.forward then e.lunar.solar else P.solar
      let b := if u.forward then N.solar else e.lunar.solar
      DaysAfter n a.date b.date ∧
      4320 * u.startYear + 360 * u.startMonth + 12 * u.startDay + u.startHour / 2 =
        1440 * n + (60 * b.hour + b.minute) - (60 * a.hour + a.minute) ∧
      0 ≤ u.startYear ∧ 0 ≤ u.startMonth ∧ u.startMonth < 12 ∧ 0 ≤ u.startDay ∧ u.startDay < 30 ∧
      0 ≤ u.startHour ∧ u.startHour < 24 ∧ u.startHour % 2 = 0 := by
  obtain ⟨vp, vn, fp, fn, lp, ln⟩ := jie_valid h hp hn
  have hv := h.made.1
  rw [make_eq h y hy gender 2 hp hn]
  by_cases hf : (y % 2 = 0 ↔ gender = 1)
  · rw [if_pos hf, if_pos hf]
    obtain ⟨a, m, d, t, es, k1, k⟩ := Yun.span_two hv vn ln.le
    rw [es]
    refine ⟨_, Cal.dn N.solar.date - Cal.dn e.lunar.solar.date, rfl, rfl, rfl, by simp, ?_⟩
    simp only [decide_eq_true hf, if_true]
    exact ⟨(Cal.daysAfter_iff hv.1 vn.1 _).2 (by ring), by rw [k1]; ring, k⟩
  · rw [if_neg hf, if_neg hf]
    obtain ⟨a, m, d, t, es, k1, k⟩ := Yun.span_two vp hv lp
    rw [es]
    refine ⟨_, Cal.dn e.lunar.solar.date - Cal.dn P.solar.date, rfl, rfl, rfl, by simp, ?_⟩
    simp only [decide_eq_false hf, Bool.false_eq_true, if_false]
    exact ⟨(Cal.daysAfter_iff vp.1 hv.1 _).2 (by ring), by rw [k1]; ring, k⟩

/-- **C50** without a preceding and a following Jie in the table the call fails (`None.getSolar()`) only
in the direction that needs the missing one. -/
theorem C50_missing (h : e.lunar.Proper) (y : ℤ) (hy : e.get .year = .ok (ganZhi y)) (gender sect : ℤ) (N : JieQi)
    (hp : e.lunar.getPrevJie = .ok none) (hn : e.lunar.getNextJie = .ok (some N)) (hb : ¬ (y % 2 = 0 ↔ gender = 1)) :
    Yun.make e gender sect = .error .attributeError := by
  have ha' : e.lunar.yearGanIndexExact = y % 10 := (at_of_get h hy).gan
  unfold Yun.make
  dsimp only
  rw [hp, hn, ha']
  have par : (y % 10 % 2 = 0) ↔ (y % 2 = 0) := by omega
  by_cases h1 : y % 2 = 0 <;> by_cases h2 : gender = 1 <;> simp_all [bind, Except.bind, pure, Except.pure]

/-! ## C51 -/

/-- **C51** the start of the first decade exists for every chart (whatever the table). -/
theorem C51_start_solar (u : Yun) (hv : u.lunar.solar.Valid) :
    ∃ a b c s, u.lunar.solar.nextYear u.startYear = .ok a ∧ a.nextMonth u.startMonth = .ok b ∧ b.next u.startDay = .ok c ∧
      u.getStartSolar = .ok s ∧ s.Valid ∧
      SecondsAfter (3600 * u.startHour) c.date c.hour c.minute c.second s.date s.hour s.minute s.second ∧
      DaysAfter u.startDay b.date c.date ∧ 12 * b.year + b.month = 12 * (u.lunar.solar.year + u.startYear) + u.lunar.solar.month + u.startMonth := by
  obtain ⟨a, a1, a2, -, a3, a4, -⟩ := C12_nextYear _ hv u.startYear
  obtain ⟨b, b1, b2, -, b3, -⟩ := C12_nextMonth a a2 u.startMonth
  obtain ⟨c, c1, c2, -, c3⟩ := C01_next_is_iterated_tomorrow b b2 u.startDay
  obtain ⟨s, s1, s2, s3⟩ := C13_nextHour c c2 u.startHour
  refine ⟨a, b, c, s, a1, b1, c1, ?_, s2, s3, c3, ?_⟩
  · unfold Yun.getStartSolar
    simp only [bind, Except.bind]
    rw [a1]; simp only; rw [b1]; simp only; rw [c1]; exact s1
  · rw [b3, a3, a4]

/-- **C51** the list of decades: entry `i` has index `i`; the first (childhood) runs from birth, age 1, to the
year before the start; every later one is ten years; each begins in the year and at the age after the end of
the one before; ages count the birth year as 1. -/
theorem C51_decades (u : Yun) (s : Solar) (hs : u.getStartSolar = .ok s) (n : ℤ) :
    ∃ ds, u.getDaYun n = .ok ds ∧ ds.length = n.toNat ∧ ∀ (i : ℕ) (d : DaYun), ds[i]? = some d →
      d.yun = u ∧ d.index = i ∧ d.startAge = d.startYear - u.lunar.solar.year + 1 ∧ d.endAge = d.endYear - u.lunar.solar.year + 1 ∧
      (i = 0 → d.startYear = u.lunar.solar.year ∧ d.endYear = s.year - 1) ∧
      (0 < i → d.endYear = d.startYear + 9) ∧
      (∀ d', ds[i + 1]? = some d' → d'.startYear = d.endYear + 1 ∧ d'.startAge = d.endAge + 1) := by
  have mk : ∀ i : ℤ, DaYun.make u i = .ok (if i < 1 then ⟨u, i, u.lunar.solar.year, 1, s.year - 1, s.year - u.lunar.solar.year⟩
      else ⟨u, i, s.year + (i - 1) * 10, s.year + (i - 1) * 10 - u.lunar.solar.year + 1, s.year + (i - 1) * 10 + 9,
        s.year + (i - 1) * 10 - u.lunar.solar.year + 1 + 9⟩) := by
    intro i
    unfold DaYun.make
    rw [hs]
    simp only [bind, Except.bind, pure, Except.pure]
    split_ifs <;> rfl
  have hm : ∀ (l : List ℤ) (f : ℤ → DaYun), (∀ i, DaYun.make u i = .ok (f i)) → l.mapM (DaYun.make u) = .ok (l.map f) := by
    intro l f hf
    induction l with
    | nil => rfl
    | cons a l ih => rw [List.mapM_cons, hf, ih]; rfl
  refine ⟨_, hm _ _ mk, by simp [pyRange], ?_⟩
  intro i d hd
  have hget : ∀ (k : ℕ) (x : DaYun), (List.map (fun i : ℤ => if i < 1 then (⟨u, i, u.lunar.solar.year, 1, s.year - 1, s.year - u.lunar.solar.year⟩ : DaYun)
      else ⟨u, i, s.year + (i - 1) * 10, s.year + (i - 1) * 10 - u.lunar.solar.year + 1, s.year + (i - 1) * 10 + 9,
        s.year + (i - 1) * 10 - u.lunar.solar.year + 1 + 9⟩) (pyRange 0 n))[k]? = some x →
      x = if (k : ℤ) < 1 then (⟨u, k, u.lunar.solar.year, 1, s.year - 1, s.year - u.lunar.solar.year⟩ : DaYun)
      else ⟨u, k, s.year + (k - 1) * 10, s.year + (k - 1) * 10 - u.lunar.solar.year + 1, s.year + (k - 1) * 10 + 9,
        s.year + (k - 1) * 10 - u.lunar.solar.year + 1 + 9⟩ := by
    intro k x hx
    unfold pyRange at hx
    rw [List.getElem?_map, List.getElem?_map] at hx
    by_cases hk : k < (n - 0).toNat
    · rw [List.getElem?_range hk] at hx
      simp only [Option.map_some, Option.some.injEq, zero_add] at hx
      exact hx.symm
    · rw [List.getElem?_eq_none (by simpa using hk)] at hx
      cases hx
  have e1 := hget i d hd
  refine ⟨?_, ?_, ?_, ?_, ?_, ?_, ?_⟩
  · rw [e1]; split_ifs <;> rfl
  · rw [e1]; split_ifs <;> rfl
  · rw [e1]; split_ifs <;> simp
  · rw [e1]; split_ifs <;> simp <;> omega
  · rintro rfl; rw [e1, if_pos (by simp)]; exact ⟨rfl, rfl⟩
  · intro h; rw [e1, if_neg (by omega)]
  · intro d' hd'
    have e2 := hget (i + 1) d' hd'
    rw [if_neg (by omega)] at e2
    rw [e1, e2]
    split_ifs with h
    · have : i = 0 := by omega
      subst this
      constructor
      · simp
      · simp
    · constructor
      · push_cast; ring
      · push_cast; ring

/-- **C51** the years and small-luck years of a decade (default length) are exactly its years, with the ages
of the decade. -/
theorem C51_years (u : Yun) (s : Solar) (hs : u.getStartSolar = .ok s) (i : ℤ) (d : DaYun) (hd : DaYun.make u i = .ok d) :
    d.getLiuNian.map LiuNian.year = pyRange d.startYear (d.endYear + 1) ∧
    d.getLiuNian.map LiuNian.age = pyRange d.startAge (d.endAge + 1) ∧
    d.getXiaoYun.map XiaoYun.year = pyRange d.startYear (d.endYear + 1) ∧
    d.getXiaoYun.map XiaoYun.age = pyRange d.startAge (d.endAge + 1) := by
  unfold DaYun.make at hd
  rw [hs] at hd
  simp only [bind, Except.bind, pure, Except.pure] at hd
  have hlen : (if d.index < 1 then d.endYear - d.startYear + 1 else 10) = d.endYear + 1 - d.startYear ∧
      d.endAge + 1 - d.startAge = d.endYear + 1 - d.startYear := by
    split_ifs at hd with h <;> cases hd
    · rw [if_pos h]; constructor
      · ring
      · ring
    · rw [if_neg h]; constructor
      · ring
      · ring
  unfold DaYun.getLiuNian DaYun.getXiaoYun
  dsimp only
  rw [hlen.1]
  unfold pyRange
  rw [hlen.2]
  simp only [List.map_map, sub_zero]
  refine ⟨?_, ?_, ?_, ?_⟩ <;> apply List.map_congr_left <;> intro k _ <;> simp [LiuNian.make, XiaoYun.make]

private theorem jiaZi_get (n : ℤ) : pyIndex JIA_ZI (n % 60) = .ok (ganZhi n) := by
  have key : ∀ i : Fin 60, pyIndex JIA_ZI ((i : ℕ) : ℤ) = .ok (ganZhi ((i : ℕ) : ℤ)) := by decide +kernel
  have := key ⟨(n % 60).toNat, by omega⟩
  simp only [show (((n % 60).toNat : ℕ) : ℤ) = n % 60 by omega] at this
  rw [this, ganZhi_eq_iff.2 (show n % 60 % 60 = n % 60 by omega)]

/-- **C51** the pillar of decade `i`: `i` steps from the month pillar, as long as `m % 60 + i < 120` going
forward and `i ≤ m % 60 + 120` going backward (any decade up to the sixtieth).  Missing: indices beyond. -/
theorem C51_decade_pillar_partial (d : DaYun) (m : ℤ) (hm : d.yun.lunar.getMonthInGanZhiExact = .ok (ganZhi m))
    (h1 : 1 ≤ d.index) (h2 : d.yun.forward = true → m % 60 + d.index < 120) (h3 : d.yun.forward = false → d.index ≤ m % 60 + 120) :
    d.getGanZhi = .ok (ganZhi (m + if d.yun.forward then d.index else -d.index)) := by
  unfold DaYun.getGanZhi
  rw [if_neg (by omega), hm]
  simp only [bind, Except.bind]
  rw [C29_index]
  cases hf : d.yun.forward with
  | true =>
    have := h2 hf
    simp only [if_true]
    rw [← jiaZi_get]
    congr 1
    split_ifs <;> omega
  | false =>
    have := h3 hf
    simp only [Bool.false_eq_true, if_false]
    by_cases hneg : m % 60 + -d.index < -60
    · rw [if_neg (show ¬ m % 60 + -d.index ≥ 60 by omega), if_pos (by omega)]
      rw [← jiaZi_get (m + -d.index)]
      unfold pyIndex
      dsimp only
      have l60 : (JIA_ZI.length : ℤ) = 60 := by decide +kernel
      rw [if_pos (show m % 60 + -d.index + 60 < 0 by omega), l60, if_neg (show ¬ (m + -d.index) % 60 < 0 by omega),
        show m % 60 + -d.index + 60 + 60 = (m + -d.index) % 60 by omega]
    · rw [← jiaZi_get]
      congr 1
      split_ifs <;> omega

/-- **C51** decade 0 has no pillar -/
theorem C51_decade_zero (d : DaYun) (h1 : d.index < 1) : d.getGanZhi = .ok [] := by
  unfold DaYun.getGanZhi
  rw [if_pos h1]; rfl

/-- **C51** is false for later decades: going forward, from index `120 - m % 60` on the call raises
(`getDaYun(n)` accepts any `n`). -/
theorem C51_decade_violated (d : DaYun) (m : ℤ) (hm : d.yun.lunar.getMonthInGanZhiExact = .ok (ganZhi m))
    (hf : d.yun.forward = true) (h2 : 120 ≤ m % 60 + d.index) : d.getGanZhi = .error .indexError := by
  unfold DaYun.getGanZhi
  rw [if_neg (by omega), hm]
  simp only [bind, Except.bind]
  rw [C29_index, hf]
  simp only [if_true]
  rw [if_pos (show m % 60 + d.index ≥ 60 by omega), if_neg (by omega)]
  unfold pyIndex
  dsimp only
  rw [if_neg (show ¬ m % 60 + d.index - 60 < 0 by omega), if_neg (show ¬ m % 60 + d.index - 60 < 0 by omega), List.getElem?_eq_none]
  have l60 : JIA_ZI.length = 60 := by decide +kernel
  omega

/-- **C51** the pillar of a year of a decade is the pillar of that calendar year (year 4 is 甲子), whatever the
decade and the place in it. -/
theorem C51_year_pillar {A : Astro} {lo hi : ℤ} (H : Almanac A lo hi) (s : Solar) (hs : s.Valid) (h1 : lo < s.year)
    (h2 : s.year < hi) (h9 : 0 ≤ s.year ∧ s.year ≤ 9999) (l lx : Lunar) (lc : Solar) (hl : Lunar.fromSolar A s = .ok l)
    (hlc : l.jieQi[4]? = some lc) (hlx : Lunar.fromSolar A lc = .ok lx) (near : lx.year = lc.year ∨ lx.year = lc.year - 1)
    (u : Yun) (hu : u.lunar = l) (i : ℤ) (d : DaYun) (hd : DaYun.make u i = .ok d) (j : ℤ) :
    (LiuNian.make d j).getGanZhi A = .ok (ganZhi ((LiuNian.make d j).year - 4)) := by
  obtain ⟨l', el, es, -, T, -⟩ := C38_round_trip H s hs h1 h2
  rw [hl] at el; cases el
  obtain ⟨l', el, ejq⟩ := H.fromSolar_table hs h1 h2
  rw [hl] at el; cases el
  obtain ⟨s4, e4, m4, y4, t4⟩ := term_liChun T
  rw [hlc] at e4; cases e4
  have vlc := T.valid _ m4
  obtain ⟨l', el, es', made, T', -⟩ := C38_round_trip H lc vlc (by omega) (by omega)
  rw [hlx] at el; cases el
  obtain ⟨l', el, ejq'⟩ := H.fromSolar_table vlc (by omega) (by omega)
  rw [hlx] at el; cases el
  rw [y4, ejq] at ejq'
  have hq : l.jieQi = lx.jieQi := Except.ok.inj ejq'
  have hyear : lx.getYearInGanZhiExact = .ok (ganZhi (lc.year - 4)) := by
    have := (C34_year_pillars lx made (by rw [es']; omega) (by rw [es']; exact T') (by rw [es']; exact near) lc
      (by rw [← hq]; exact hlc)).2.2.2.1
    rw [es'] at this
    exact this ((atOrBefore_iff vlc vlc).2 le_rfl)
  have hdy : d.yun = u ∧ (d.index > 0 → d.startYear = s.year + d.startAge - 1) ∧ (¬ d.index > 0 → d.startYear = s.year) := by
    unfold DaYun.make at hd
    cases hst : u.getStartSolar with
    | error x => rw [hst] at hd; cases hd
    | ok z =>
      rw [hst] at hd
      simp only [bind, Except.bind, pure, Except.pure] at hd
      rw [hu, es] at hd
      split_ifs at hd with h <;> cases hd
      · exact ⟨rfl, fun h' => by simp only at h'; omega, fun _ => rfl⟩
      · exact ⟨rfl, fun h' => by simp only; omega, fun h' => by simp only at h'; omega⟩
  obtain ⟨k1, k2, k3⟩ := hdy
  unfold LiuNian.getGanZhi
  rw [show (LiuNian.make d j).daYun = d from rfl, k1, hu, t4]
  simp only [bind, Except.bind]
  rw [hlx]
  simp only
  rw [hyear]
  simp only
  rw [C29_index, jiaZi_get]
  congr 1
  rw [ganZhi_eq_iff]
  show (if d.index > 0 then (lc.year - 4) % 60 + j + (d.startAge - 1) else (lc.year - 4) % 60 + j) % 60 = (d.startYear + j - 4) % 60
  split_ifs with h
  · rw [k2 h]; omega
  · rw [k3 h]; omega

/-- the loop `while offset < 0` -/
private theorem whileAdd_mod (x : ℤ) : XiaoYun.whileAdd x % 60 = x % 60 := by
  fun_induction XiaoYun.whileAdd x with
  | case1 x h ih => rw [ih]; omega
  | case2 x h => rfl

/-- **C51** the small-luck pillar at age `a` is `a` steps from the hour pillar, in the direction of the chart,
continuously over the borders of the decades. -/
theorem C51_small_pillar (u : Yun) (i : ℤ) (d : DaYun) (hd : DaYun.make u i = .ok d) (t : ℤ)
    (ht : u.lunar.getTimeInGanZhi = .ok (ganZhi t)) (j : ℤ) (f : Bool) :
    (XiaoYun.make d j f).getGanZhi = .ok (ganZhi (t + if f then (XiaoYun.make d j f).age else -(XiaoYun.make d j f).age)) := by
  have hdy : d.yun = u ∧ (¬ d.index > 0 → d.startAge = 1) := by
    unfold DaYun.make at hd
    cases hst : u.getStartSolar with
    | error x => rw [hst] at hd; cases hd
    | ok z =>
      rw [hst] at hd
      simp only [bind, Except.bind, pure, Except.pure] at hd
      split_ifs at hd with h <;> cases hd
      · exact ⟨rfl, fun _ => rfl⟩
      · exact ⟨rfl, fun h' => by simp only at h'; omega⟩
  unfold XiaoYun.getGanZhi
  rw [show (XiaoYun.make d j f).daYun = d from rfl, hdy.1, ht]
  simp only [bind, Except.bind]
  rw [C29_index, whileAdd_mod, jiaZi_get]
  congr 1
  rw [ganZhi_eq_iff]
  show (t % 60 + if f = true then (if d.index > 0 then j + 1 + (d.startAge - 1) else j + 1) else
    -(if d.index > 0 then j + 1 + (d.startAge - 1) else j + 1)) % 60 = (t + if f = true then d.startAge + j else -(d.startAge + j)) % 60
  by_cases hi : d.index > 0
  · rw [if_pos hi]; split_ifs <;> omega
  · rw [if_neg hi, hdy.2 hi]; split_ifs <;> omega

/-- **C51** the months of a year: twelve, 寅 first, by the five tigers (a 甲 or 己 year begins with 丙寅, ...),
that is pillar `12 y + 2 + i` when the year's is `y`. -/
theorem C51_month_pillar (A : Astro) (n : LiuNian) (y : ℤ) (hy : n.getGanZhi A = .ok (ganZhi y)) :
    n.getLiuYue.length = 12 ∧
    ∀ (i : ℕ) (m : LiuYue), n.getLiuYue[i]? = some m → m.index = i ∧ m.getGanZhi A = .ok (ganZhi (12 * y + 2 + i)) := by
  refine ⟨rfl, fun i m hm => ?_⟩
  have hi : i < 12 := (List.getElem?_eq_some_iff.1 hm).1
  have hm' : m = ⟨n, i⟩ := by
    unfold LiuNian.getLiuYue pyRange at hm
    rw [List.getElem?_map, List.getElem?_map, List.getElem?_range (by simpa using hi)] at hm
    simpa using hm.symm
  subst hm'
  refine ⟨rfl, ?_⟩
  unfold LiuYue.getGanZhi
  rw [hy]
  simp only [bind, Except.bind, pure, Except.pure]
  have hst := lift10 (P := fun k c => (if ['甲'] = [c] ∨ ['己'] = [c] then 2
    else if ['乙'] = [c] ∨ ['庚'] = [c] then 4 else if ['丙'] = [c] ∨ ['辛'] = [c] then 6
    else if ['丁'] = [c] ∨ ['壬'] = [c] then 8 else 0) = (2 * k + 2) % 10) (by decide +kernel) y
  rw [show List.take 1 (ganZhi y) = [stem y] from rfl, hst]
  have hg : ((i : ℤ) + (2 * (y % 10) + 2) % 10) % 10 = (12 * y + 2 + i) % 10 := by omega
  have hz : ((i : ℤ) + BASE_MONTH_ZHI_INDEX) % 12 = (12 * y + 2 + i) % 12 := by
    rw [show BASE_MONTH_ZHI_INDEX = 2 from rfl]; omega
  rw [hg, hz, gan_index (by omega) (by omega), zhi_index (by omega) (by omega), stem_emod, branch_emod]
  rfl

/-! ## the sample chart: 2024-02-04 23:30, 甲辰 丙寅 戊戌 甲子, between 立春 (2024-02-04) and 惊蛰 (2024-03-05) -/

private theorem sample_prev : (fromLunar sample).lunar.getPrevJie = .ok (some ⟨['立', '春'], true, false, ⟨2024, 2, 4, 16, 26, 53⟩⟩) := by
  decide +kernel

private theorem sample_next : (fromLunar sample).lunar.getNextJie = .ok (some ⟨['惊', '蛰'], true, false, ⟨2024, 3, 5, 10, 22, 31⟩⟩) := by
  decide +kernel

private theorem sample_year : (fromLunar sample).get .year = .ok (ganZhi 40) := by decide +kernel

private theorem days_sample : Cal.dn (⟨2024, 3, 5⟩ : Date) - Cal.dn (⟨2024, 2, 4⟩ : Date) = 30 := by decide

/-- a man (forward): 30 days minus 13:08 are 42412 minutes, 9 years, 9 months, 24 days and 8 hours -/
example : ∃ u, Yun.make (fromLunar sample) 1 2 = .ok u ∧ u.forward = true ∧
    (u.startYear, u.startMonth, u.startDay, u.startHour) = (9, 9, 24, 8) := by
  obtain ⟨u, n, h, -, -, hf, hd, he, h1, h2, h3, h4, h5, h6, h7, h8⟩ :=
    C50_start_minutes (e := fromLunar sample) sample_proper 40 sample_year 1 _ _ sample_prev sample_next
  have f := hf.2 (by decide)
  rw [f, if_pos rfl, if_pos rfl] at hd he
  rw [Cal.daysAfter_iff (by decide) (by decide)] at hd
  have q : Cal.dn (⟨2024, 3, 5, 10, 22, 31⟩ : Solar).date = Cal.dn (fromLunar sample).lunar.solar.date + 30 := by decide
  have c1 : (fromLunar sample).lunar.solar.hour = 23 := rfl
  have c2 : (fromLunar sample).lunar.solar.minute = 30 := rfl
  rw [c1, c2] at he
  simp only at he hd
  refine ⟨u, h, f, ?_⟩
  have : n = 30 := by omega
  subst this
  have a1 : u.startYear = 9 := by omega
  have a2 : u.startMonth = 9 := by omega
  have a3 : u.startDay = 24 := by omega
  have a4 : u.startHour = 8 := by omega
  rw [a1, a2, a3, a4]

/-- that man's luck, as an object -/
def sampleYun : Yun := ⟨sample, 1, true, 9, 9, 24, 8⟩

/-- it begins on 2033-11-29 -/
private theorem sampleYun_start : sampleYun.getStartSolar = .ok ⟨2033, 11, 29, 7, 30, 0⟩ := by
  obtain ⟨a, b, c, s, h1, h2, h3, h4, h5, h6, h7, h8⟩ := C51_start_solar sampleYun (by decide)
  have ea : sampleYun.lunar.solar.nextYear 9 = .ok ⟨2033, 2, 4, 23, 30, 0⟩ := by decide +kernel
  have h1' : sampleYun.lunar.solar.nextYear 9 = .ok a := h1
  rw [ea] at h1'; cases h1'
  have eb : (⟨2033, 2, 4, 23, 30, 0⟩ : Solar).nextMonth 9 = .ok ⟨2033, 11, 4, 23, 30, 0⟩ := by decide +kernel
  have h2' : (⟨2033, 2, 4, 23, 30, 0⟩ : Solar).nextMonth 9 = .ok b := h2
  rw [eb] at h2'; cases h2'
  have ec : (⟨2033, 11, 4, 23, 30, 0⟩ : Solar).next 24 = .ok ⟨2033, 11, 28, 23, 30, 0⟩ :=
    Cal.next_eq (by decide) (by decide) _ (by decide) (by decide)
  have h3' : (⟨2033, 11, 4, 23, 30, 0⟩ : Solar).next 24 = .ok c := h3
  rw [ec] at h3'; cases h3'
  rw [h4]
  congr 1
  have q := (Cal.secondsAfter_iff (s := ⟨2033, 11, 28, 23, 30, 0⟩) (by decide) h5 _).1 h6
  refine Cal.secNo_inj h5 (by decide) ?_
  rw [q]; decide

example : ∃ ds, sampleYun.getDaYun 3 = .ok ds ∧
    ds.map (fun d => (d.startYear, d.endYear, d.startAge, d.endAge)) = [(2024, 2032, 1, 9), (2033, 2042, 10, 19), (2043, 2052, 20, 29)] := by
  obtain ⟨ds, h, hl, hd⟩ := C51_decades sampleYun _ sampleYun_start 3
  refine ⟨ds, h, ?_⟩
  obtain ⟨a, b, c, rfl⟩ := List.length_eq_three.1 hl
  obtain ⟨-, -, a1, a2, a3, -, a4⟩ := hd 0 a rfl
  obtain ⟨-, -, b1, b2, -, b3, b4⟩ := hd 1 b rfl
  obtain ⟨-, -, c1, c2, -, c3, -⟩ := hd 2 c rfl
  have hy : sampleYun.lunar.solar.year = 2024 := rfl
  rw [hy] at a1 a2 a3 b1 b2 c1 c2
  have a4 := a4 b rfl
  have b4 := b4 c rfl
  have a3 := a3 rfl
  have b3 := b3 (by decide)
  have c3 := c3 (by decide)
  simp only [List.map_cons, List.map_nil, List.cons.injEq, Prod.mk.injEq, and_true]
  simp only at a3
  omega

/-- first decade: one step from 丙寅; the 119th decade and all later ones raise -/
example : (⟨sampleYun, 1, 2033, 10, 2042, 19⟩ : DaYun).getGanZhi = .ok ['丁', '卯'] ∧
    (⟨sampleYun, 118, 3203, 1180, 3212, 1189⟩ : DaYun).getGanZhi = .error .indexError := by decide +kernel

/-- 2033 and the first month of it; the small luck at age 10 is ten steps from 甲子 -/
example : (XiaoYun.make ⟨sampleYun, 1, 2033, 10, 2042, 19⟩ 0 true).getGanZhi = .ok ['甲', '戌'] := by
  obtain ⟨d, hd⟩ : ∃ d, DaYun.make sampleYun 1 = .ok d := by unfold DaYun.make; rw [sampleYun_start]; exact ⟨_, rfl⟩
  have e : DaYun.make sampleYun 1 = .ok ⟨sampleYun, 1, 2033, 10, 2042, 19⟩ := by
    unfold DaYun.make; rw [sampleYun_start]; rfl
  rw [C51_small_pillar sampleYun 1 _ e 0 (by decide +kernel)]
  decide +kernel

/-- 2024-02-09 23:30, the sample almanac: 立春 is on the 25th of the 12th month of 2023, and the years of the
decades have the pillars of the calendar (2033 is 癸丑, and so on) -/
example : ∃ l, Lunar.fromSolar Sample.astro ⟨2024, 2, 9, 23, 30, 0⟩ = .ok l ∧
    ∀ (u : Yun), u.lunar = l → ∀ (i : ℤ) (d : DaYun), DaYun.make u i = .ok d → d.startYear = 2033 →
      (LiuNian.make d 0).getGanZhi Sample.astro = .ok ['癸', '丑'] := by
  obtain ⟨l, el, -, -, T, -⟩ := C38_round_trip Sample.almanac ⟨2024, 2, 9, 23, 30, 0⟩ (by decide) (by decide) (by decide)
  obtain ⟨l', el', ejq⟩ := Sample.almanac.fromSolar_table (s := ⟨2024, 2, 9, 23, 30, 0⟩) (by decide) (by decide) (by decide)
  rw [el] at el'; cases el'
  have h4 : l.jieQi[4]? = some ⟨2024, 2, 4, 15, 30, 0⟩ := by
    have : (match Lunar.computeJieQi (LunarYear.make Sample.astro 2024).jieQiJulianDays with
      | .ok jq => jq[4]?
      | .error _ => none) = some ⟨2024, 2, 4, 15, 30, 0⟩ := by decide +kernel
    rw [ejq] at this
    exact this
  obtain ⟨lx, ex, -, -, -, -, k, h1, h2, h3, h5⟩ :=
    C38_round_trip Sample.almanac ⟨2024, 2, 4, 15, 30, 0⟩ (by decide) (by decide) (by decide)
  rw [isDay_iff (by decide)] at h5
  have j : JD.jdn (⟨2024, 2, 4, 15, 30, 0⟩ : Solar).date = 2460345 := by decide
  have m1 : Sample.almanac.first 26 = 2460321 := by decide +kernel
  have m2 : Sample.almanac.first (26 + 1) = 2460351 := by decide +kernel
  have hk : k = 26 := Sample.almanac.month_unique (n := 2460345) (by omega) (by omega) (by omega) (by omega)
  subst hk
  have hy : (lx.year, lx.month) = (2023, 12) := by rw [h1]; decide +kernel
  have hy' : lx.year = 2023 := congrArg Prod.fst hy
  refine ⟨l, el, fun u hu i d hd hs => ?_⟩
  rw [C51_year_pillar Sample.almanac _ (by decide) (by decide) (by decide) (by decide) l lx _ el h4 ex (by right; rw [hy']; rfl) u hu i d hd 0]
  show Except.ok (ganZhi (d.startYear + 0 - 4)) = _
  rw [hs]
  decide +kernel

end
