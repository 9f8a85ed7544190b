import Verif.Model.Lunar
import Verif.Spec.GanZhi
import Verif.Proof.Str
import Verif.Proof.SolarParts
import Mathlib.Tactic.IntervalCases

/-! # Pillars of a `Lunar`: helpers -/

namespace Solar
open Spec

/-- moment `a` is not after moment `b` -/
def AtOrBefore (a b : Solar) : Prop :=
  ∃ n : ℤ, 0 ≤ n ∧ SecondsAfter n a.date a.hour a.minute a.second b.date b.hour b.minute b.second

/-- moment `a` is before moment `b` -/
def Before (a b : Solar) : Prop :=
  ∃ n : ℤ, 0 < n ∧ SecondsAfter n a.date a.hour a.minute a.second b.date b.hour b.minute b.second

/-- the day of `a` is not after the day of `b` -/
def DayAtOrBefore (a b : Solar) : Prop := ∃ n : ℤ, 0 ≤ n ∧ DaysAfter n a.date b.date

/-- the day of `a` is before the day of `b` -/
def DayBefore (a b : Solar) : Prop := ∃ n : ℤ, 0 < n ∧ DaysAfter n a.date b.date

theorem atOrBefore_iff {a b : Solar} (ha : a.Valid) (hb : b.Valid) :
    AtOrBefore a b ↔ Cal.secNo a ≤ Cal.secNo b := by
  unfold AtOrBefore
  constructor
  · rintro ⟨n, h0, h⟩
    have := (Cal.secondsAfter_iff ha hb n).1 h
    omega
  · intro h
    exact ⟨Cal.secNo b - Cal.secNo a, by omega, (Cal.secondsAfter_iff ha hb _).2 (by omega)⟩

theorem before_iff {a b : Solar} (ha : a.Valid) (hb : b.Valid) :
    Before a b ↔ Cal.secNo a < Cal.secNo b := by
  unfold Before
  constructor
  · rintro ⟨n, h0, h⟩
    have := (Cal.secondsAfter_iff ha hb n).1 h
    omega
  · intro h
    exact ⟨Cal.secNo b - Cal.secNo a, by omega, (Cal.secondsAfter_iff ha hb _).2 (by omega)⟩

theorem dayAtOrBefore_iff {a b : Solar} (ha : a.Valid) (hb : b.Valid) :
    DayAtOrBefore a b ↔ Cal.dn a.date ≤ Cal.dn b.date := by
  unfold DayAtOrBefore
  constructor
  · rintro ⟨n, h0, h⟩
    have := (Cal.daysAfter_iff ha.1 hb.1 n).1 h
    omega
  · intro h
    exact ⟨Cal.dn b.date - Cal.dn a.date, by omega, (Cal.daysAfter_iff ha.1 hb.1 _).2 (by omega)⟩

theorem dayBefore_iff {a b : Solar} (ha : a.Valid) (hb : b.Valid) :
    DayBefore a b ↔ Cal.dn a.date < Cal.dn b.date := by
  unfold DayBefore
  constructor
  · rintro ⟨n, h0, h⟩
    have := (Cal.daysAfter_iff ha.1 hb.1 n).1 h
    omega
  · intro h
    exact ⟨Cal.dn b.date - Cal.dn a.date, by omega, (Cal.daysAfter_iff ha.1 hb.1 _).2 (by omega)⟩

end Solar

namespace Lunar
open Spec LunarUtil Solar

/-- what the constructor leaves behind: the fields are those `__compute` derives from the solar
moment and the table of terms, the clock is that of the solar moment (`lunar_python/Lunar.py` 24-37) -/
def Made (l : Lunar) : Prop :=
  l.solar.Valid ∧
  compute l.year l.month l.day l.solar.hour l.solar.minute l.solar.second l.solar l.jieQi = .ok l

/-- a table of 31 solar terms for solar year `Y`: existing moments of four-digit years in
chronological order, the fifth (Li Chun) in year `Y` -/
structure TermTable (Y : ℤ) (jq : List Solar) : Prop where
  len : jq.length = 31
  valid : ∀ s ∈ jq, s.Valid
  four : ∀ s ∈ jq, 0 ≤ s.year ∧ s.year ≤ 9999
  chron : jq.Pairwise Before
  liChun : ∀ s, jq[4]? = some s → s.year = Y

/-! ### tables of characters -/

theorem gan_index {g : ℤ} (h0 : 0 ≤ g) (h1 : g < 10) : pyIndex GAN (g + 1) = .ok [stem g] := by
  interval_cases g <;> rfl

theorem zhi_index {z : ℤ} (h0 : 0 ≤ z) (h1 : z < 12) : pyIndex ZHI (z + 1) = .ok [branch z] := by
  interval_cases z <;> rfl

theorem stem_emod (n : ℤ) : stem (n % 10) = stem n := by unfold stem; rw [Int.emod_emod]
theorem branch_emod (n : ℤ) : branch (n % 12) = branch n := by unfold branch; rw [Int.emod_emod]

theorem pair_eq {g z n : ℤ} (hg : g = n % 10) (hz : z = n % 12) : pair g z = .ok (ganZhi n) := by
  subst hg; subst hz
  unfold pair
  rw [gan_index (by omega) (by omega), zhi_index (by omega) (by omega), stem_emod, branch_emod]
  rfl

/-! ### day -/

theorem trunc_intCast (n : ℤ) : F64.trunc (n : ℚ) = n := by
  unfold F64.trunc
  split_ifs <;> simp

theorem dayOffset_eq {s : Solar} (h : s.Valid) (h0 : -4715 ≤ s.year) (h1 : s.year ≤ 9999) :
    dayOffset s = .ok (JD.jdn s.date - 11) := by
  unfold dayOffset
  have hv : (⟨s.year, s.month, s.day, 12, 0, 0⟩ : Solar).Valid := ⟨h.1, by show ClockOk 12 0 0; decide⟩
  rw [Cal.fromYmdHms_ok h.1 (by decide)]
  show Except.ok _ = _
  rw [JD.jd_exact hv h0 h1 rfl rfl rfl]
  have e : JD.jdQ ⟨s.year, s.month, s.day, 12, 0, 0⟩ = ((JD.jdn s.date : ℤ) : ℚ) := by
    have e2 : JD.secs ⟨s.year, s.month, s.day, 12, 0, 0⟩ = 43200 := by simp [JD.secs]
    unfold JD.jdQ; rw [e2]; simp only [Solar.date]; push_cast; ring
  rw [e, trunc_intCast]

theorem hm_late {h m : ℤ} (h0 : 0 ≤ h) (h1 : h ≤ 23) (m0 : 0 ≤ m) (m1 : m ≤ 59) :
    (decide (strLe ['2', '3', ':', '0', '0'] (hm h m) = true ∧ strLe (hm h m) ['2', '3', ':', '5', '9'] = true))
      = decide (h = 23) := by
  have key : ∀ a : Fin 24, ∀ b : Fin 60,
      (decide (strLe ['2', '3', ':', '0', '0'] (hm (a : ℕ) (b : ℕ)) = true ∧
        strLe (hm (a : ℕ) (b : ℕ)) ['2', '3', ':', '5', '9'] = true)) = decide (((a : ℕ) : ℤ) = 23) := by
    decide +kernel
  have := key ⟨h.toNat, by omega⟩ ⟨m.toNat, by omega⟩
  simpa only [show ((h.toNat : ℕ) : ℤ) = h by omega, show ((m.toNat : ℕ) : ℤ) = m by omega] using this

theorem timeZhi_eq {h m : ℤ} (h0 : 0 ≤ h) (h1 : h ≤ 23) (m0 : 0 ≤ m) (m1 : m ≤ 59) :
    getTimeZhiIndex (hm h m) = (h + 1) / 2 % 12 := by
  have key : ∀ a : Fin 24, ∀ b : Fin 60,
      getTimeZhiIndex (hm (a : ℕ) (b : ℕ)) = (((a : ℕ) : ℤ) + 1) / 2 % 12 := by
    decide +kernel
  have := key ⟨h.toNat, by omega⟩ ⟨m.toNat, by omega⟩
  simpa only [show ((h.toNat : ℕ) : ℤ) = h by omega, show ((m.toNat : ℕ) : ℤ) = m by omega] using this

/-! ### everything `compute` sets -/

theorem made_fields {l : Lunar} (h : l.Made) (h0 : -4715 ≤ l.solar.year) (h1 : l.solar.year ≤ 9999) :
    (∃ y, computeYear l.year l.solar l.jieQi = .ok y ∧
      l.yearGanIndex = y.gan ∧ l.yearZhiIndex = y.zhi ∧
      l.yearGanIndexByLiChun = y.ganL ∧ l.yearZhiIndexByLiChun = y.zhiL ∧
      l.yearGanIndexExact = y.ganE ∧ l.yearZhiIndexExact = y.zhiE) ∧
    (l.monthGanIndex = monthGan (monthLoop Solar.toYmd l.solar.toYmd none (-3) (everySecond l.jieQi)) l.yearGanIndexByLiChun ∧
      l.monthZhiIndex = monthZhi (monthLoop Solar.toYmd l.solar.toYmd none (-3) (everySecond l.jieQi)) ∧
      l.monthGanIndexExact = monthGan (monthLoop Solar.toYmdHms l.solar.toYmdHms none (-3) (everySecond l.jieQi)) l.yearGanIndexExact ∧
      l.monthZhiIndexExact = monthZhi (monthLoop Solar.toYmdHms l.solar.toYmdHms none (-3) (everySecond l.jieQi))) ∧
    (l.dayGanIndex = (JD.jdn l.solar.date - 11) % 10 ∧ l.dayZhiIndex = (JD.jdn l.solar.date - 11) % 12 ∧
      l.dayGanIndexExact = (JD.jdn l.solar.date - 11 + if l.solar.hour = 23 then 1 else 0) % 10 ∧
      l.dayZhiIndexExact = (JD.jdn l.solar.date - 11 + if l.solar.hour = 23 then 1 else 0) % 12 ∧
      l.dayGanIndexExact2 = (JD.jdn l.solar.date - 11) % 10 ∧ l.dayZhiIndexExact2 = (JD.jdn l.solar.date - 11) % 12) ∧
    (l.timeZhiIndex = (l.solar.hour + 1) / 2 % 12 ∧
      l.timeGanIndex = (l.dayGanIndexExact % 5 * 2 + (l.solar.hour + 1) / 2 % 12) % 10) ∧
    l.weekIndex = l.solar.getWeek ∧ l.hour = l.solar.hour ∧ l.minute = l.solar.minute ∧ l.second = l.solar.second := by
  obtain ⟨hv, hc⟩ := h
  obtain ⟨c1, c2, c3, c4, c5, c6⟩ := hv.2
  unfold compute at hc
  cases hy : computeYear l.year l.solar l.jieQi with
  | error e => rw [hy] at hc; cases hc
  | ok y =>
    rw [hy, dayOffset_eq hv h0 h1] at hc
    simp only [bind, Except.bind, pure, Except.pure] at hc
    rw [hm_late c1 c2 c3 c4, timeZhi_eq c1 c2 c3 c4] at hc
    have hc := (Except.ok.inj hc).symm
    have y1 : l.yearGanIndexByLiChun = y.ganL := congrArg Lunar.yearGanIndexByLiChun hc
    have y2 : l.yearGanIndexExact = y.ganE := congrArg Lunar.yearGanIndexExact hc
    have d1 := congrArg Lunar.dayGanIndexExact hc
    have d2 := congrArg Lunar.dayZhiIndexExact hc
    have t1 := congrArg Lunar.timeGanIndex hc
    dsimp only at d1 d2 t1
    rw [← d1] at t1
    refine ⟨⟨y, rfl, congrArg Lunar.yearGanIndex hc, congrArg Lunar.yearZhiIndex hc, y1,
        congrArg Lunar.yearZhiIndexByLiChun hc, y2, congrArg Lunar.yearZhiIndexExact hc⟩,
      ⟨?_, congrArg Lunar.monthZhiIndex hc, ?_, congrArg Lunar.monthZhiIndexExact hc⟩,
      ⟨congrArg Lunar.dayGanIndex hc, congrArg Lunar.dayZhiIndex hc, ?_, ?_,
        congrArg Lunar.dayGanIndexExact2 hc, congrArg Lunar.dayZhiIndexExact2 hc⟩,
      ⟨congrArg Lunar.timeZhiIndex hc, t1⟩,
      congrArg Lunar.weekIndex hc, congrArg Lunar.hour hc, congrArg Lunar.minute hc, congrArg Lunar.second hc⟩
    · rw [y1]; exact congrArg Lunar.monthGanIndex hc
    · rw [y2]; exact congrArg Lunar.monthGanIndexExact hc
    · rw [d1]
      by_cases h23 : l.solar.hour = 23
      · simp only [h23, decide_true, if_true]; split_ifs <;> omega
      · simp [h23]
    · rw [d2]
      by_cases h23 : l.solar.hour = 23
      · simp only [h23, decide_true, if_true]; split_ifs <;> omega
      · simp [h23]

/-! ### year -/

theorem term_liChun {Y : ℤ} {jq : List Solar} (T : TermTable Y jq) :
    ∃ s, jq[4]? = some s ∧ s ∈ jq ∧ s.year = Y ∧ term jq ['立', '春'] = .ok s := by
  have h4 : 4 < jq.length := by rw [T.len]; decide
  have e : jq[4]? = some jq[4] := List.getElem?_eq_getElem h4
  refine ⟨jq[4], e, List.getElem_mem h4, T.liChun _ e, ?_⟩
  have : JIE_QI_IN_USE.findIdx? (fun x => x == ['立', '春']) = some 4 := by decide +kernel
  unfold term
  rw [this]
  simp only [pyIndex]
  rw [if_neg (by simp), if_neg (by simp)]
  rw [show ((4 : ℕ) : ℤ).toNat = 4 from rfl, e]

/-- the year part with a table of the right year; `a`, `e`: not yet Li Chun (by day, by instant) -/
theorem computeYear_eq {Y y : ℤ} {jq : List Solar} (T : TermTable Y jq) {s : Solar} (hs : s.Valid)
    (hY : s.year = Y) (h9 : 0 ≤ Y ∧ Y ≤ 9999) (hy : y = Y ∨ y = Y - 1) {lc : Solar} (hlc : jq[4]? = some lc) :
    ∃ p, computeYear y s jq = .ok p ∧ p.gan = (y - 4) % 10 ∧ p.zhi = (y - 4) % 12 ∧
      p.ganL = (Y - 4 - if Cal.dn s.date < Cal.dn lc.date then 1 else 0) % 10 ∧
      p.zhiL = (Y - 4 - if Cal.dn s.date < Cal.dn lc.date then 1 else 0) % 12 ∧
      p.ganE = (Y - 4 - if Cal.secNo s < Cal.secNo lc then 1 else 0) % 10 ∧
      p.zhiE = (Y - 4 - if Cal.secNo s < Cal.secNo lc then 1 else 0) % 12 := by
  obtain ⟨s4, e4, m4, y4, t4⟩ := term_liChun T
  obtain rfl : s4 = lc := by rw [e4] at hlc; exact Option.some.inj hlc
  have hv := T.valid _ m4
  have hf := T.four _ m4
  have hsf : Str.Four s := by unfold Str.Four; omega
  unfold computeYear
  rw [t4]
  simp only [bind, Except.bind, pure, Except.pure]
  rw [if_neg (by rw [y4, hY]; simp)]
  simp only [Str.ymd_lt hs hv hsf hf, Str.hms_lt hs hv hsf hf, Str.ymd_le hv hs hf hsf, Str.hms_le hv hs hf hsf]
  refine ⟨_, rfl, ?_⟩
  have q1 : ∀ x : ℤ, (if x % 10 < 0 then x % 10 + 10 else x % 10) = x % 10 := fun x => if_neg (by omega)
  have q2 : ∀ x : ℤ, (if x % 12 < 0 then x % 12 + 12 else x % 12) = x % 12 := fun x => if_neg (by omega)
  simp only [q1, q2]
  have q3 : ∀ x : ℤ, (if x < 0 then x + 10 else x) % 10 = x % 10 := fun x => by split_ifs <;> omega
  have q4 : ∀ x : ℤ, (if x < 0 then x + 12 else x) % 12 = x % 12 := fun x => by split_ifs <;> omega
  simp only [q3, q4]
  rcases hy with rfl | rfl
  · simp only [hY, if_true, decide_eq_true_eq]
    refine ⟨trivial, trivial, ?_, ?_, ?_, ?_⟩ <;> split_ifs <;> omega
  · rw [if_neg (by omega : ¬ (Y - 1 = s.year)), if_pos (by omega : Y - 1 < s.year)]
    simp only [decide_eq_true_eq]
    refine ⟨trivial, trivial, ?_, ?_, ?_, ?_⟩ <;> split_ifs <;> omega

/-! ### month -/

/-- the loop stops at the first term later than the moment: with `k` terms not later, index `i + k` -/
theorem monthLoop_eq {fmt : Solar → PyStr} {cur : PyStr} (f : Solar → ℤ) (c : ℤ) :
    ∀ (es : List Solar) (start : Option Solar) (i : ℤ) (k : ℕ),
    (∀ e ∈ es, strLt cur (fmt e) = decide (c < f e)) →
    (∀ e ∈ es, strLe (fmt e) cur = decide (f e ≤ c)) →
    (∀ s, start = some s → strLe (fmt s) cur = true) →
    (∀ e ∈ es.take k, f e ≤ c) → (∀ e, es[k]? = some e → c < f e) → k ≤ es.length →
    monthLoop fmt cur start i es = i + k
  | [], start, i, k, _, _, _, _, _, hk => by
    have : k = 0 := by simpa using hk
    subst this; simp [monthLoop]
  | e :: es, start, i, k, h1, h2, h3, h4, h5, hk => by
    have step : monthLoop fmt cur start i (e :: es) =
        if strLt cur (fmt e) = true then i else monthLoop fmt cur (some e) (i + 1) es := by
      cases start with
      | none => simp [monthLoop, strLe, Str.strLt_self]
      | some s => simp [monthLoop, h3 s rfl]
    rw [step]
    cases k with
    | zero =>
      have := h5 e rfl
      rw [if_pos (by rw [h1 e (by simp)]; simpa using this)]
      simp
    | succ k =>
      have he : f e ≤ c := h4 e (by simp)
      rw [if_neg (by intro h; rw [h1 e (by simp)] at h; simp at h; omega)]
      rw [monthLoop_eq f c es (some e) (i + 1) k (fun x hx => h1 x (by simp [hx])) (fun x hx => h2 x (by simp [hx]))
        (by rintro s ⟨⟩; rw [h2 e (by simp)]; simpa using he)
        (fun x hx => h4 x (by simp [hx])) (fun x hx => h5 x (by simpa using hx)) (by simpa using hk)]
      push_cast; ring

theorem everySecond_getElem? {α : Type} : ∀ (l : List α) (k : ℕ), (everySecond l)[k]? = l[2 * k]?
  | [], k => by simp [everySecond]
  | [a], k => by cases k <;> simp [everySecond, Nat.mul_add]
  | a :: b :: l, 0 => by simp [everySecond]
  | a :: b :: l, k + 1 => by
    simp only [everySecond, List.getElem?_cons_succ, Nat.mul_add, Nat.mul_one]
    exact everySecond_getElem? l k

theorem everySecond_mem {α : Type} {l : List α} {x : α} (h : x ∈ everySecond l) : x ∈ l := by
  obtain ⟨k, hk⟩ := List.mem_iff_getElem?.1 h
  rw [everySecond_getElem?] at hk
  exact List.mem_of_getElem? hk

theorem monthGanZhi_eq {Y i g : ℤ}
    (hg : g = (Y - 4 - if i < 0 then 1 else 0) % 10) :
    monthGan i g = (12 * (Y - 4) + 2 + i) % 10 ∧ monthZhi i = (12 * (Y - 4) + 2 + i) % 12 := by
  subst hg
  unfold monthGan monthZhi BASE_MONTH_ZHI_INDEX
  by_cases h : i < 0
  · simp only [h, if_true]; omega
  · simp only [h, if_false]; omega

theorem table_le {Y : ℤ} {jq : List Solar} (T : TermTable Y jq) {i j : ℕ} (h : i ≤ j) {a b : Solar}
    (ha : jq[i]? = some a) (hb : jq[j]? = some b) : Cal.secNo a ≤ Cal.secNo b ∧ Cal.dn a.date ≤ Cal.dn b.date := by
  rcases Nat.lt_or_ge i j with hlt | hge
  · obtain ⟨hi, rfl⟩ := List.getElem?_eq_some_iff.1 ha
    obtain ⟨hj, rfl⟩ := List.getElem?_eq_some_iff.1 hb
    have h := List.pairwise_iff_getElem.1 T.chron i j hi hj hlt
    have va := T.valid _ (List.getElem_mem hi)
    have vb := T.valid _ (List.getElem_mem hj)
    rw [before_iff va vb] at h
    have ca := Cal.clock_bounds va
    have cb := Cal.clock_bounds vb
    unfold Cal.secNo at *
    omega
  · obtain rfl : i = j := by omega
    rw [ha] at hb
    cases hb
    exact ⟨le_refl _, le_refl _⟩

/-- the index found by either loop, and what it says about Li Chun -/
theorem monthIndex_eq {Y : ℤ} {jq : List Solar} (T : TermTable Y jq) {fmt : Solar → PyStr} {cur : PyStr}
    (f : Solar → ℤ) (c : ℤ) (hlt : ∀ e ∈ jq, strLt cur (fmt e) = decide (c < f e))
    (hle : ∀ e ∈ jq, strLe (fmt e) cur = decide (f e ≤ c))
    (mono : ∀ i j : ℕ, i ≤ j → ∀ a b, jq[i]? = some a → jq[j]? = some b → f a ≤ f b)
    {k : ℕ} (h1 : ∀ i < k, ∀ s, jq[2 * i]? = some s → f s ≤ c) (h2 : ∀ s, jq[2 * k]? = some s → c < f s)
    (hk : k ≤ 16) {lc : Solar} (hlc : jq[4]? = some lc) :
    monthLoop fmt cur none (-3) (everySecond jq) = k - 3 ∧ (k < 3 ↔ c < f lc) := by
  constructor
  · rw [monthLoop_eq f c _ none (-3) k (fun e he => hlt e (everySecond_mem he))
      (fun e he => hle e (everySecond_mem he)) (by simp) ?_ ?_ ?_]
    · ring
    · intro e he
      obtain ⟨i, hi⟩ := List.mem_iff_getElem?.1 he
      rw [List.getElem?_take] at hi
      split_ifs at hi with hik
      rw [everySecond_getElem?] at hi
      exact h1 i hik e hi
    · intro e he
      rw [everySecond_getElem?] at he
      exact h2 e he
    · by_contra hc
      have : (everySecond jq)[k - 1]? = none := List.getElem?_eq_none (by omega)
      rw [everySecond_getElem?, List.getElem?_eq_none_iff, T.len] at this
      omega
  · constructor
    · intro h
      have hl : 2 * k < jq.length := by rw [T.len]; omega
      have := h2 _ (List.getElem?_eq_getElem hl)
      have := mono (2 * k) 4 (by omega) _ _ (List.getElem?_eq_getElem hl) hlc
      omega
    · intro h
      by_contra hc
      have := h1 2 (by omega) lc hlc
      omega

end Lunar
