import Verif.Spec.Almanac
import Verif.Proof.LunarYear
import Verif.Proof.SolarParts
import Verif.Proof.FromJulianDay2
import Mathlib.Order.SuccPred.Archimedean
import Mathlib.Order.Monotone.Basic

/-! # Conversions between lunar and solar dates -/

open Spec

theorem isDay_iff {n : ℤ} {x : Date} (hx : x.Valid) : IsDay n x ↔ n = JD.jdn x := by
  unfold IsDay
  rw [Cal.daysAfter_iff (by decide) hx, JD.jdn_eq hx]
  have := JD.jdn_eq (x := ⟨2000, 1, 1⟩) (by decide)
  rw [JD.jdn_example] at this
  omega

theorem exists_isDay (n : ℤ) : ∃ x : Date, x.Valid ∧ IsDay n x := by
  obtain ⟨x, hx, h⟩ := Cal.exists_dn (n - 1721057)
  exact ⟨x, hx, (isDay_iff hx).mpr (by rw [JD.jdn_eq hx, h]; ring)⟩

theorem isDay_unique {n : ℤ} {x y : Date} (hx : x.Valid) (hy : y.Valid) (h : IsDay n x) (h' : IsDay n y) : x = y := by
  rw [isDay_iff hx, JD.jdn_eq hx] at h
  rw [isDay_iff hy, JD.jdn_eq hy] at h'
  exact Cal.dayNo_inj hx hy (by omega)

theorem year_ge_of_jdn {x : Date} (hx : x.Valid) {y : ℤ} (h : JD.jdn ⟨y, 1, 1⟩ ≤ JD.jdn x) : y ≤ x.y := by
  by_contra hc
  have hv : (⟨y, 1, 1⟩ : Date).Valid := by unfold Date.Valid lastDay; simp
  have := Cal.dayNo_lt hx hv (.inl (by simp only; omega))
  rw [JD.jdn_eq hx, JD.jdn_eq hv] at h
  omega

theorem year_le_of_jdn {x : Date} (hx : x.Valid) {y : ℤ} (h : JD.jdn x < JD.jdn ⟨y + 1, 1, 1⟩) : x.y ≤ y := by
  by_contra hc
  have hv : (⟨y + 1, 1, 1⟩ : Date).Valid := by unfold Date.Valid lastDay; simp
  rw [JD.jdn_eq hx, JD.jdn_eq hv] at h
  by_cases he : x = ⟨y + 1, 1, 1⟩
  · rw [he] at h; omega
  · rcases Cal.DateLt_trichotomy x ⟨y + 1, 1, 1⟩ with a | a | a
    · unfold Cal.DateLt at a
      obtain ⟨b1, b2, b3, b4, _⟩ := hx
      simp only at a
      omega
    · exact he a
    · have := Cal.dayNo_lt hv hx a
      omega

theorem year_mono {x z : Date} (hx : x.Valid) (hz : z.Valid) (h : JD.jdn x ≤ JD.jdn z) : x.y ≤ z.y := by
  rw [JD.jdn_eq hx, JD.jdn_eq hz] at h
  by_contra hc
  have := Cal.dayNo_lt hz hx (.inl (by omega))
  omega

theorem fromJulianDay_int {n : ℤ} {x : Date} (hx : x.Valid) (hn : IsDay n x) (h0 : 0 ≤ n) (h1 : x.y ≤ 9999) :
    Solar.fromJulianDay (n : ℚ) = .ok ⟨x.y, x.m, x.d, 12, 0, 0⟩ := by
  rw [isDay_iff hx] at hn
  have hy : -4712 ≤ x.y := year_ge_of_jdn hx (by
    have : JD.jdn ⟨-4712, 1, 1⟩ = 0 := by decide
    omega)
  have hv : (⟨x.y, x.m, x.d, 12, 0, 0⟩ : Solar).Valid := ⟨hx, by show ClockOk 12 0 0; decide⟩
  have e := JD.fromJulianDay_getJulianDay hv hy h1
  rw [JD.jd_exact hv (by simp only; omega) h1 rfl rfl rfl] at e
  have e2 : JD.secs ⟨x.y, x.m, x.d, 12, 0, 0⟩ = 43200 := by simp [JD.secs]
  have e3 : JD.jdQ ⟨x.y, x.m, x.d, 12, 0, 0⟩ = ((n : ℤ) : ℚ) := by
    unfold JD.jdQ; rw [e2, hn]; simp only [Solar.date]; push_cast; ring
  rwa [e3] at e

namespace Lunar

/-- `compute` succeeds and keeps its arguments -/
theorem compute_ok {y m d Y : ℤ} {s : Solar} {jq : List Solar} (hs : s.Valid) (T : TermTable Y jq) (hY : s.year = Y) :
    ∃ l, compute y m d s.hour s.minute s.second s jq = .ok l ∧ l.year = y ∧ l.month = m ∧ l.day = d ∧
      l.hour = s.hour ∧ l.minute = s.minute ∧ l.second = s.second ∧ l.solar = s ∧ l.jieQi = jq ∧ l.Made := by
  obtain ⟨lc, e, me, hly, ht⟩ := term_liChun T
  have h9 := T.four lc me
  have hyr : ∃ p, computeYear y s jq = .ok p := by
    unfold computeYear
    dsimp only
    rw [ht]
    simp only [bind, Except.bind, hly, hY, ne_eq, not_true, if_false, pure, Except.pure]
    exact ⟨_, rfl⟩
  obtain ⟨p, hp⟩ := hyr
  have hd := dayOffset_eq hs (by omega) (by omega)
  unfold Made
  have : ∃ l, compute y m d s.hour s.minute s.second s jq = .ok l ∧ l.year = y ∧ l.month = m ∧ l.day = d ∧
      l.hour = s.hour ∧ l.minute = s.minute ∧ l.second = s.second ∧ l.solar = s ∧ l.jieQi = jq := by
    unfold compute
    rw [hp, hd]
    simp only [bind, Except.bind, pure, Except.pure]
    exact ⟨_, rfl, rfl, rfl, rfl, rfl, rfl, rfl, rfl, rfl⟩
  obtain ⟨l, h0, h1, h2, h3, h4, h5, h6, h7, h8⟩ := this
  exact ⟨l, h0, h1, h2, h3, h4, h5, h6, h7, h8, by rw [h7]; exact hs, by rw [h1, h2, h3, h7, h8]; exact h0⟩

end Lunar

namespace Almanac
open LunarYear

attribute [local irreducible] make

variable {A : Astro} {lo hi : ℤ} (H : Almanac A lo hi)
include H

theorem mono : StrictMono H.first := strictMono_int_of_lt_succ H.first_lt

theorem year_range {Y : ℤ} (h1 : lo ≤ Y) (h2 : Y ≤ hi) : 0 ≤ Y ∧ Y ≤ 9999 := by
  obtain ⟨jq, _, T⟩ := H.terms Y h1 h2
  obtain ⟨s, _, hm, hy, _⟩ := Lunar.term_liChun T
  rw [← hy]
  exact T.four s hm

/-- month of a day -/
theorem month_of_day {Y n : ℤ} (h1 : H.first (H.start Y) ≤ n) (h2 : n < H.first (H.start Y + 15)) :
    ∃ i : ℕ, i < 15 ∧ H.first (H.start Y + i) ≤ n ∧ n < H.first (H.start Y + i + 1) := by
  by_contra hc
  push Not at hc
  have : ∀ i : ℕ, i ≤ 15 → H.first (H.start Y + i) ≤ n := by
    intro i
    induction i with
    | zero => intro _; simpa using h1
    | succ i ih =>
      intro h
      have := hc i (by omega) (ih (by omega))
      push_cast
      rwa [← add_assoc]
  have := this 15 le_rfl
  push_cast at this
  omega

theorem month_unique {j k n : ℤ} (h1 : H.first j ≤ n) (h2 : n < H.first (j + 1)) (h3 : H.first k ≤ n)
    (h4 : n < H.first (k + 1)) : j = k := by
  have a := H.mono.lt_iff_lt.mp (lt_of_le_of_lt h1 h4)
  have b := H.mono.lt_iff_lt.mp (lt_of_le_of_lt h3 h2)
  omega

theorem window' {Y : ℤ} (h1 : lo ≤ Y) (h2 : Y ≤ hi) {m : LunarMonth} (hm : m ∈ (make A Y).months) :
    ∃ i : ℕ, i < 15 ∧ (make A Y).months[i]? = some m ∧ (m.year, m.month) = H.key (H.start Y + i) ∧
      m.firstJulianDay = H.first (H.start Y + i) ∧
      m.dayCount = H.first (H.start Y + i + 1) - H.first (H.start Y + i) := by
  obtain ⟨i, hi'⟩ := List.getElem?_of_mem hm
  have hl : i < 15 := by
    have := (List.getElem?_eq_some_iff.mp hi').1
    rwa [months_length] at this
  obtain ⟨m', e, h⟩ := H.window Y h1 h2 i hl
  rw [hi'] at e
  cases e
  exact ⟨i, hl, hi', h⟩

/-- `getMonth` finds month `k` in the list of its year -/
theorem getMonth_some {k : ℤ} (h1 : lo ≤ (H.key k).1) (h2 : (H.key k).1 ≤ hi) :
    ∃ M, (make A (H.key k).1).getMonth (H.key k).2 = some M ∧ M.firstJulianDay = H.first k ∧
      M.dayCount = H.first (k + 1) - H.first k ∧ (M.year, M.month) = H.key k := by
  obtain ⟨a, b⟩ := H.home k h1 h2
  cases e : (make A (H.key k).1).getMonth (H.key k).2 with
  | none =>
    exfalso
    obtain ⟨m, hm, hk, -⟩ := H.window _ h1 h2 (k - H.start (H.key k).1).toNat (by omega)
    rw [show H.start (H.key k).1 + ((k - H.start (H.key k).1).toNat : ℤ) = k by omega] at hk
    unfold getMonth at e
    rw [List.find?_eq_none] at e
    have := e m (List.mem_of_getElem? hm)
    rw [make_year] at this
    simp only [decide_eq_true_eq, not_and] at this
    exact this (congrArg Prod.fst hk) (congrArg Prod.snd hk)
  | some M =>
    unfold getMonth at e
    have h3 := List.find?_some e
    rw [make_year] at h3
    simp only [decide_eq_true_eq] at h3
    obtain ⟨i, _, _, hk, hf, hc⟩ := H.window' h1 h2 (List.mem_of_find?_eq_some e)
    have : H.start (H.key k).1 + (i : ℤ) = k := H.key_inj _ _ (by rw [← hk, h3.1, h3.2])
    rw [this] at hf hc hk
    exact ⟨M, rfl, hf, hc, hk⟩

theorem getMonth_none {Y m : ℤ} (h1 : lo ≤ Y) (h2 : Y ≤ hi) (h : ∀ k, H.key k ≠ (Y, m)) :
    (make A Y).getMonth m = none := by
  unfold getMonth
  rw [List.find?_eq_none, make_year]
  intro M hM
  obtain ⟨i, _, _, hk, _⟩ := H.window' h1 h2 hM
  simp only [decide_eq_true_eq, not_and]
  intro a b
  exact h _ (by rw [← hk, a, b])

/-- the constructor on an existing lunar day -/
theorem fromYmdHms_ok {k d h mi s : ℤ} {x : Date} (h1 : lo ≤ (H.key k).1) (h2 : (H.key k).1 ≤ hi)
    (d1 : 1 ≤ d) (d2 : d ≤ H.first (k + 1) - H.first k) (hx : x.Valid) (hn : IsDay (H.first k + d - 1) x)
    (x1 : lo ≤ x.y) (x2 : x.y ≤ hi) (hc : ClockOk h mi s) :
    ∃ l, Lunar.fromYmdHms A (H.key k).1 (H.key k).2 d h mi s = .ok l ∧ (l.year, l.month) = H.key k ∧ l.day = d ∧
      l.hour = h ∧ l.minute = mi ∧ l.second = s ∧ l.solar = ⟨x.y, x.m, x.d, h, mi, s⟩ ∧ l.Made ∧
      Lunar.TermTable x.y l.jieQi ∧ Lunar.computeJieQi (make A x.y).jieQiJulianDays = .ok l.jieQi := by
  obtain ⟨M, hM, hf, hd, -⟩ := H.getMonth_some h1 h2
  obtain ⟨a, b⟩ := H.home k h1 h2
  have hnn := H.nonneg _ h1 h2
  have hmono := H.mono.monotone a
  have h9 := H.year_range x1 x2
  obtain ⟨jq, hjq, T⟩ := H.terms x.y x1 x2
  have hv : (⟨x.y, x.m, x.d, h, mi, s⟩ : Solar).Valid := ⟨hx, hc⟩
  obtain ⟨l, e, q1, q2, q3, q4, q5, q6, q7, q8, q9⟩ := Lunar.compute_ok (y := (H.key k).1) (m := (H.key k).2) (d := d) hv T rfl
  refine ⟨l, ?_, by rw [q1, q2], q3, q4, q5, q6, q7, q9, by rw [q8]; exact T, by rw [q8]; exact hjq⟩
  unfold Lunar.fromYmdHms
  dsimp only
  rw [hM]
  dsimp only
  rw [if_neg (by omega), if_neg (by omega), hf, fromJulianDay_int hx hn (by omega) h9.2]
  simp only [bind, Except.bind]
  rw [Cal.fromYmdHms_ok hx hc]
  dsimp only
  have : (if x.y ≠ (H.key k).1 then make A x.y else make A (H.key k).1) = make A x.y := by
    split_ifs with c
    · rfl
    · push Not at c; rw [c]
  rw [this, hjq]
  exact e

/-- the month search of `fromSolar` -/
theorem findMonth_ok {s : Solar} (hs : s.Valid) (h1 : lo ≤ s.year) (h2 : s.year ≤ hi) {k n : ℤ}
    (hn : IsDay n s.date) (k1 : H.start s.year ≤ k) (k2 : k < H.start s.year + 15) (f1 : H.first k ≤ n) (f2 : n < H.first (k + 1)) :
    Lunar.findMonth s (make A s.year).months = .ok ((H.key k).1, (H.key k).2, n - H.first k + 1) := by
  have h9 := H.year_range h1 h2
  have hnn := H.nonneg _ h1 h2
  have hlen := months_length A s.year
  have main : ∀ (j i : ℕ), (i : ℤ) + j = k - H.start s.year →
      Lunar.findMonth s ((make A s.year).months.drop i) = .ok ((H.key k).1, (H.key k).2, n - H.first k + 1) := by
    intro j
    induction j with
    | zero =>
      intro i hij
      obtain ⟨m, hm, hk, hf, hd⟩ := H.window _ h1 h2 i (by omega)
      rw [show H.start s.year + (i : ℤ) = k by omega] at hk hf hd
      obtain ⟨x, hx, hxn⟩ := exists_isDay (H.first k)
      have e0 := H.mono.monotone k1
      rw [List.drop_eq_getElem_cons (by omega)]
      have hm' : (make A s.year).months[i] = m := by
        have := List.getElem?_eq_getElem (l := (make A s.year).months) (i := i) (by omega)
        rw [hm] at this; exact (Option.some.inj this).symm
      rw [hm']
      have hxy : x.y ≤ 9999 := by
        have : JD.jdn x ≤ JD.jdn s.date := by rw [← (isDay_iff hx).mp hxn, ← (isDay_iff hs.1).mp hn]; omega
        exact le_trans (year_mono hx hs.1 this) h9.2
      unfold Lunar.findMonth
      rw [hf, fromJulianDay_int hx hxn (by omega) hxy]
      have hv : (⟨x.y, x.m, x.d, 12, 0, 0⟩ : Solar).Valid := ⟨hx, by show ClockOk 12 0 0; decide⟩
      have hsub : s.subtract ⟨x.y, x.m, x.d, 12, 0, 0⟩ = .ok (n - H.first k) := by
        rw [Cal.subtract_spec hs hv, show (⟨x.y, x.m, x.d, 12, 0, 0⟩ : Solar).date = x from rfl]
        rw [isDay_iff hx, JD.jdn_eq hx] at hxn
        rw [isDay_iff hs.1, JD.jdn_eq hs.1] at hn
        congr 1
        omega
      simp only [bind, Except.bind, hsub]
      rw [if_pos (by omega)]
      rw [← hk]
      rfl
    | succ j ih =>
      intro i hij
      have ih := ih (i + 1) (by push_cast at hij ⊢; omega)
      obtain ⟨m, hm, hk, hf, hd⟩ := H.window _ h1 h2 i (by push_cast at hij; omega)
      obtain ⟨x, hx, hxn⟩ := exists_isDay (H.first (H.start s.year + i))
      have e0 := H.mono.monotone (show H.start s.year ≤ H.start s.year + i by omega)
      have e1 := H.mono.monotone (show H.start s.year + i + 1 ≤ k by push_cast at hij; omega)
      have e2 := H.first_lt (H.start s.year + i)
      rw [List.drop_eq_getElem_cons (by push_cast at hij; omega)]
      have hm' : (make A s.year).months[i]'(by push_cast at hij; omega) = m := by
        have := List.getElem?_eq_getElem (l := (make A s.year).months) (i := i) (by push_cast at hij; omega)
        rw [hm] at this; exact (Option.some.inj this).symm
      rw [hm']
      have hxy : x.y ≤ 9999 := by
        have : JD.jdn x ≤ JD.jdn s.date := by rw [← (isDay_iff hx).mp hxn, ← (isDay_iff hs.1).mp hn]; omega
        exact le_trans (year_mono hx hs.1 this) h9.2
      unfold Lunar.findMonth
      rw [hf, fromJulianDay_int hx hxn (by omega) hxy]
      have hv : (⟨x.y, x.m, x.d, 12, 0, 0⟩ : Solar).Valid := ⟨hx, by show ClockOk 12 0 0; decide⟩
      have hsub : s.subtract ⟨x.y, x.m, x.d, 12, 0, 0⟩ = .ok (n - H.first (H.start s.year + i)) := by
        rw [Cal.subtract_spec hs hv, show (⟨x.y, x.m, x.d, 12, 0, 0⟩ : Solar).date = x from rfl]
        rw [isDay_iff hx, JD.jdn_eq hx] at hxn
        rw [isDay_iff hs.1, JD.jdn_eq hs.1] at hn
        congr 1
        omega
      simp only [bind, Except.bind, hsub]
      rw [if_neg (by omega)]
      exact ih
  have := main (k - H.start s.year).toNat 0 (by push_cast; omega)
  simpa using this

/-- `fromSolar` is the constructor applied to the month and day found -/
theorem fromSolar_eq {s : Solar} (hs : s.Valid) (h1 : lo ≤ s.year) (h2 : s.year ≤ hi) {k n : ℤ}
    (hn : IsDay n s.date) (f1 : H.first k ≤ n) (f2 : n < H.first (k + 1)) :
    Lunar.fromSolar A s = Lunar.fromYmdHms A (H.key k).1 (H.key k).2 (n - H.first k + 1) s.hour s.minute s.second ∧
    H.start s.year ≤ k ∧ k < H.start s.year + 15 := by
  obtain ⟨c1, c2⟩ := H.covers _ h1 h2 s.date n hs.1 rfl hn
  obtain ⟨i, hi', g1, g2⟩ := H.month_of_day c1 c2
  have : H.start s.year + (i : ℤ) = k := H.month_unique g1 g2 f1 f2
  subst this
  refine ⟨?_, by omega, by omega⟩
  unfold Lunar.fromSolar
  dsimp only
  rw [H.findMonth_ok hs h1 h2 hn (by omega) (by omega) f1 f2]
  rfl

/-- the table of a converted date is that of its solar year -/
theorem fromSolar_table {s : Solar} (hs : s.Valid) (h1 : lo < s.year) (h2 : s.year < hi) :
    ∃ l, Lunar.fromSolar A s = .ok l ∧ Lunar.computeJieQi (make A s.year).jieQiJulianDays = .ok l.jieQi := by
  have hn : IsDay (JD.jdn s.date) s.date := (isDay_iff hs.1).mpr rfl
  obtain ⟨c1, c2⟩ := H.covers _ h1.le h2.le s.date _ hs.1 rfl hn
  obtain ⟨i, hi', g1, g2⟩ := H.month_of_day c1 c2
  obtain ⟨e, -, -⟩ := H.fromSolar_eq hs h1.le h2.le hn g1 g2
  obtain ⟨n1, n2⟩ := H.near _ h1.le h2.le i hi'
  have hday : H.first (H.start s.year + i) + (JD.jdn s.date - H.first (H.start s.year + i) + 1) - 1 = JD.jdn s.date := by ring
  obtain ⟨l, el, q⟩ := H.fromYmdHms_ok (k := H.start s.year + i)
    (d := JD.jdn s.date - H.first (H.start s.year + i) + 1) (x := s.date) (by omega) (by omega) (by omega) (by omega)
    hs.1 (by rw [hday]; exact hn) h1.le h2.le hs.2
  exact ⟨l, by rw [e, el], q.2.2.2.2.2.2.2.2⟩

end Almanac
