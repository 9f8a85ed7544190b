import Verif.Proof.Lunation.Table
import Verif.Props.Library
import Verif.Props.FotoTao

/-! # C86: the length of lunar months

The library computes the first day of each month on its own, by a fast series and, near midnight, by a long one; the length of
a month is the difference of two such days.  That it is never 28 or 31 needs bounds for both series and for all roundings, at all
times: `Verif/Proof/Lunation`. -/

section
open Spec LunarYear ShouXing

variable {M : Libm}

/-- **C86** every month of the lists of the years 1584 to 5000 has 29 or 30 days -/
theorem C86_length (hM : M.Good) (Y : ℤ) (h1 : 1584 ≤ Y) (h2 : Y ≤ 5000) (m : LunarMonth) (hm : m ∈ (make (astro M) Y).months) :
    m.dayCount = 29 ∨ m.dayCount = 30 := by
  obtain ⟨i, hi⟩ := List.getElem?_of_mem hm
  obtain ⟨hi', -⟩ := List.getElem?_eq_some_iff.1 hi
  rw [months_length] at hi'
  exact Lunation.list_step hM h1 h2 hi' hi

/-- the months of the list of the year 4999 -/
example : ∃ m ∈ (make (astro Libm.cut) 4999).months, m.dayCount = 29 ∨ m.dayCount = 30 := by
  have hl := months_length (astro Libm.cut) 4999
  have hm : (make (astro Libm.cut) 4999).months[3]'(by omega) ∈ (make (astro Libm.cut) 4999).months := List.getElem_mem _
  exact ⟨_, hm, C86_length Libm.cut_good 4999 (by norm_num) (by norm_num) _ hm⟩

/-- **C86** `LunarMonth.fromYm` gives such a month -/
theorem C86_fromYm (hM : M.Good) (y m : ℤ) (h1 : 1584 ≤ y) (h2 : y ≤ 5000) (lm : LunarMonth) (h : LunarMonth.fromYm (astro M) y m = some lm) :
    lm.year = y ∧ lm.month = m ∧ (lm.dayCount = 29 ∨ lm.dayCount = 30) := by
  unfold LunarMonth.fromYm getMonth at h
  have a := List.mem_of_find?_eq_some h
  have b := List.find?_some h
  rw [decide_eq_true_iff, make_year] at b
  exact ⟨b.1, b.2, C86_length hM y h1 h2 lm a⟩

private theorem len (hM : M.Good) (H : Almanac (astro M) 1584 6890) {k : ℤ} (h1 : 1584 ≤ (H.key k).1) (h2 : (H.key k).1 ≤ 5000) :
    ∃ lm, LunarMonth.fromYm (astro M) (H.key k).1 (H.key k).2 = some lm ∧ lm.dayCount = H.first (k + 1) - H.first k ∧
      (lm.dayCount = 29 ∨ lm.dayCount = 30) := by
  obtain ⟨lm, e, -, d, -⟩ := H.getMonth_some (k := k) h1 (by omega)
  exact ⟨lm, e, d, (C86_fromYm hM _ _ h1 h2 lm e).2.2⟩

/-- **C86** the lunar dates that can be constructed are those of the days of the months `fromYm` knows: a twenty-ninth day is
always there, a thirty-first never -/
theorem C86_dates (hM : M.Good) (y m d h mi s : ℤ) (h1 : 1584 < y) (h2 : y ≤ 5000) :
    ((∃ l, Lunar.fromYmdHms (astro M) y m d h mi s = .ok l) ↔
      (∃ lm, LunarMonth.fromYm (astro M) y m = some lm ∧ 1 ≤ d ∧ d ≤ lm.dayCount ∧ (lm.dayCount = 29 ∨ lm.dayCount = 30)) ∧ ClockOk h mi s) ∧
    ((∃ l, Lunar.fromYmdHms (astro M) y m d h mi s = .ok l) ∨ Lunar.fromYmdHms (astro M) y m d h mi s = .error .exception) := by
  obtain ⟨H, -⟩ := C84_almanac hM
  obtain ⟨a, b⟩ := C40_accepts_iff H y m d h mi s h1 (by omega)
  refine ⟨a.trans ?_, b⟩
  constructor
  · rintro ⟨⟨k, hk, d1, d2⟩, c⟩
    obtain ⟨lm, e, f, g⟩ := len hM H (k := k) (by rw [hk]; exact h1.le) (by rw [hk]; exact h2)
    rw [hk] at e
    exact ⟨⟨lm, e, d1, by omega, g⟩, c⟩
  · rintro ⟨⟨lm, e, d1, d2, -⟩, c⟩
    refine ⟨?_, c⟩
    by_cases hk : ∃ k, H.key k = (y, m)
    · obtain ⟨k, hk⟩ := hk
      obtain ⟨lm', e', f, -⟩ := len hM H (k := k) (by rw [hk]; exact h1.le) (by rw [hk]; exact h2)
      rw [hk] at e'
      dsimp only at e'
      rw [e] at e'
      cases e'
      exact ⟨k, hk, d1, by omega⟩
    · push Not at hk
      have := H.getMonth_none (Y := y) (m := m) h1.le (by omega) hk
      unfold LunarMonth.fromYm at e
      rw [this] at e
      cases e

/-- no thirty-first day in the year 2033, nor a zeroth -/
example (m : ℤ) : (¬ ∃ l, Lunar.fromYmdHms (astro Libm.cut) 2033 m 31 0 0 0 = .ok l) ∧ ¬ ∃ l, Lunar.fromYmdHms (astro Libm.cut) 2033 m 0 0 0 0 = .ok l := by
  constructor
  · intro h
    obtain ⟨⟨lm, -, -, a, b⟩, -⟩ := (C86_dates Libm.cut_good 2033 m 31 0 0 0 (by norm_num) (by norm_num)).1.1 h
    omega
  · intro h
    obtain ⟨⟨lm, -, a, -⟩, -⟩ := (C86_dates Libm.cut_good 2033 m 0 0 0 0 (by norm_num) (by norm_num)).1.1 h
    omega

/-- **C86** the lunar date of every day has a day between 1 and 30 -/
theorem C86_day (hM : M.Good) (s : Solar) (hs : s.Valid) (h1 : 1584 < s.year) (h2 : s.year ≤ 5000) :
    ∃ l lm, Lunar.fromSolar (astro M) s = .ok l ∧ LunarMonth.fromYm (astro M) l.year l.month = some lm ∧
      1 ≤ l.day ∧ l.day ≤ lm.dayCount ∧ (lm.dayCount = 29 ∨ lm.dayCount = 30) := by
  obtain ⟨H, S⟩ := C84_almanac hM
  obtain ⟨l, e, f1, -, -, f2, k, f3, f4, f5, f6⟩ := C38_round_trip H s hs h1 (by omega)
  have b := S.behind s.year (by omega) (by omega) k s.date _ hs.1 rfl f6 (by omega) (by omega)
  obtain ⟨lm, e', d, g⟩ := len hM H (k := k) (by omega) (by omega)
  rw [← f3] at e'
  exact ⟨l, lm, e, e', f4, by omega, g⟩

/-- the last day of the fourth millennium -/
example : ∃ l, Lunar.fromSolar (astro Libm.cut) ⟨4000, 12, 31, 23, 59, 59⟩ = .ok l ∧ 1 ≤ l.day ∧ l.day ≤ 30 := by
  obtain ⟨l, lm, e, -, a, b, c⟩ := C86_day Libm.cut_good ⟨4000, 12, 31, 23, 59, 59⟩ (by decide) (by decide) (by decide)
  exact ⟨l, e, a, by omega⟩

/-- **C86** the six days of fasting of a month: the 8th, 14th, 15th, 23rd and the last two -/
theorem C86_six (hM : M.Good) (l : Lunar) (lm : LunarMonth) (h1 : 1584 ≤ l.year) (h2 : l.year ≤ 5000)
    (hm : LunarMonth.fromYm (astro M) l.year l.month = some lm) (hd : l.day ≤ lm.dayCount) :
    (Foto.mk l).isDayZhaiSix (astro M) = true ↔ l.day ∈ ([8, 14, 15, 23] : List ℤ) ∨ l.day = lm.dayCount - 1 ∨ l.day = lm.dayCount := by
  obtain ⟨H, -⟩ := C84_almanac hM
  by_cases hk : ∃ k, H.key k = (l.year, l.month)
  · obtain ⟨k, hk⟩ := hk
    obtain ⟨lm', e, f, g⟩ := len hM H (k := k) (by rw [hk]; exact h1) (by rw [hk]; exact h2)
    rw [hk] at e
    dsimp only at e
    rw [hm] at e
    cases e
    rw [f] at hd g ⊢
    exact C66_six H l k hk h1 (by omega) hd g
  · push Not at hk
    have := H.getMonth_none (Y := l.year) (m := l.month) h1 (by omega) hk
    unfold LunarMonth.fromYm at hm
    rw [this] at hm
    cases hm

/-- 2024-02-09 is a last day of a month or not -/
example : ∃ l lm, Lunar.fromSolar (astro Libm.cut) ⟨2024, 2, 9, 8, 0, 0⟩ = .ok l ∧ LunarMonth.fromYm (astro Libm.cut) l.year l.month = some lm ∧
    ((Foto.mk l).isDayZhaiSix (astro Libm.cut) = true ↔ l.day ∈ ([8, 14, 15, 23] : List ℤ) ∨ l.day = lm.dayCount - 1 ∨ l.day = lm.dayCount) := by
  obtain ⟨l, lm, e, f, a, b, c⟩ := C86_day Libm.cut_good ⟨2024, 2, 9, 8, 0, 0⟩ (by decide) (by decide) (by decide)
  obtain ⟨l', e', -, -, y, -⟩ := C84_round_trip Libm.cut_good ⟨2024, 2, 9, 8, 0, 0⟩ (by decide) (by decide) (by decide)
  rw [e] at e'
  cases e'
  dsimp only at y
  exact ⟨l, lm, e, f, C86_six Libm.cut_good l lm (by omega) (by omega) f b⟩

/-- **C86** the festivals of a day: New Year's Eve exactly on the last day of the lunar year, whatever its length.  `t` is the
day after, `l'` its lunar date. -/
theorem C86_festivals (hM : M.Good) (s t : Solar) (l l' : Lunar) (hs : s.Valid) (hst : s.next 1 = .ok t)
    (s1 : 1584 < s.year) (t2 : t.year ≤ 5000) (hl : Lunar.fromSolar (astro M) s = .ok l) (hl' : Lunar.fromSolar (astro M) t = .ok l') :
    l.getFestivals (astro M) = .ok ((lunarFestival l.month l.day).toList ++ if l'.year ≠ l.year then [['除', '夕']] else []) := by
  obtain ⟨H, S⟩ := C84_almanac hM
  obtain ⟨t', g1, ht, gc, gd⟩ := Cal.nextDay_spec hs 1
  rw [hst] at g1
  cases g1
  have st : s.year ≤ t.year := year_mono hs.1 ht.1 (by rw [JD.jdn_eq hs.1, JD.jdn_eq ht.1, gd]; omega)
  have year : ∀ {u : Solar} {v : Lunar}, u.Valid → 1584 < u.year → u.year ≤ 5000 → Lunar.fromSolar (astro M) u = .ok v → 1584 ≤ v.year ∧ v.year ≤ 5000 := by
    intro u v hu u1 u2 e
    obtain ⟨v', e', -, -, b, -⟩ := C84_round_trip hM u hu u1 (by omega)
    rw [e] at e'
    cases e'
    omega
  obtain ⟨y1, y2⟩ := year hs s1 (by omega) hl
  obtain ⟨y1', y2'⟩ := year ht (by omega) t2 hl'
  refine C78_festivals H s t l l' hs hst s1 (by omega) (by omega) hl hl' (Ephem.plain (Ephem.facts hM) y1' (by omega)) ?_
  intro k hk
  obtain ⟨lm, -, d, g⟩ := len hM H (k := k) (by rw [← hk]; exact y1) (by rw [← hk]; exact y2)
  omega

/-- the festivals of 2024-02-09 -/
example : ∃ l l', Lunar.fromSolar (astro Libm.cut) ⟨2024, 2, 9, 8, 0, 0⟩ = .ok l ∧ Lunar.fromSolar (astro Libm.cut) ⟨2024, 2, 10, 8, 0, 0⟩ = .ok l' ∧
    l.getFestivals (astro Libm.cut) = .ok ((lunarFestival l.month l.day).toList ++ if l'.year ≠ l.year then [['除', '夕']] else []) := by
  obtain ⟨l, e, -⟩ := C84_round_trip Libm.cut_good ⟨2024, 2, 9, 8, 0, 0⟩ (by decide) (by decide) (by decide)
  obtain ⟨l', e', -⟩ := C84_round_trip Libm.cut_good ⟨2024, 2, 10, 8, 0, 0⟩ (by decide) (by decide) (by decide)
  exact ⟨l, l', e, e', C86_festivals Libm.cut_good _ ⟨2024, 2, 10, 8, 0, 0⟩ l l' (by decide) (by decide +kernel) (by decide) (by decide) e e'⟩

end
