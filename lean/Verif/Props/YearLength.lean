import Verif.Proof.Ephem.Own
import Verif.Props.NewYear

/-! # C93: the length of lunar years

`LunarYear.getDayCount` adds the lengths of the year's months.  That a year of twelve months never has 352 or 356 days, and one with a
leap month never 382 or 386, does not follow from the lengths of the months; it needs bounds for the series over a year. -/

section
open Spec LunarYear ShouXing Ephem

variable {M : Libm}

/-- a year has thirteen months exactly if it has a leap month -/
private theorem leap_length (A : Astro) (Y : ℤ) (h : Plain A Y) :
    ((make A Y).getLeapMonth = 0 → (make A Y).getMonthsInYear.length = 12) ∧ ((make A Y).getLeapMonth ≠ 0 → (make A Y).getMonthsInYear.length = 13) := by
  obtain ⟨-, -, -, ⟨l1, l2⟩, -⟩ := C37_own_months A Y h
  rw [List.length_map] at l1
  rcases C37_leap_month A Y h with ⟨e, hp⟩ | ⟨k, k1, k2, e, hs, -⟩
  · refine ⟨fun _ => ?_, fun c => absurd e c⟩
    rw [l1, Nat.add_eq_left, List.length_eq_zero_iff, List.filter_eq_nil_iff]
    intro x hx
    obtain ⟨m, hm, rfl⟩ := List.mem_map.1 hx
    have := hp m hm
    simp only [decide_eq_true_eq]
    omega
  · refine ⟨fun c => by omega, fun _ => ?_⟩
    obtain ⟨m, hm⟩ := Option.isSome_iff_exists.1 hs
    obtain ⟨a, -, b⟩ := (C37_get_month A Y (-k)).1 m hm
    have : m.month ∈ ((make A Y).getMonthsInYear.map (fun m => m.month)).filter (· < 0) :=
      List.mem_filter.2 ⟨List.mem_map.2 ⟨m, a, rfl⟩, by rw [decide_eq_true_eq]; omega⟩
    have := List.length_pos_of_mem this
    omega

/-- **C93** the number of days of a lunar year: 353, 354 or 355 without a leap month, 383, 384 or 385 with one -/
theorem C93_day_count (hM : M.Good) (Y : ℤ) (h1 : 1585 ≤ Y) (h2 : Y ≤ 4999) :
    ((make (astro M) Y).getLeapMonth = 0 → (make (astro M) Y).getMonthsInYear.length = 12 ∧
      353 ≤ (make (astro M) Y).getDayCount ∧ (make (astro M) Y).getDayCount ≤ 355) ∧
    ((make (astro M) Y).getLeapMonth ≠ 0 → (make (astro M) Y).getMonthsInYear.length = 13 ∧
      383 ≤ (make (astro M) Y).getDayCount ∧ (make (astro M) Y).getDayCount ≤ 385) := by
  obtain ⟨a, b⟩ := leap_length (astro M) Y (plain (full hM).toFacts (by omega) (by omega))
  obtain ⟨k, n, q1, -, -, -, q⟩ := year_days hM h1 h2
  constructor
  · intro h
    have := a h
    exact ⟨this, by omega⟩
  · intro h
    have := b h
    exact ⟨this, by omega⟩

/-- the year 3000 has one of these lengths -/
example : (make (astro Libm.cut) 3000).getDayCount ∈ ([353, 354, 355, 383, 384, 385] : List ℤ) := by
  obtain ⟨a, b⟩ := C93_day_count Libm.cut_good 3000 (by norm_num) (by norm_num)
  simp only [List.mem_cons, List.not_mem_nil, or_false]
  by_cases c : (make (astro Libm.cut) 3000).getLeapMonth = 0
  · have := a c; omega
  · have := b c; omega

/-- **C93** from a New Year it is `getDayCount` days to the next -/
theorem C93_next_new_year (hM : M.Good) (s : Solar) (l : Lunar) (hs : s.Valid) (h1 : 1585 ≤ s.year) (h2 : s.year ≤ 4998)
    (hl : Lunar.fromSolar (astro M) s = .ok l) (hm : l.month = 1) (hd : l.day = 1) :
    ∃ t l', s.next (make (astro M) l.year).getDayCount = .ok t ∧ t.Valid ∧ Lunar.fromSolar (astro M) t = .ok l' ∧
      l'.year = l.year + 1 ∧ l'.month = 1 ∧ l'.day = 1 := by
  have hy := (C92_new_year hM s l hs h1 (by omega) hl hm hd).1
  obtain ⟨k, n, -, q, q0, q1, -⟩ := year_days hM (Y := l.year) (by omega) (by omega)
  obtain ⟨l0, e, -, -, -, -, j, f3, f4, f5, f6⟩ := C38_round_trip (almanac (full hM)) s hs (by omega) (by omega)
  rw [hl] at e
  cases e
  obtain rfl : j = k := (almanac (full hM)).key_inj _ _ (by rw [← f3, q0, hm])
  obtain ⟨t, g1, ht, -, gd⟩ := Cal.nextDay_spec hs (make (astro M) l.year).getDayCount
  rw [hd, add_sub_cancel_right, isDay_iff hs.1] at f6
  have jt : JD.jdn t.date = (almanac (full hM)).first (j + n) := by
    have := JD.jdn_eq hs.1
    have := JD.jdn_eq ht.1
    omega
  have S := sunAlmanac (full hM)
  -- the solar year of `t`
  obtain ⟨k', x, hk', hx, hn, xy⟩ := S.newYear (l.year + 1) (by omega) (by omega)
  obtain rfl : j + n = k' := (almanac (full hM)).key_inj _ _ (by rw [q1, hk'])
  rw [isDay_iff hx] at hn
  have ty : t.year = l.year + 1 := by
    have a := year_mono ht.1 hx (by omega)
    have b := year_mono hx ht.1 (by omega)
    change t.year ≤ x.y at a
    change x.y ≤ t.year at b
    omega
  obtain ⟨l', e', -, -, -, -, i, r3, r4, r5, r6⟩ := C38_round_trip (almanac (full hM)) t ht (by omega) (by omega)
  rw [isDay_iff ht.1] at r6
  have fm : StrictMono (almanac (full hM)).first := strictMono_int_of_lt_succ (almanac (full hM)).first_lt
  obtain rfl : i = j + n := by
    have a : i < j + n + 1 := by rw [← fm.lt_iff_lt]; have := (almanac (full hM)).first_lt (j + n); omega
    have b : j + n < i + 1 := by rw [← fm.lt_iff_lt]; omega
    omega
  rw [q1, Prod.mk.injEq] at r3
  exact ⟨t, l', g1, ht, e', r3.1, r3.2, by omega⟩

/-- the New Years of 2500 and 2501 -/
example : ∃ s t l l', Lunar.fromSolar (astro Libm.cut) s = .ok l ∧ l.year = 2500 ∧ s.next (make (astro Libm.cut) 2500).getDayCount = .ok t ∧
    Lunar.fromSolar (astro Libm.cut) t = .ok l' ∧ l'.year = 2501 ∧ l'.month = 1 ∧ l'.day = 1 := by
  obtain ⟨l, e, v, f, y, h⟩ := C92_exists Libm.cut_good 2500 (by norm_num) (by norm_num)
  obtain ⟨g, -⟩ := C39_round_trip (almanac (full Libm.cut_good)) 2500 1 1 0 0 0 l (by norm_num) (by norm_num) e
  simp only [Prod.mk.injEq] at g
  obtain ⟨t, l', a, -, b, c⟩ := C93_next_new_year Libm.cut_good l.solar l v (by omega) (by omega) f g.2.1 g.2.2.1
  rw [g.1] at a c
  exact ⟨l.solar, t, l, l', f, g.1, a, b, c⟩

end
