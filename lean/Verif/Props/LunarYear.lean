import Verif.Proof.LunarYear
import Verif.Proof.Pillars
import Verif.Spec.SampleAlmanac
import Mathlib.Data.List.GetD

/-! # C37, C60: the month list of a lunar year

All statements hold for every choice of the astronomical functions `A`. -/

section
open LunarYear LunarCal

attribute [local irreducible] hsOf leapOf make

/-! ## C37 -/

/-- **C37** the list has 15 months -/
theorem C37_length (A : Astro) (Y : ℤ) : (make A Y).months.length = 15 := months_length A Y

/-- **C37** every month begins on the day after the last day of the month before it -/
theorem C37_contiguous (A : Astro) (Y : ℤ) :
    (make A Y).months.IsChain (fun a b => a.firstJulianDay + a.dayCount = b.firstJulianDay) := by
  rw [List.isChain_iff_getElem]
  intro i h
  have h1 := months_days A Y i _ (List.getElem?_eq_getElem (by omega))
  have h2 := months_days A Y (i + 1) _ (List.getElem?_eq_getElem h)
  rw [h1.1, h1.2, h2.1]
  ring

/-- **C37** outside the two historical eras the list begins with month 11 of the year before, every
month is followed by its leap month or the month with the next number, and there is at most one leap
month in the list. -/
theorem C37_numbering (A : Astro) (Y : ℤ) (h : Plain A Y) :
    ((make A Y).months.head?.map (fun m => (m.year, m.month)) = some (Y - 1, 11)) ∧
    (((make A Y).months.map (fun m => (m.year, m.month))).IsChain Follows) ∧
    (∀ (i j : ℕ) (a b : LunarMonth), (make A Y).months[i]? = some a → (make A Y).months[j]? = some b → a.isLeap → b.isLeap → i = j) := by
  obtain ⟨l1, l2⟩ := leapOf_bounds A Y
  have S := skel_ok _ l1 l2
  have hm := months_skel A Y h
  refine ⟨?_, ?_, ?_⟩
  · have := congrArg List.head? hm
    rw [List.head?_map, List.head?_map, S.head] at this
    cases e : (make A Y).months.head? with
    | none => rw [e] at this; simp at this
    | some m =>
      rw [e] at this
      simp only [Option.map_some, Option.some.injEq, Prod.mk.injEq] at this
      simp only [Option.map_some, this.1, this.2.1]
      rfl
  · have : (make A Y).months.map (fun m => (m.year, m.month)) =
        ((skel (leapOf A Y) 0 15 (-1) (-1) (-1)).map (fun t => (t.1, t.2.1))).map (fun p => (Y + p.1, p.2)) := by
      have := congrArg (List.map (fun t : ℤ × ℤ × ℤ => (t.1, t.2.1))) hm
      simpa only [List.map_map, Function.comp_def] using this
    rw [this, List.isChain_map]
    refine List.IsChain.imp ?_ S.chain
    rintro ⟨a, b⟩ ⟨c, d⟩ hf
    unfold Follows at hf ⊢
    simp only [Prod.mk.injEq] at hf ⊢
    rcases hf with ⟨p, q, r⟩ | ⟨p, q, r⟩ | ⟨p, q, r⟩
    · exact .inl ⟨p, by omega, r⟩
    · exact .inr (.inl ⟨p, by omega, r⟩)
    · exact .inr (.inr ⟨p, by omega, r⟩)
  · have key : ∀ i m, (make A Y).months[i]? = some m → m.isLeap → i = leapOf A Y := by
      intro i m hi hl
      obtain ⟨t, ht, _, e, _⟩ := month_skel A Y h i m hi
      have hlt : i < 15 := by
        by_contra hc
        rw [List.getElem?_eq_none (by rw [S.len]; omega)] at ht
        cases ht
      refine (S.leapPos i hlt t ht).mp ?_
      rw [← e]
      simpa [LunarMonth.isLeap] using hl
    intro i j a b ha hb la lb
    rw [key i a ha la, key j b hb lb]

/-- what the table of the 16 possible positions of the leap month says about the year's own months
(`a`: position of the first, `n`: how many) -/
private def ownOk (l : List (ℤ × ℤ × ℤ)) (a n : ℕ) : Bool :=
  let ns := (l.filter (fun t => t.1 = 0)).map (fun t => t.2.1)
  (n = 12 ∨ n = 13) ∧ ns.length = n ∧ a + n ≤ 15 ∧ (∀ i ∈ List.range 15, ((l.map (fun t => t.1)).getD i 1 = 0 ↔ a ≤ i ∧ i < a + n)) ∧
    ns.head? = some 1 ∧ |ns.getLastD 0| = 12 ∧ (∀ k ∈ List.range 12, ((k + 1 : ℕ) : ℤ) ∈ ns) ∧
    (ns.filter (· < 0)).length = n - 12 ∧ (ns.map (fun k => ((0 : ℤ), k))).IsChain Follows

private theorem own_table (leap : ℕ) (h1 : 1 ≤ leap) (h2 : leap ≤ 16) :
    ∃ a n, ownOk (skel leap 0 15 (-1) (-1) (-1)) a n = true := by
  have key : ∀ leap ∈ List.range 17, 1 ≤ leap → ∃ a ∈ List.range 4, ∃ n ∈ List.range 14,
      ownOk (skel leap 0 15 (-1) (-1) (-1)) a n = true := by decide +kernel
  obtain ⟨a, _, n, _, h⟩ := key leap (by simp; omega) h1
  exact ⟨a, n, h⟩

/-- the year's own months are those of the table -/
private theorem own_months (A : Astro) (Y : ℤ) (h : Plain A Y) :
    (make A Y).getMonthsInYear.map (fun m => m.month) =
      ((skel (leapOf A Y) 0 15 (-1) (-1) (-1)).filter (fun t => t.1 = 0)).map (fun t => t.2.1) := by
  have e := congrArg (fun l => (l.filter (fun t : ℤ × ℤ × ℤ => t.1 = Y)).map (fun t => t.2.1)) (months_skel A Y h)
  simp only [List.filter_map, List.map_map, Function.comp_def] at e
  rw [getMonthsInYear, make_year, e]
  congr 2
  funext t
  simp

/-- **C37** the months the list gives to the year itself (`getMonthsInYear`), outside the eras: they
begin with number 1 and end with 12 or its leap month, all of 1..12 occur, there are 12 of them, or 13
exactly if one is a leap month; each follows the one before. -/
theorem C37_own_months (A : Astro) (Y : ℤ) (h : Plain A Y) :
    let ns := (make A Y).getMonthsInYear.map (fun m => m.month)
    ns.head? = some 1 ∧ |ns.getLastD 0| = 12 ∧ (∀ k : ℤ, 1 ≤ k → k ≤ 12 → k ∈ ns) ∧
    (ns.length = 12 + (ns.filter (· < 0)).length ∧ (ns.filter (· < 0)).length ≤ 1) ∧
    (ns.map (fun k => (Y, k))).IsChain Follows := by
  intro ns
  obtain ⟨l1, l2⟩ := leapOf_bounds A Y
  obtain ⟨a, n, ho⟩ := own_table _ l1 l2
  have hns : ns = _ := own_months A Y h
  unfold ownOk at ho
  rw [← hns] at ho
  simp only [decide_eq_true_eq] at ho
  obtain ⟨p1, hlen, p2, p3, p4, p5, p6, p7, p8⟩ := ho
  refine ⟨p4, p5, ?_, ?_, ?_⟩
  · intro k k1 k2
    have := p6 (k.toNat - 1) (by simp; omega)
    rwa [show ((k.toNat - 1 + 1 : ℕ) : ℤ) = k by omega] at this
  · rw [p7, hlen]; omega
  · have := p8
    rw [List.isChain_map] at this ⊢
    refine List.IsChain.imp ?_ this
    intro b d hf
    unfold Follows at hf ⊢
    simp only [Prod.mk.injEq] at hf ⊢
    rcases hf with ⟨p, q, r⟩ | ⟨p, q, r⟩ | ⟨p, q, r⟩
    · exact .inl ⟨p, by omega, r⟩
    · exact .inr (.inl ⟨p, by omega, r⟩)
    · omega

/-- **C37** `getDayCount` is the number of days from the first day of the year's first month to the
last day of its last month -/
theorem C37_day_count (A : Astro) (Y : ℤ) (h : Plain A Y) :
    ∃ f z, (make A Y).getMonthsInYear.head? = some f ∧ (make A Y).getMonthsInYear.getLast? = some z ∧
      (make A Y).getDayCount = z.firstJulianDay + z.dayCount - f.firstJulianDay := by
  obtain ⟨l1, l2⟩ := leapOf_bounds A Y
  obtain ⟨a, n, ho⟩ := own_table _ l1 l2
  have S := skel_ok _ l1 l2
  unfold ownOk at ho
  simp only [decide_eq_true_eq] at ho
  obtain ⟨p1, -, p2, p3, -⟩ := ho
  have hlen := months_length A Y
  have hsl : (make A Y).getMonthsInYear = ((make A Y).months.drop a).take n := by
    rw [getMonthsInYear, make_year]
    apply filter_slice
    intro i m hm
    obtain ⟨t, ht, e, _⟩ := month_skel A Y h i m hm
    have hi : i < 15 := by
      by_contra hc
      rw [List.getElem?_eq_none (by omega)] at hm
      cases hm
    have := p3 i (by simpa using hi)
    rw [List.getD_eq_getElem?_getD, List.getElem?_map, ht, Option.map_some, Option.getD_some] at this
    rw [← this, decide_eq_true_eq, e]
    omega
  have hget : ∀ i (_ : i < n), ((make A Y).getMonthsInYear)[i]? = some ((make A Y).months[a + i]'(by omega)) := by
    intro i hi
    rw [hsl, List.getElem?_take_of_lt hi, List.getElem?_drop]
    exact List.getElem?_eq_getElem _
  have hl : ((make A Y).getMonthsInYear).length = n := by
    rw [hsl, List.length_take, List.length_drop]; omega
  have hd : ∀ i (hi : a + i < (make A Y).months.length), _ := fun i hi => months_days A Y (a + i) _ (List.getElem?_eq_getElem hi)
  refine ⟨(make A Y).months[a]'(by omega), (make A Y).months[a + (n - 1)]'(by omega), ?_, ?_, ?_⟩
  · rw [List.head?_eq_getElem?, hget 0 (by omega)]
    rfl
  · rw [List.getLast?_eq_getElem?, hl, hget (n - 1) (by omega)]
  · have e1 := hd (n - 1) (by omega)
    have e2 := months_days A Y a _ (List.getElem?_eq_getElem (show a < (make A Y).months.length by omega))
    rw [e1.1, e1.2, e2.1]
    have hc := slice_days (hsOf A Y) n (make A Y).getMonthsInYear a hl (fun i m hm => by
      have hi : i < n := by
        by_contra hc
        rw [List.getElem?_eq_none (by omega)] at hm
        cases hm
      rw [hget i hi] at hm
      cases hm
      exact (hd i (by omega)).2)
    have : (make A Y).getDayCount = ((make A Y).getMonthsInYear.map LunarMonth.dayCount).sum := rfl
    rw [this, hc, show a + (n - 1) + 1 = a + n by omega]
    ring

/-- **C37** `getMonth` finds exactly the months of `getMonthsInYear`, by number -/
theorem C37_get_month (A : Astro) (Y k : ℤ) :
    (∀ m, (make A Y).getMonth k = some m → m ∈ (make A Y).getMonthsInYear ∧ m.year = Y ∧ m.month = k) ∧
    ((make A Y).getMonth k = none ↔ ∀ m ∈ (make A Y).getMonthsInYear, m.month ≠ k) := by
  unfold getMonth getMonthsInYear
  rw [make_year]
  constructor
  · intro m hm
    have h1 := List.find?_some hm
    have h2 := List.mem_of_find?_eq_some hm
    simp only [decide_eq_true_eq] at h1
    exact ⟨List.mem_filter.mpr ⟨h2, by simpa using h1.1⟩, h1⟩
  · rw [List.find?_eq_none]
    simp only [List.mem_filter, decide_eq_true_eq, not_and, and_imp]

/-- **C37** `getLeapMonth` is the number of the year's only leap month, 0 if it has none -/
theorem C37_leap_month (A : Astro) (Y : ℤ) (h : Plain A Y) :
    ((make A Y).getLeapMonth = 0 ∧ ∀ m ∈ (make A Y).getMonthsInYear, 0 < m.month) ∨
    ∃ k, 1 ≤ k ∧ k ≤ 12 ∧ (make A Y).getLeapMonth = k ∧ ((make A Y).getMonth (-k)).isSome = true ∧
      ∀ m ∈ (make A Y).getMonthsInYear, m.month < 0 → m.month = -k := by
  obtain ⟨l1, l2⟩ := leapOf_bounds A Y
  have range : ∀ leap ∈ List.range 17, 1 ≤ leap → ∀ t ∈ skel leap 0 15 (-1) (-1) (-1), 1 ≤ |t.2.1| ∧ |t.2.1| ≤ 12 := by
    decide +kernel
  have hr : ∀ m ∈ (make A Y).months, 1 ≤ |m.month| ∧ |m.month| ≤ 12 := by
    intro m hm
    obtain ⟨i, hi⟩ := List.getElem?_of_mem hm
    obtain ⟨t, ht, _, e, _⟩ := month_skel A Y h i m hi
    rw [e]
    exact range _ (by simp; omega) l1 t (List.mem_of_getElem? ht)
  obtain ⟨_, _, hu⟩ := C37_numbering A Y h
  unfold getLeapMonth getMonthsInYear
  rw [make_year]
  cases e : (make A Y).months.find? (fun m => m.year = Y ∧ m.isLeap) with
  | none =>
    left
    refine ⟨rfl, fun m hm => ?_⟩
    obtain ⟨a, b⟩ := List.mem_filter.mp hm
    have h1 := List.find?_eq_none.mp e m a
    have h2 := hr m a
    simp only [LunarMonth.isLeap, decide_eq_true_eq, not_and] at h1 b
    have := h1 b
    rcases abs_cases m.month with c | c <;> omega
  | some z =>
    right
    have h1 := List.find?_some e
    have hz := List.mem_of_find?_eq_some e
    simp only [decide_eq_true_eq] at h1
    have hz2 : z.month < 0 := by simpa [LunarMonth.isLeap] using h1.2
    refine ⟨|z.month|, (hr z hz).1, (hr z hz).2, rfl, ?_, ?_⟩
    · rw [abs_of_neg hz2, neg_neg, Option.isSome_iff_ne_none]
      intro hn
      exact (C37_get_month A Y z.month).2.mp hn z (by
        unfold getMonthsInYear
        rw [make_year]
        exact List.mem_filter.mpr ⟨hz, by simpa using h1.1⟩) rfl
    · intro m hm hneg
      obtain ⟨i, hi⟩ := List.getElem?_of_mem (List.mem_filter.mp hm).1
      obtain ⟨j, hj⟩ := List.getElem?_of_mem hz
      have := hu i j m z hi hj (by simpa [LunarMonth.isLeap] using hneg) h1.2
      subst this
      rw [hi] at hj
      cases hj
      rw [abs_of_neg hneg]
      ring

/-- C37 on the sample almanac: 2023 with its leap second month -/
example : Plain Sample.astro 2023 ∧
    (make Sample.astro 2023).getMonthsInYear.map (fun m => m.month) = [1, 2, -2, 3, 4, 5, 6, 7, 8, 9, 10, 11, 12] ∧
    (make Sample.astro 2023).getLeapMonth = 2 ∧ (make Sample.astro 2023).getDayCount = 384 := by
  unfold Plain
  decide +kernel

/-! ## C61 -/

private theorem leapLoop_spec (hs jq : List ℤ) (h : hs.getD 13 0 ≤ jq.getD 24 0) : ∀ n i : ℕ, 12 - i ≤ n → i ≤ 12 →
    hs.getD (leapLoop hs jq i + 1) 0 ≤ jq.getD (2 * leapLoop hs jq i) 0 ∧
    ∀ j, i ≤ j → j < leapLoop hs jq i → jq.getD (2 * j) 0 < hs.getD (j + 1) 0 := by
  intro n
  induction n with
  | zero =>
    intro i a b
    obtain rfl : i = 12 := by omega
    rw [leapLoop, if_neg (by norm_num; exact h)]
    exact ⟨h, fun j p q => by omega⟩
  | succ n ih =>
    intro i a b
    rw [leapLoop]
    split_ifs with c
    · have hi : i ≠ 12 := by rintro rfl; exact absurd h (not_le.mpr c.1)
      obtain ⟨p, q⟩ := ih (i + 1) (by omega) (by omega)
      refine ⟨p, fun j r t => ?_⟩
      by_cases e : j = i
      · rw [e]; exact c.1
      · exact q j (by omega) t
    · push Not at c
      refine ⟨?_, fun j p q => by omega⟩
      by_contra hc
      have := c (by omega)
      omega

/-- **C61** the leap month has no principal term (中气).  `jq` are the days the library computes for the
solar terms from the winter solstice of `Y - 1` on, principal terms at even places.  If they are in
order, the solstice lies in the first month of the list, and `Y` is not one of the years for which the
code has the leap month written in, then no principal term falls on a day of a leap month of the list. -/
theorem C61_leap_month_without_term (A : Astro) (Y : ℤ) (h : Plain A Y) (h11 : Y ∉ LEAP_11) (h12 : Y ∉ LEAP_12)
    (hjq : (computeJq A Y).Pairwise (· < ·))
    (h0 : ∃ m, (make A Y).months.head? = some m ∧ (computeJq A Y).getD 0 0 + 2451545 < m.firstJulianDay + m.dayCount)
    (m : LunarMonth) (hm : m ∈ (make A Y).months) (hl : m.isLeap) (j : ℕ) (hj : j ≤ 12) :
    ¬ (m.firstJulianDay ≤ (computeJq A Y).getD (2 * j) 0 + 2451545 ∧
      (computeJq A Y).getD (2 * j) 0 + 2451545 < m.firstJulianDay + m.dayCount) := by
  obtain ⟨l1, l2⟩ := leapOf_bounds A Y
  have S := skel_ok _ l1 l2
  obtain ⟨i, hi⟩ := List.getElem?_of_mem hm
  obtain ⟨t, ht, _, e, _⟩ := month_skel A Y h i m hi
  have hlt : i < 15 := by
    by_contra hc
    rw [List.getElem?_eq_none (by rw [S.len]; omega)] at ht
    cases ht
  have hil : i = leapOf A Y := by
    refine (S.leapPos i hlt t ht).mp ?_
    rw [← e]
    simpa [LunarMonth.isLeap] using hl
  obtain ⟨d1, d2⟩ := months_days A Y i m hi
  obtain ⟨m0, e0, k0⟩ := h0
  obtain ⟨d3, d4⟩ := months_days A Y 0 m0 (by rw [← List.head?_eq_getElem?]; exact e0)
  rw [d3, d4] at k0
  unfold LunarYear.J2000 at *
  have hlen : (computeJq A Y).length = 26 := by unfold computeJq; simp
  have hmono : ∀ a b : ℕ, a ≤ b → b < 26 → (computeJq A Y).getD a 0 ≤ (computeJq A Y).getD b 0 := by
    intro a b hab hb
    rcases Nat.lt_or_ge a b with c | c
    · have := List.pairwise_iff_getElem.mp hjq a b (by omega) (by omega) c
      rw [List.getD_eq_getElem _ _ (by omega), List.getD_eq_getElem _ _ (by omega)]
      exact this.le
    · obtain rfl : a = b := by omega
      exact le_rfl
  by_cases hc : (hsOf A Y).getD 13 0 ≤ (computeJq A Y).getD 24 0
  · have hle : leapOf A Y = leapLoop (hsOf A Y) (computeJq A Y) 1 := by
      unfold leapOf leapIndex
      rw [if_neg h11, if_neg h12, if_pos hc]
    obtain ⟨p, q⟩ := leapLoop_spec _ _ hc 11 1 (by norm_num) (by norm_num)
    rw [← hle, ← hil] at p q
    rw [d1, d2]
    rintro ⟨u, v⟩
    have hi12 : i ≤ 12 := by rw [hil, hle]; exact leapLoop_le _ _ hc
    rcases Nat.lt_or_ge j i with c | c
    · -- terms before: at or before the one of the preceding month
      have hprev : (computeJq A Y).getD (2 * (i - 1)) 0 < (hsOf A Y).getD i 0 := by
        rcases Nat.lt_or_ge 1 i with c1 | c1
        · have := q (i - 1) (by omega) (by omega)
          rwa [show i - 1 + 1 = i by omega] at this
        · obtain rfl : i = 1 := by omega
          norm_num
          norm_num at k0
          omega
      have := hmono (2 * j) (2 * (i - 1)) (by omega) (by omega)
      omega
    · have := hmono (2 * i) (2 * j) (by omega) (by omega)
      omega
  · have : leapOf A Y = 16 := by
      unfold leapOf leapIndex
      rw [if_neg h11, if_neg h12, if_neg hc]
    omega

/-- **C61** and there is a leap month in the list exactly when the solstice at its end falls into the
14th month or later, i.e. there are 13 months between the months of the two solstices. -/
theorem C61_leap_month_exists (A : Astro) (Y : ℤ) (h : Plain A Y) (h11 : Y ∉ LEAP_11) (h12 : Y ∉ LEAP_12)
    (m : LunarMonth) (hm : (make A Y).months[13]? = some m) :
    (∃ a ∈ (make A Y).months, a.isLeap) ↔ m.firstJulianDay ≤ (computeJq A Y).getD 24 0 + 2451545 := by
  obtain ⟨l1, l2⟩ := leapOf_bounds A Y
  have S := skel_ok _ l1 l2
  have e1 := (months_days A Y 13 m hm).1
  unfold LunarYear.J2000 at e1
  have hlen := months_length A Y
  constructor
  · rintro ⟨a, ha, hl⟩
    obtain ⟨i, hi⟩ := List.getElem?_of_mem ha
    obtain ⟨t, ht, _, e, _⟩ := month_skel A Y h i a hi
    have hlt : i < 15 := by
      by_contra hc
      rw [List.getElem?_eq_none (by rw [S.len]; omega)] at ht
      cases ht
    have hil : i = leapOf A Y := by
      refine (S.leapPos i hlt t ht).mp ?_
      rw [← e]
      simpa [LunarMonth.isLeap] using hl
    by_contra hc
    have : leapOf A Y = 16 := by
      unfold leapOf leapIndex
      rw [if_neg h11, if_neg h12, if_neg (by omega)]
    omega
  · intro hc
    have hle : leapOf A Y = leapLoop (hsOf A Y) (computeJq A Y) 1 := by
      unfold leapOf leapIndex
      rw [if_neg h11, if_neg h12, if_pos (by omega)]
    have hb := leapLoop_le (hsOf A Y) (computeJq A Y) (by omega)
    rw [← hle] at hb
    have e := List.getElem?_eq_getElem (l := (make A Y).months) (i := leapOf A Y) (by omega)
    refine ⟨_, List.mem_of_getElem? e, ?_⟩
    obtain ⟨t, ht, _, et, _⟩ := month_skel A Y h _ _ e
    have := (S.leapPos _ (by omega) t ht).mpr rfl
    rw [← et] at this
    simpa [LunarMonth.isLeap] using this

/-- the hypotheses (`Plain` is shown above) hold for 2023 of the sample almanac; its leap second month
runs from 2023-03-22 (one day after 春分) to 2023-04-19 (one day before 谷雨) -/
example : (2023 : ℤ) ∉ LEAP_11 ∧ (2023 : ℤ) ∉ LEAP_12 ∧ (computeJq Sample.astro 2023).Pairwise (· < ·) ∧
    (∃ m ∈ (make Sample.astro 2023).months.head?,
      (computeJq Sample.astro 2023).getD 0 0 + 2451545 < m.firstJulianDay + m.dayCount) ∧
    (∃ m ∈ (make Sample.astro 2023).months, m.isLeap ∧ m.firstJulianDay = (computeJq Sample.astro 2023).getD 6 0 + 2451545 + 1 ∧
      m.firstJulianDay + m.dayCount = (computeJq Sample.astro 2023).getD 8 0 + 2451545) := by
  decide +kernel

/-! ## C60 -/

private def ownIdx (l : List (ℤ × ℤ × ℤ)) : Bool :=
  let own := l.filter (fun t => t.1 = 0)
  ∀ i ∈ List.range own.length,
    let t := own.getD i (0, 0, 0)
    t.2.2 = i + 1 ∧
    (if (List.range (i + 1)).all (fun j => decide (0 < (own.getD j (0, 0, 0)).2.1)) = true then t.2.1 = i + 1 else |t.2.1| = i)

private theorem own_index (A : Astro) (Y : ℤ) (h : Plain A Y) (i : ℕ) (m : LunarMonth)
    (hm : (make A Y).getMonthsInYear[i]? = some m) : m.index = i + 1 ∧
      ((∀ j ≤ i, ∀ a, (make A Y).getMonthsInYear[j]? = some a → 0 < a.month) → m.month = i + 1) ∧
      ((∃ j ≤ i, ∃ a, (make A Y).getMonthsInYear[j]? = some a ∧ a.month < 0) → |m.month| = i) := by
  obtain ⟨l1, l2⟩ := leapOf_bounds A Y
  have key : ∀ leap ∈ List.range 17, 1 ≤ leap → ownIdx (skel leap 0 15 (-1) (-1) (-1)) = true := by decide +kernel
  have hk := key _ (by simp; omega) l1
  have e : (make A Y).getMonthsInYear.map (fun m => (m.month, m.index)) =
      ((skel (leapOf A Y) 0 15 (-1) (-1) (-1)).filter (fun t => t.1 = 0)).map (fun t => (t.2.1, t.2.2)) := by
    have e := congrArg (fun l => (l.filter (fun t : ℤ × ℤ × ℤ => t.1 = Y)).map (fun t => (t.2.1, t.2.2))) (months_skel A Y h)
    simp only [List.filter_map, List.map_map, Function.comp_def] at e
    rw [getMonthsInYear, make_year, e]
    congr 2
    funext t
    simp
  generalize (make A Y).getMonthsInYear = own at e hm ⊢
  generalize hg : skel (leapOf A Y) 0 15 (-1) (-1) (-1) = sk at e hk
  unfold ownIdx at hk
  simp only [decide_eq_true_eq] at hk
  generalize sk.filter (fun t => decide (t.1 = 0)) = so at e hk
  have hget : ∀ (j : ℕ) a, own[j]? = some a → j < so.length ∧ a.month = (so.getD j (0, 0, 0)).2.1 ∧
      a.index = (so.getD j (0, 0, 0)).2.2 := by
    intro j a ha
    have := congrArg (fun l => l[j]?) e
    simp only [List.getElem?_map, ha, Option.map_some] at this
    rw [List.getD_eq_getElem?_getD]
    cases c : so[j]? with
    | none => rw [c] at this; simp at this
    | some t =>
      rw [c] at this
      simp only [Option.map_some, Option.some.injEq, Prod.mk.injEq] at this
      exact ⟨(List.getElem?_eq_some_iff.mp c).1, this⟩
  have hlen : own.length = so.length := by simpa using congrArg List.length e
  obtain ⟨hi, e1, e2⟩ := hget i m hm
  obtain ⟨k1, k2⟩ := hk i (by simpa using hi)
  refine ⟨by rw [e2, k1], ?_, ?_⟩
  · intro hp
    rw [if_pos, ← e1] at k2
    · exact k2
    · rw [List.all_eq_true]
      intro j hj
      rw [decide_eq_true_eq]
      have hj' : j ≤ i := by simpa [Nat.lt_succ_iff] using hj
      have hjl : j < own.length := by omega
      have := hp j hj' _ (List.getElem?_eq_getElem hjl)
      rwa [(hget j _ (List.getElem?_eq_getElem hjl)).2.1] at this
  · rintro ⟨j, hj, a, ha, hneg⟩
    rw [if_neg, ← e1] at k2
    · exact k2
    · intro hc
      have := List.all_eq_true.mp hc j (by simp; omega)
      rw [decide_eq_true_eq, ← (hget j a ha).2.1] at this
      omega

theorem pillar_of_index (A : Astro) (m : LunarMonth) :
    m.getGanZhi A = .ok (Spec.ganZhi (12 * (m.year - 4) + 1 + m.index)) := by
  have : m.getGanZhi A = Lunar.pair (m.getGanIndex A) m.zhiIndex := rfl
  rw [this]
  apply Lunar.pair_eq
  · unfold LunarMonth.getGanIndex
    rw [make_ganIndex]
    dsimp only
    omega
  · unfold LunarMonth.zhiIndex LunarUtil.BASE_MONTH_ZHI_INDEX
    omega

/-- **C60** the pillar of a month as listed by its own year, when neither it nor an earlier month of
the year is a leap month: by the five-tigers rule, number `12 (Y - 4) + 1 + m`, branch 寅 for m = 1. -/
theorem C60_month_pillar_partial (A : Astro) (Y : ℤ) (h : Plain A Y) (i : ℕ) (m : LunarMonth)
    (hm : (make A Y).getMonthsInYear[i]? = some m)
    (hn : ∀ j ≤ i, ∀ a, (make A Y).getMonthsInYear[j]? = some a → 0 < a.month) :
    m.getGanZhi A = .ok (Spec.ganZhi (12 * (Y - 4) + 1 + m.month)) := by
  obtain ⟨h1, h2, -⟩ := own_index A Y h i m hm
  have hy : m.year = Y := by
    have := (List.mem_filter.mp (List.mem_of_getElem? hm)).2
    simpa [make_year] using this
  rw [pillar_of_index, h1, h2 hn, hy]

/-- **C60** after a leap month this fails in *every* year that has one: each later month of the year
gets the pillar of the month after it. -/
theorem C60_after_leap_violated (A : Astro) (Y : ℤ) (h : Plain A Y) (i j : ℕ) (m a : LunarMonth) (hij : j < i)
    (ha : (make A Y).getMonthsInYear[j]? = some a) (hleap : a.month < 0)
    (hm : (make A Y).getMonthsInYear[i]? = some m) :
    m.getGanZhi A = .ok (Spec.ganZhi (12 * (Y - 4) + 1 + (|m.month| + 1))) ∧
    m.getGanZhi A ≠ .ok (Spec.ganZhi (12 * (Y - 4) + 1 + |m.month|)) := by
  obtain ⟨h1, -, h2⟩ := own_index A Y h i m hm
  have h2 := h2 ⟨j, hij.le, a, ha, hleap⟩
  have hy : m.year = Y := by
    have := (List.mem_filter.mp (List.mem_of_getElem? hm)).2
    simpa [make_year] using this
  rw [pillar_of_index, h1, h2, hy]
  refine ⟨rfl, fun hc => ?_⟩
  have hc := Except.ok.inj hc
  have key : ∀ n : ℤ, Spec.ganZhi (n + 1) ≠ Spec.ganZhi n := by
    intro n hn
    have : Spec.stem (n + 1) = Spec.stem n := by simpa [Spec.ganZhi] using congrArg List.head? hn
    rw [← Lunar.stem_emod, ← Lunar.stem_emod n, Int.add_emod] at this
    have r1 : 0 ≤ n % 10 := by omega
    have r2 : n % 10 < 10 := by omega
    generalize n % 10 = r at this r1 r2
    interval_cases r <;> exact absurd this (by decide)
  rw [← add_assoc] at hc
  exact key _ hc

/-- C60: in 2023 (leap month 2), month 3 is given the pillar 丁巳 of month 4; the one of the
five-tigers rule is 丙辰.  In 2024 (no leap month) month 3 is 戊辰 as it should be. -/
example : ((make Sample.astro 2023).getMonth 3).map (fun m => m.getGanZhi Sample.astro) = some (.ok ['丁', '巳']) ∧
    ((make Sample.astro 2024).getMonth 3).map (fun m => m.getGanZhi Sample.astro) = some (.ok ['戊', '辰']) := by
  decide +kernel

/-- **C60** the same month read from the lists of two years gets different pillars: the 11th month of
2023 in the lists of 2023 and 2024 -/
theorem C60_two_lists_violated :
    ∃ a ∈ (make Sample.astro 2023).months, ∃ b ∈ (make Sample.astro 2024).months,
      (a.year, a.month, a.dayCount, a.firstJulianDay) = (b.year, b.month, b.dayCount, b.firstJulianDay) ∧
      a.getGanZhi Sample.astro ≠ b.getGanZhi Sample.astro := by
  decide +kernel

end
