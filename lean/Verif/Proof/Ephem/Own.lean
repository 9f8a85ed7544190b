import Verif.Proof.Ephem.NewYear
import Verif.Proof.Lunation.YearDays
import Verif.Props.LunarYear

/-! # The months of a lunar year -/

open LunarYear ShouXing

/-- where the year's own months are, for the 16 possible positions of the leap month -/
private def sliceOk (l : List (ℤ × ℤ × ℤ)) (a n : ℕ) : Bool :=
  (n = 12 ∨ n = 13) ∧ a + n ≤ 15 ∧ ∀ i ∈ List.range 15, ((l.map (fun t => t.1)).getD i 1 = 0 ↔ a ≤ i ∧ i < a + n)

/-- the year's own months are a stretch of its list -/
theorem own_slice (A : Astro) (Y : ℤ) (h : Plain A Y) : ∃ a n : ℕ, (n = 12 ∨ n = 13) ∧ a + n ≤ 15 ∧
    (make A Y).getMonthsInYear = ((make A Y).months.drop a).take n ∧
    ∀ i m, (make A Y).months[i]? = some m → (m.year = Y ↔ a ≤ i ∧ i < a + n) := by
  obtain ⟨l1, l2⟩ := leapOf_bounds A Y
  have key : ∀ leap ∈ List.range 17, 1 ≤ leap → ∃ a ∈ List.range 4, ∃ n ∈ List.range 14,
      sliceOk (skel leap 0 15 (-1) (-1) (-1)) a n = true := by decide +kernel
  obtain ⟨a, _, n, _, ho⟩ := key (leapOf A Y) (by simp; omega) l1
  unfold sliceOk at ho
  simp only [decide_eq_true_eq] at ho
  obtain ⟨p1, p2, p3⟩ := ho
  have hlen := months_length A Y
  have hm : ∀ i m, (make A Y).months[i]? = some m → (m.year = Y ↔ a ≤ i ∧ i < a + n) := by
    intro i m hm
    obtain ⟨t, ht, e, _⟩ := month_skel A Y h i m hm
    have hi : i < 15 := by
      by_contra hc
      rw [List.getElem?_eq_none (by omega)] at hm
      cases hm
    have := p3 i (by simpa using hi)
    rw [List.getD_eq_getElem?_getD, List.getElem?_map, ht, Option.map_some, Option.getD_some] at this
    rw [← this, e]
    omega
  refine ⟨a, n, p1, p2, ?_, hm⟩
  rw [getMonthsInYear, make_year]
  apply filter_slice
  intro i m h'
  rw [decide_eq_true_eq]
  exact hm i m h'

/-- the months of lunar year `Y` in the sequence of all months -/
theorem own_year {A : Astro} {lo hi : ℤ} (H : Almanac A lo hi) {Y : ℤ} (h : Plain A Y) (h1 : lo ≤ Y) (h2 : Y ≤ hi) : ∃ a n : ℕ,
    (n = 12 ∨ n = 13) ∧ a + n ≤ 15 ∧ (make A Y).getMonthsInYear.length = n ∧
    (make A Y).getDayCount = H.first (H.start Y + a + n) - H.first (H.start Y + a) ∧ H.key (H.start Y + a) = (Y, 1) ∧
    ∀ k, (H.key k).1 = Y ↔ H.start Y + a ≤ k ∧ k < H.start Y + a + n := by
  obtain ⟨a, n, p1, p2, p3, p4⟩ := own_slice A Y h
  have hlen := months_length A Y
  have hl : (make A Y).getMonthsInYear.length = n := by rw [p3, List.length_take, List.length_drop]; omega
  have hget : ∀ i, i < n → (make A Y).getMonthsInYear[i]? = (make A Y).months[a + i]? := by
    intro i hi
    rw [p3, List.getElem?_take_of_lt hi, List.getElem?_drop]
  have win : ∀ i, i < n → ∃ m, (make A Y).getMonthsInYear[i]? = some m ∧ (m.year, m.month) = H.key (H.start Y + a + i) ∧
      m.firstJulianDay = H.first (H.start Y + a + i) ∧ m.dayCount = H.first (H.start Y + a + i + 1) - H.first (H.start Y + a + i) := by
    intro i hi
    rw [hget i hi]
    have := H.window Y h1 h2 (a + i) (by omega)
    push_cast at this
    rwa [← add_assoc] at this
  obtain ⟨f, z, e1, e2, e3⟩ := C37_day_count A Y h
  rw [List.head?_eq_getElem?] at e1
  rw [List.getLast?_eq_getElem?, hl] at e2
  obtain ⟨f', f1, f2, f3, -⟩ := win 0 (by omega)
  obtain ⟨z', z1, -, z3, z4⟩ := win (n - 1) (by omega)
  rw [e1] at f1
  rw [e2] at z1
  cases f1
  cases z1
  have zero : H.start Y + a + ((0 : ℕ) : ℤ) = H.start Y + a := by push_cast; ring
  have last : H.start Y + a + ((n - 1 : ℕ) : ℤ) + 1 = H.start Y + a + n := by omega
  rw [zero] at f2 f3
  rw [last] at z4
  refine ⟨a, n, p1, p2, hl, by rw [e3, z3, z4, f3]; ring, ?_, ?_⟩
  · have m1 := (C37_own_months A Y h).1
    rw [List.head?_map, List.head?_eq_getElem?, e1, Option.map_some] at m1
    have y := (p4 a f (by rw [← e1, hget 0 (by omega)]; rfl)).2 ⟨le_rfl, by omega⟩
    rw [← f2, y, Option.some.inj m1]
  · intro k
    constructor
    · intro hk
      obtain ⟨b1, b2⟩ := H.home k (by omega) (by omega)
      rw [hk] at b1 b2
      obtain ⟨m, q1, q2, -⟩ := H.window Y h1 h2 (k - H.start Y).toNat (by omega)
      rw [show H.start Y + ((k - H.start Y).toNat : ℤ) = k by omega] at q2
      have := (p4 _ m q1).1 (by rw [← hk, ← q2])
      omega
    · rintro ⟨b1, b2⟩
      obtain ⟨m, q1, q2, -⟩ := H.window Y h1 h2 (k - H.start Y).toNat (by omega)
      rw [show H.start Y + ((k - H.start Y).toNat : ℤ) = k by omega] at q2
      rw [← q2]
      exact (p4 _ m q1).2 (by omega)

namespace Ephem

variable {M : Libm} (hM : M.Good)
include hM

/-- a lunar year from its first month to that of the next -/
theorem lunar_year {Y : ℤ} (h1 : 1585 ≤ Y) (h2 : Y ≤ 6888) : ∃ (k : ℤ) (n : ℕ), (n = 12 ∨ n = 13) ∧
    start (full hM).toFacts Y ≤ k ∧ k + n ≤ start (full hM).toFacts Y + 15 ∧ (make (astro M) Y).getMonthsInYear.length = n ∧
    (make (astro M) Y).getDayCount = (almanac (full hM)).first (k + n) - (almanac (full hM)).first k ∧
    (almanac (full hM)).key k = (Y, 1) ∧ (almanac (full hM)).key (k + n) = (Y + 1, 1) := by
  have S := sunAlmanac (full hM)
  obtain ⟨a, n, p1, p2, p3, p4, p5, p6⟩ := own_year (almanac (full hM)) (plain (full hM).toFacts (by omega) (by omega)) (Y := Y) (by omega) (by omega)
  obtain ⟨k', -, hk', -⟩ := S.newYear (Y + 1) (by omega) (by omega)
  obtain ⟨k, hk⟩ : ∃ k, k = (almanac (full hM)).start Y + a := ⟨_, rfl⟩
  rw [← hk] at p4 p5 p6
  have hs : (almanac (full hM)).start Y = start (full hM).toFacts Y := rfl
  refine ⟨k, n, p1, by omega, by omega, p3, p4, p5, ?_⟩
  have mono : StrictMono (fun k => rk (key (full hM).toFacts k)) := strictMono_int_of_lt_succ (fun k => rk_key_lt (full hM).toFacts k)
  have bound : ∀ j, 1584 ≤ (key (full hM).toFacts j).1 → (key (full hM).toFacts j).1 ≤ 6890 →
      26 * (key (full hM).toFacts j).1 + 2 ≤ rk (key (full hM).toFacts j) ∧ rk (key (full hM).toFacts j) ≤ 26 * (key (full hM).toFacts j).1 + 25 := by
    intro j y1 y2
    have m := key_month (full hM) (k := j) y1 y2
    unfold rk
    split_ifs <;> omega
  change ∀ j, (key (full hM).toFacts j).1 = Y ↔ _ at p6
  change key (full hM).toFacts k' = _ at hk'
  change key (full hM).toFacts k = _ at p5
  have e' : rk (key (full hM).toFacts k') = 26 * Y + 28 := by rw [hk']; unfold rk; norm_num; ring
  have e0 : rk (key (full hM).toFacts k) = 26 * Y + 2 := by rw [p5]; unfold rk; norm_num
  have ge : k + n ≤ k' := by
    by_contra c
    have : rk (key (full hM).toFacts k) < rk (key (full hM).toFacts k') := by omega
    have : k < k' := mono.lt_iff_lt.1 this
    have := (p6 k').2 (by omega)
    rw [hk'] at this
    dsimp only at this
    omega
  by_cases c : k + n = k'
  · rw [c]; exact hk'
  · exfalso
    have lt : k + n < k' := by omega
    have y : Y - 1 ≤ (key (full hM).toFacts (k + n)).1 ∧ (key (full hM).toFacts (k + n)).1 ≤ Y + 2 := by
      by_cases d : a + n < 15
      · have := (almanac (full hM)).near Y (by omega) (by omega) (a + n) d
        rw [show (almanac (full hM)).start Y + ((a + n : ℕ) : ℤ) = k + n by push_cast; omega] at this
        change Y - 1 ≤ (key (full hM).toFacts (k + n)).1 ∧ (key (full hM).toFacts (k + n)).1 ≤ Y + 1 at this
        omega
      · have o := (almanac (full hM)).overlap Y (by omega) (by omega)
        have := (almanac (full hM)).near (Y + 1) (by omega) (by omega) (k + n - (almanac (full hM)).start (Y + 1)).toNat (by omega)
        rw [show (almanac (full hM)).start (Y + 1) + ((k + n - (almanac (full hM)).start (Y + 1)).toNat : ℤ) = k + n by omega] at this
        change Y + 1 - 1 ≤ (key (full hM).toFacts (k + n)).1 ∧ (key (full hM).toFacts (k + n)).1 ≤ Y + 1 + 1 at this
        omega
    obtain ⟨b1, b2⟩ := bound (k + n) (by omega) (by omega)
    have r1 : rk (key (full hM).toFacts k) < rk (key (full hM).toFacts (k + n)) := mono (show k < k + n by omega)
    have r2 : rk (key (full hM).toFacts (k + n)) < rk (key (full hM).toFacts k') := mono lt
    have := (p6 (k + n)).1 (by omega)
    omega

/-- how many days it has -/
theorem year_days {Y : ℤ} (h1 : 1585 ≤ Y) (h2 : Y ≤ 4999) : ∃ (k : ℤ) (n : ℕ), (make (astro M) Y).getMonthsInYear.length = n ∧
    (make (astro M) Y).getDayCount = (almanac (full hM)).first (k + n) - (almanac (full hM)).first k ∧
    (almanac (full hM)).key k = (Y, 1) ∧ (almanac (full hM)).key (k + n) = (Y + 1, 1) ∧
    ((n = 12 ∧ 353 ≤ (make (astro M) Y).getDayCount ∧ (make (astro M) Y).getDayCount ≤ 355) ∨
      (n = 13 ∧ 383 ≤ (make (astro M) Y).getDayCount ∧ (make (astro M) Y).getDayCount ≤ 385)) := by
  obtain ⟨k, n, q1, q2, q3, q4, q5, q6, q7⟩ := lunar_year hM h1 (by omega : Y ≤ 6888)
  refine ⟨k, n, q4, q5, q6, q7, ?_⟩
  have B := (full hM).toFacts
  obtain ⟨-, -, s1, s2, -⟩ := start_spec B (Y := Y) (by omega) (by omega)
  have y1 : (1585 : ℚ) ≤ Y := by exact_mod_cast h1
  have y2 : (Y : ℚ) ≤ 4999 := by exact_mod_cast h2
  have r1 : ((-5160 : ℤ) : ℚ) < (start B Y : ℤ) := by push_cast; linarith
  have r2 : ((start B Y : ℤ) : ℚ) < ((37120 : ℤ) : ℚ) := by push_cast; linarith
  have r1 := Int.cast_lt.1 r1
  have r2 := Int.cast_lt.1 r2
  have d := Lunation.dayN_year hM (k := k) (by omega) (by omega)
  have f1 : (almanac (full hM)).first k = dayN M k + J2000 := by
    have := first_eq B (Y := Y) (by omega) (by omega) (i := k - start B Y) (by omega) (by omega)
    rw [show start B Y + (k - start B Y) = k by ring] at this
    exact this
  have f2 : (almanac (full hM)).first (k + n) = dayN M (k + n) + J2000 := by
    have := first_eq B (Y := Y) (by omega) (by omega) (i := k + n - start B Y) (by omega) (by omega)
    rw [show start B Y + (k + n - start B Y) = k + n by ring] at this
    exact this
  have g : (make (astro M) Y).getDayCount = dayN M (k + n) - dayN M k := by rw [q5, f1, f2]; ring
  rcases q1 with rfl | rfl <;> push_cast at g
  · left; omega
  · right; omega

end Ephem
