import Verif.Model.LunarYear
import Verif.Spec.LunarMonths
import Mathlib.Tactic.IntervalCases

/-! # Proofs about `LunarYear.compute` -/

namespace LunarYear
open LunarCal

theorem monthLoop_length (leap : ℕ) (hs : List ℤ) (n : ℕ) : ∀ i fm idx y,
    (monthLoop leap hs i n fm idx y).length = n := by
  induction n with
  | zero => intros; rfl
  | succ n ih =>
    intro i fm idx y
    simp only [monthLoop, List.length_cons, ih]

/-- first day and day count of every month of the list -/
theorem monthLoop_days (leap : ℕ) (hs : List ℤ) (n : ℕ) : ∀ i fm idx y j m,
    (monthLoop leap hs i n fm idx y)[j]? = some m →
    m.firstJulianDay = hs.getD (i + j) 0 + J2000 ∧ m.dayCount = hs.getD (i + j + 1) 0 - hs.getD (i + j) 0 := by
  induction n with
  | zero => intro i fm idx y j m h; simp [monthLoop] at h
  | succ n ih =>
    intro i fm idx y j m h
    cases j with
    | zero =>
      simp only [monthLoop, List.getElem?_cons_zero, Option.some.injEq] at h
      subst h
      exact ⟨rfl, rfl⟩
    | succ j =>
      simp only [monthLoop, List.getElem?_cons_succ] at h
      have := ih _ _ _ _ _ _ h
      rw [show i + (j + 1) = i + 1 + j by omega]
      exact this

/-- the loop without the historical exceptions: year (relative), number, index -/
def skel (leap : ℕ) : ℕ → ℕ → ℤ → ℤ → ℤ → List (ℤ × ℤ × ℤ)
  | _, 0, _, _, _ => []
  | i, n + 1, fm, index, y =>
    let v2 : ℕ := if leap ≤ i then i - 1 else i
    let mc := ymc.getD (v2 % 12) 0
    let (fm, index) := if fm = -1 then (mc, mc) else (fm, index)
    let (y, index) := if mc < fm then (y + 1, 1) else (y, index)
    let fm := mc
    let mc := if i = leap then -mc else mc
    (y, mc, index) :: skel leap (i + 1) n fm (index + 1) y

theorem monthLoop_skel (leap : ℕ) (hs : List ℤ) (Y : ℤ) (n : ℕ) : ∀ i fm idx y,
    (∀ j, i ≤ j → j < i + n → ¬ Era (hs.getD j 0 + J2000)) →
    (monthLoop leap hs i n fm idx (Y + y)).map (fun m => (m.year, m.month, m.index)) =
      (skel leap i n fm idx y).map (fun t => (Y + t.1, t.2.1, t.2.2)) := by
  induction n with
  | zero => intros; rfl
  | succ n ih =>
    intro i fm idx y h
    have h0 := h i le_rfl (by omega)
    unfold Era at h0
    push Not at h0
    obtain ⟨a, b⟩ := h0
    have e1 : ¬ (1724360 ≤ hs.getD i 0 + J2000 ∧ hs.getD i 0 + J2000 < 1729794) := fun c => by have := a c.1; omega
    have e2 : ¬ (1807724 ≤ hs.getD i 0 + J2000 ∧ hs.getD i 0 + J2000 < 1808699) := fun c => by have := b c.1; omega
    have e3 : ¬ (hs.getD i 0 + J2000 = 1729794 ∨ hs.getD i 0 + J2000 = 1808699) := by
      rintro (c | c)
      · have := a (by omega); omega
      · have := b (by omega); omega
    have ih' := fun fm idx y => ih (i + 1) fm idx y (fun j p q => h j (by omega) (by omega))
    simp only [monthLoop, skel, if_neg e1, if_neg e2, if_neg e3, List.map_cons]
    split_ifs <;> simp only [List.cons.injEq, true_and, add_assoc, ← ih'] <;> trivial

theorem leapLoop_bounds (hs jq : List ℤ) (h : hs.getD 13 0 ≤ jq.getD 24 0) : ∀ n i : ℕ, 12 - i ≤ n → i ≤ 12 →
    i ≤ leapLoop hs jq i ∧ leapLoop hs jq i ≤ 12 := by
  intro n
  induction n with
  | zero =>
    intro i a b
    obtain rfl : i = 12 := by omega
    rw [leapLoop, if_neg (by norm_num; exact h)]
    omega
  | succ n ih =>
    intro i a b
    rw [leapLoop]
    split_ifs with c
    · have : i ≠ 12 := by rintro rfl; exact absurd h (not_le.mpr c.1)
      have := ih (i + 1) (by omega) (by omega)
      omega
    · omega

/-- the `while` loop never reads past the end of `jq` -/
theorem leapLoop_le (hs jq : List ℤ) (h : hs.getD 13 0 ≤ jq.getD 24 0) : leapLoop hs jq 1 ≤ 12 :=
  (leapLoop_bounds hs jq h 11 1 (by norm_num) (by norm_num)).2

theorem leapIndex_bounds (year : ℤ) (hs jq : List ℤ) : 1 ≤ leapIndex year hs jq ∧ leapIndex year hs jq ≤ 16 := by
  unfold leapIndex
  split_ifs with a b c
  · omega
  · omega
  · have := leapLoop_bounds hs jq c 11 1 (by norm_num) (by norm_num)
    omega
  · omega

/-- what the table of the 16 possible positions of the leap month says -/
structure SkelOk (leap : ℕ) (l : List (ℤ × ℤ × ℤ)) : Prop where
  len : l.length = 15
  head : l.head? = some (-1, 11, 11)
  chain : (l.map (fun t => (t.1, t.2.1))).IsChain Follows
  leapPos : ∀ i < 15, ∀ t, l[i]? = some t → (t.2.1 < 0 ↔ i = leap)

instance (p : List (ℤ × ℤ)) : Decidable (p.IsChain Follows) := inferInstance

theorem skel_ok (leap : ℕ) (h1 : 1 ≤ leap) (h2 : leap ≤ 16) : SkelOk leap (skel leap 0 15 (-1) (-1) (-1)) := by
  refine ⟨?_, ?_, ?_, ?_⟩
  · interval_cases leap <;> rfl
  · interval_cases leap <;> rfl
  · interval_cases leap <;> decide +kernel
  · intro i hi t ht
    have key : ∀ leap ∈ List.range 17, 1 ≤ leap → ∀ i ∈ List.range 15,
      ((skel leap 0 15 (-1) (-1) (-1))[i]?.map (fun t => decide (t.2.1 < 0))) = some (decide (i = leap)) := by
      decide +kernel
    have := key leap (by simp; omega) h1 i (by simpa using hi)
    rw [ht] at this
    simpa using this

theorem filter_slice {α : Type} (p : α → Bool) : ∀ (l : List α) (a n : ℕ),
    (∀ i t, l[i]? = some t → (p t = true ↔ a ≤ i ∧ i < a + n)) → l.filter p = (l.drop a).take n := by
  intro l
  induction l with
  | nil => intros; simp
  | cons x l ih =>
    intro a n h
    have h0 := h 0 x rfl
    have hs := fun i t (e : l[i]? = some t) => h (i + 1) t (by simpa using e)
    cases a with
    | zero =>
      cases n with
      | zero =>
        simp only [List.drop_zero, List.take_zero, List.filter_eq_nil_iff]
        intro t ht
        obtain ⟨i, e⟩ := List.getElem?_of_mem ht
        have := h i t e
        simp at this
        simp [this]
      | succ n =>
        have : p x = true := h0.mpr ⟨by omega, by omega⟩
        rw [List.filter_cons, if_pos this, List.drop_zero, List.take_succ_cons, ih 0 n (fun i t e => by
          rw [hs i t e]; omega), List.drop_zero]
    | succ a =>
      have : ¬ p x = true := fun c => by have := h0.mp c; omega
      rw [List.filter_cons, if_neg this, List.drop_succ_cons]
      exact ih a n (fun i t e => by rw [hs i t e]; omega)

/-- the months of a slice of the list: their day counts add up to the distance of the new moons -/
theorem slice_days (hs : List ℤ) : ∀ (n : ℕ) (l : List LunarMonth) (a : ℕ), l.length = n →
    (∀ i m, l[i]? = some m → m.dayCount = hs.getD (a + i + 1) 0 - hs.getD (a + i) 0) →
    (l.map LunarMonth.dayCount).sum = hs.getD (a + n) 0 - hs.getD a 0 := by
  intro n
  induction n with
  | zero => intro l a hl _; rw [List.length_eq_zero_iff.mp hl]; simp
  | succ n ih =>
    intro l a hl h
    cases l with
    | nil => simp at hl
    | cons m l =>
      have h0 := h 0 m rfl
      have := ih l (a + 1) (by simpa using hl) (fun i m e => by
        have := h (i + 1) m (by simpa using e)
        rw [show a + 1 + i = a + (i + 1) by omega]; exact this)
      rw [List.map_cons, List.sum_cons, this, h0]
      rw [show a + 1 + n = a + (n + 1) by omega]
      simp only [add_zero]
      ring

end LunarYear

namespace LunarYear
open LunarCal

/-- no month of the year's list begins in one of the two historical eras -/
def Plain (A : Astro) (Y : ℤ) : Prop := ∀ m ∈ (make A Y).months, ¬ Era m.firstJulianDay

/-- `hs` of a year -/
def hsOf (A : Astro) (Y : ℤ) : List ℤ := computeHs A (computeJq A Y)

/-- `leap_index` of a year -/
def leapOf (A : Astro) (Y : ℤ) : ℕ := leapIndex Y (hsOf A Y) (computeJq A Y)

theorem months_eq (A : Astro) (Y : ℤ) :
    (make A Y).months = monthLoop (leapOf A Y) (hsOf A Y) 0 15 (-1) (-1) (Y - 1) := by
  simp only [make, leapOf, hsOf]

theorem months_length (A : Astro) (Y : ℤ) : (make A Y).months.length = 15 := by
  rw [months_eq, monthLoop_length]

theorem make_year (A : Astro) (Y : ℤ) : (make A Y).year = Y := by simp only [make]
theorem make_ganIndex (A : Astro) (Y : ℤ) : (make A Y).ganIndex = (Y - 4) % 10 := by simp only [make]
theorem make_zhiIndex (A : Astro) (Y : ℤ) : (make A Y).zhiIndex = (Y - 4) % 12 := by simp only [make]

attribute [local irreducible] hsOf leapOf make

theorem months_days (A : Astro) (Y : ℤ) (i : ℕ) (m : LunarMonth) (h : (make A Y).months[i]? = some m) :
    m.firstJulianDay = (hsOf A Y).getD i 0 + J2000 ∧
    m.dayCount = (hsOf A Y).getD (i + 1) 0 - (hsOf A Y).getD i 0 := by
  rw [months_eq] at h
  have := monthLoop_days _ _ _ _ _ _ _ _ _ h
  simpa using this

/-- year, number and index of the months, outside the eras -/
theorem months_skel (A : Astro) (Y : ℤ) (h : Plain A Y) :
    (make A Y).months.map (fun m => (m.year, m.month, m.index)) =
      (skel (leapOf A Y) 0 15 (-1) (-1) (-1)).map (fun t => (Y + t.1, t.2.1, t.2.2)) := by
  rw [months_eq, sub_eq_add_neg]
  apply monthLoop_skel
  intro j _ hj
  have hl := months_length A Y
  have e : (make A Y).months[j]? = some ((make A Y).months[j]'(by omega)) := List.getElem?_eq_getElem _
  have := h _ (List.mem_of_getElem? e)
  rwa [(months_days A Y j _ e).1] at this

theorem leapOf_bounds (A : Astro) (Y : ℤ) : 1 ≤ leapOf A Y ∧ leapOf A Y ≤ 16 := by
  unfold leapOf; exact leapIndex_bounds _ _ _

/-- one month, outside the eras -/
theorem month_skel (A : Astro) (Y : ℤ) (h : Plain A Y) (i : ℕ) (m : LunarMonth)
    (hm : (make A Y).months[i]? = some m) : ∃ t, (skel (leapOf A Y) 0 15 (-1) (-1) (-1))[i]? = some t ∧
      m.year = Y + t.1 ∧ m.month = t.2.1 ∧ m.index = t.2.2 := by
  have := congrArg (fun l => l[i]?) (months_skel A Y h)
  simp only [List.getElem?_map, hm, Option.map_some] at this
  cases e : (skel (leapOf A Y) 0 15 (-1) (-1) (-1))[i]? with
  | none => rw [e] at this; simp at this
  | some t =>
    rw [e] at this
    simp only [Option.map_some, Option.some.injEq, Prod.mk.injEq] at this
    exact ⟨t, rfl, this⟩

end LunarYear
