import Verif.Proof.Ephem.Facts
import Verif.Spec.SunAlmanac
import Verif.Proof.Almanac

/-! # One sequence of months -/

namespace Ephem
open F64 LunarYear LunarCal Spec
variable {A : Astro} {D N : ℤ → ℤ} {T : ℤ → ℚ} {lo hi : ℤ} (B : Facts A D N T lo hi)
include B

theorem start_step {Y : ℤ} (h1 : lo ≤ Y) (h2 : Y < hi) : start B (Y + 1) = start B Y + 12 ∨ start B (Y + 1) = start B Y + 13 := by
  rcases start_next B h1 h2 with h | h
  · exact Or.inl h.1
  · exact Or.inr h.1

theorem start_far {Y : ℤ} (n : ℕ) (h1 : lo ≤ Y) (h2 : Y + n ≤ hi) : start B Y + 12 * n ≤ start B (Y + n) := by
  induction n with
  | zero => simp
  | succ n ih =>
    have a := ih (by push_cast at h2; omega)
    have b := start_step B (Y := Y + n) (by omega) (by push_cast at h2; omega)
    rw [show Y + ((n + 1 : ℕ) : ℤ) = Y + n + 1 by push_cast; ring]
    push_cast
    omega

theorem start_mono {Y Y' : ℤ} (h1 : lo ≤ Y) (h2 : Y' ≤ hi) (h : Y ≤ Y') : start B Y + 12 * (Y' - Y) ≤ start B Y' := by
  obtain ⟨n, rfl⟩ : ∃ n : ℕ, Y' = Y + n := ⟨(Y' - Y).toNat, by omega⟩
  have := start_far B n h1 h2
  rw [show Y + (n : ℤ) - Y = n by ring]
  exact this

/-- every month of the lists is in the first part of one of them -/
theorem home_exists {k : ℤ} (h1 : start B lo ≤ k) : ∃ Y, lo ≤ Y ∧ Y ≤ hi ∧ start B Y ≤ k ∧ (Y = hi ∨ k < start B (Y + 1)) := by
  have P : ∀ n : ℕ, lo + n ≤ hi → k < start B (lo + n) → ∃ Y, lo ≤ Y ∧ Y < lo + n ∧ start B Y ≤ k ∧ k < start B (Y + 1) := by
    intro n
    induction n with
    | zero => intro _ h; simp at h; omega
    | succ n ih =>
      intro hn hk
      by_cases c : k < start B (lo + n)
      · obtain ⟨Y, a, b, d⟩ := ih (by push_cast at hn; omega) c
        exact ⟨Y, a, by push_cast; omega, d⟩
      · exact ⟨lo + n, by omega, by push_cast; omega, by omega, by
          rw [show lo + (n : ℤ) + 1 = lo + ((n + 1 : ℕ) : ℤ) by push_cast; ring]; exact hk⟩
  have hle := B.le
  by_cases c : k < start B hi
  · obtain ⟨n, hn⟩ : ∃ n : ℕ, hi = lo + n := ⟨(hi - lo).toNat, by omega⟩
    obtain ⟨Y, a, b, d, e⟩ := P n (by omega) (by rw [← hn]; exact c)
    exact ⟨Y, a, by omega, d, Or.inr e⟩
  · exact ⟨hi, hle, le_rfl, by omega, Or.inl rfl⟩

omit B

/-- the list in whose first part month `k` is -/
noncomputable def homeOf (B : Facts A D N T lo hi) (k : ℤ) : ℤ := if h : start B lo ≤ k then Classical.choose (home_exists B h) else lo

/-- name of month `k` -/
noncomputable def key (B : Facts A D N T lo hi) (k : ℤ) : ℤ × ℤ :=
  if k < start B lo then (lo - 1 - (start B lo - k), 12)
  else if start B hi + 15 ≤ k then (hi + 2 + (k - start B hi - 15), 1)
  else (homeOf B k + (name (leapOf A (homeOf B k)) (k - start B (homeOf B k)).toNat).1,
    (name (leapOf A (homeOf B k)) (k - start B (homeOf B k)).toNat).2)

/-- first day of month `k` -/
noncomputable def first (B : Facts A D N T lo hi) (k : ℤ) : ℤ :=
  if k < start B lo then N (start B lo) + J2000 - (start B lo - k)
  else if start B hi + 15 < k then N (start B hi + 15) + J2000 + (k - start B hi - 15)
  else N k + J2000

include B

theorem homeOf_spec {k : ℤ} (h1 : start B lo ≤ k) :
    lo ≤ homeOf B k ∧ homeOf B k ≤ hi ∧ start B (homeOf B k) ≤ k ∧ (homeOf B k = hi ∨ k < start B (homeOf B k + 1)) := by
  unfold homeOf
  rw [dif_pos h1]
  exact Classical.choose_spec (home_exists B h1)

theorem in_window {Y : ℤ} (h1 : lo ≤ Y) (h2 : Y ≤ hi) : start B lo ≤ start B Y ∧ start B Y ≤ start B hi := by
  have a := start_mono B (Y := lo) (Y' := Y) le_rfl h2 h1
  have b := start_mono B (Y := Y) (Y' := hi) h1 le_rfl h2
  omega

theorem key_eq {Y : ℤ} (h1 : lo ≤ Y) (h2 : Y ≤ hi) {i : ℕ} (hi' : i < 15) :
    key B (start B Y + i) = (Y + (name (leapOf A Y) i).1, (name (leapOf A Y) i).2) := by
  obtain ⟨w1, w2⟩ := in_window B h1 h2
  obtain ⟨c1, c2, c3, c4⟩ := homeOf_spec B (k := start B Y + i) (by omega)
  unfold key
  rw [if_neg (by omega), if_neg (by omega)]
  generalize homeOf B (start B Y + i) = Z at *
  have hYZ : Y ≤ Z := by
    by_contra hc
    rcases c4 with c4 | c4
    · omega
    · have := start_mono B (Y := Z + 1) (Y' := Y) (by omega) h2 (by omega)
      omega
  have hZY : Z ≤ Y + 1 := by
    by_contra hc
    have := start_mono B (Y := Y) (Y' := Z) h1 c2 hYZ
    omega
  rcases (by omega : Z = Y ∨ Z = Y + 1) with rfl | rfl
  · rw [show (start B Z + (i : ℤ) - start B Z).toNat = i by omega]
  · have L := link B (Y := Y) h1 (by omega)
    have b := leapOf_bounds A Y
    have b' := leapOf_bounds A (Y + 1)
    have o := name_overlap b.1 b.2 b'.1 b'.2 L (j := (start B Y + (i : ℤ) - start B (Y + 1)).toNat) (by omega)
    rw [show (start B (Y + 1) - start B Y + ((start B Y + (i : ℤ) - start B (Y + 1)).toNat : ℤ)).toNat = i by omega] at o
    rw [o]
    simp only [Prod.mk.injEq, and_true]
    ring

theorem first_eq {Y : ℤ} (h1 : lo ≤ Y) (h2 : Y ≤ hi) {i : ℤ} (h0 : 0 ≤ i) (hi' : i ≤ 15) : first B (start B Y + i) = N (start B Y + i) + J2000 := by
  obtain ⟨w1, w2⟩ := in_window B h1 h2
  unfold first
  rw [if_neg (by omega), if_neg (by omega)]

theorem first_lt (k : ℤ) : first B k < first B (k + 1) := by
  by_cases c1 : k < start B lo
  · unfold first
    rw [if_pos c1]
    by_cases c2 : k + 1 < start B lo
    · rw [if_pos c2]; omega
    · obtain rfl : k = start B lo - 1 := by omega
      rw [sub_add_cancel, if_neg (lt_irrefl _)]
      obtain ⟨w1, w2⟩ := in_window B (Y := lo) le_rfl B.le
      rw [if_neg (by omega)]
      omega
  · by_cases c2 : start B hi + 15 ≤ k
    · obtain ⟨w1, w2⟩ := in_window B (Y := lo) le_rfl B.le
      have e : first B (k + 1) = N (start B hi + 15) + J2000 + (k + 1 - start B hi - 15) := by
        unfold first
        rw [if_neg (by omega), if_pos (by omega)]
      rw [e]
      unfold first
      rw [if_neg (by omega)]
      split_ifs with c3
      · omega
      · obtain rfl : k = start B hi + 15 := by omega
        omega
    · obtain ⟨a, b, c, d⟩ := homeOf_spec B (k := k) (by omega)
      have hi15 : k - start B (homeOf B k) < 15 := by
        rcases d with d | d
        · rw [d]; omega
        · by_cases e : homeOf B k = hi
          · rw [e]; omega
          · have := start_step B (Y := homeOf B k) a (by omega)
            omega
      have e1 := first_eq B a b (i := k - start B (homeOf B k)) (by omega) (by omega)
      have e2 := first_eq B a b (i := k + 1 - start B (homeOf B k)) (by omega) (by omega)
      have r1 := inRange B a b (j := k - start B (homeOf B k)) (by omega) (by omega)
      have r2 := inRange B a b (j := k + 1 - start B (homeOf B k)) (by omega) (by omega)
      rw [add_sub_cancel] at e1 e2 r1 r2
      have := N_next B r1 r2
      omega

/-- months inside the lists -/
theorem inside {k : ℤ} (h1 : start B lo ≤ k) (h2 : k < start B hi + 15) :
    ∃ (Y : ℤ) (i : ℕ), lo ≤ Y ∧ Y ≤ hi ∧ k = start B Y + i ∧ i < 15 ∧ (Y = hi ∨ i < 13) := by
  obtain ⟨a, b, c, d⟩ := homeOf_spec B h1
  refine ⟨homeOf B k, (k - start B (homeOf B k)).toNat, a, b, by omega, ?_⟩
  by_cases e : homeOf B k = hi
  · rw [e] at *
    exact ⟨by omega, Or.inl rfl⟩
  · have := start_step B (Y := homeOf B k) a (by omega)
    rcases d with d | d
    · exact absurd d e
    · exact ⟨by omega, Or.inr (by omega)⟩

omit B in
theorem rk_name_le {li i : ℕ} (h1 : 1 ≤ li) (h2 : li ≤ 16) (hi : i < 15) : 26 * (name li i).1 + 2 ≤ rk (name li i) ∧ rk (name li i) ≤ 26 * (name li i).1 + 25 := by
  obtain ⟨-, -, -, -, a, b⟩ := name_year h1 h2 hi
  unfold rk
  split_ifs <;> omega

omit B in
theorem rk_add (y : ℤ) (t : ℤ × ℤ) : rk (y + t.1, t.2) = 26 * y + rk t := by unfold rk; ring

theorem rk_key_lt (k : ℤ) : rk (key B k) < rk (key B (k + 1)) := by
  have hw := in_window B (Y := lo) le_rfl B.le
  have key_low : ∀ k, k < start B lo → rk (key B k) = 26 * (lo - 1 - (start B lo - k)) + 24 := by
    intro k h
    unfold key rk; rw [if_pos h]; norm_num
  have key_high : ∀ k, start B hi + 15 ≤ k → rk (key B k) = 26 * (hi + 2 + (k - start B hi - 15)) + 2 := by
    intro k h
    unfold key rk; rw [if_neg (by omega), if_pos h]; norm_num
  by_cases c1 : k < start B lo
  · rw [key_low k c1]
    by_cases c2 : k + 1 < start B lo
    · rw [key_low _ c2]; omega
    · obtain rfl : k = start B lo - 1 := by omega
      have e := key_eq B (Y := lo) le_rfl B.le (i := 0) (by norm_num)
      have b := leapOf_bounds A lo
      rw [name_zero b.1 b.2] at e
      simp only [Nat.cast_zero, add_zero] at e
      rw [sub_add_cancel, e]
      have : rk (lo + -1, 11) = 26 * (lo + -1) + 22 := by unfold rk; norm_num
      rw [this]
      omega
  · by_cases c2 : start B hi + 15 ≤ k
    · rw [key_high k c2, key_high (k + 1) (by omega)]
      omega
    · obtain ⟨Y, i, a1, a2, rfl, a4, a5⟩ := inside B (k := k) (by omega) (by omega)
      have b := leapOf_bounds A Y
      rw [key_eq B a1 a2 a4, rk_add]
      by_cases c3 : i < 14
      · rw [show start B Y + (i : ℤ) + 1 = start B Y + ((i + 1 : ℕ) : ℤ) by push_cast; ring, key_eq B a1 a2 (by omega), rk_add]
        have := rk_name b.1 b.2 c3
        omega
      · obtain rfl : i = 14 := by omega
        obtain rfl : Y = hi := by omega
        rw [key_high _ (by push_cast; omega)]
        have := (rk_name_le b.1 b.2 (i := 14) (by norm_num)).2
        have := (name_year b.1 b.2 (i := 14) (by norm_num)).2.1
        omega

theorem key_inj (j k : ℤ) (h : key B j = key B k) : j = k := by
  have : StrictMono (fun k => rk (key B k)) := strictMono_int_of_lt_succ (fun k => rk_key_lt B k)
  exact this.injective (congrArg rk h)

theorem home {k : ℤ} (h1 : lo ≤ (key B k).1) (h2 : (key B k).1 ≤ hi) :
    start B (key B k).1 ≤ k ∧ k < start B (key B k).1 + 15 := by
  by_cases c1 : k < start B lo
  · unfold key at h1
    rw [if_pos c1] at h1
    simp only at h1
    omega
  · by_cases c2 : start B hi + 15 ≤ k
    · unfold key at h2
      rw [if_neg c1, if_pos c2] at h2
      simp only at h2
      omega
    · obtain ⟨Y, i, a1, a2, rfl, a4, a5⟩ := inside B (k := k) (by omega) (by omega)
      have b := leapOf_bounds A Y
      obtain ⟨n1, n2, n3, n4, -⟩ := name_year b.1 b.2 a4
      rw [key_eq B a1 a2 a4] at h1 h2 ⊢
      simp only at h1 h2 ⊢
      rcases (by omega : (name (leapOf A Y) i).1 = 0 ∨ (name (leapOf A Y) i).1 = 1 ∨ (name (leapOf A Y) i).1 = -1) with e | e | e
      · rw [e, add_zero]; omega
      · have := n4 e
        omega
      · obtain ⟨i2, li⟩ := n3 e
        rw [e] at h1 h2 ⊢
        have L := link B (Y := Y + -1) h1 (by omega)
        rw [show Y + -1 + 1 = Y by ring] at L
        unfold Link at L
        omega

theorem plain {Y : ℤ} (h1 : lo ≤ Y) (h2 : Y ≤ hi) : Plain A Y := by
  have hl := months_length A Y
  intro m hm
  obtain ⟨j, hj⟩ := List.getElem?_of_mem hm
  obtain ⟨hj', -⟩ := List.getElem?_eq_some_iff.1 hj
  rw [(months_days A Y j m hj).1, hs_get B h1 h2 (by omega)]
  have r := inRange B h1 h2 (j := j) (by omega) (by omega)
  have n := B.n _ r.1 r.2
  have l0 := B.late
  have l1 : (1584 : ℚ) ≤ lo := by exact_mod_cast l0
  unfold InRange at r
  have : (-160000 : ℚ) < N (start B Y + j) := by linarith [r.1, n.1]
  have : (-160000 : ℤ) < N (start B Y + j) := by exact_mod_cast this
  unfold Era J2000
  omega

theorem window {Y : ℤ} (h1 : lo ≤ Y) (h2 : Y ≤ hi) {i : ℕ} (hi' : i < 15) : ∃ m, (make A Y).months[i]? = some m ∧
    (m.year, m.month) = key B (start B Y + i) ∧ m.firstJulianDay = first B (start B Y + i) ∧
    m.dayCount = first B (start B Y + i + 1) - first B (start B Y + i) := by
  have hl := months_length A Y
  have hm : (make A Y).months[i]? = some ((make A Y).months[i]'(by omega)) := List.getElem?_eq_getElem _
  generalize (make A Y).months[i]'(by omega) = m at hm
  have P := plain B h1 h2
  obtain ⟨t, t1, t2, t3, -⟩ := month_skel A Y P i m hm
  obtain ⟨d1, d2⟩ := months_days A Y i m hm
  rw [hs_get B h1 h2 (by omega)] at d1 d2
  rw [hs_get B h1 h2 (by omega)] at d2
  refine ⟨m, hm, ?_, ?_, ?_⟩
  · rw [key_eq B h1 h2 hi']
    unfold name
    rw [List.getD_eq_getElem?_getD, t1, t2, t3]
    rfl
  · rw [first_eq B h1 h2 (by omega) (by omega)]
    exact d1
  · rw [add_assoc, first_eq B h1 h2 (by omega) (by omega), first_eq B h1 h2 (by omega) (by omega), d2]
    push_cast
    ring

end Ephem
