import Verif.Proof.Ephem.Bins
import Verif.Proof.Ephem.Names
import Verif.Proof.High.Table

/-! # The lists of neighbouring years -/

namespace Ephem
open F64 LunarYear LunarCal

/-- What is needed of the solar terms and new moons of the years `lo .. hi`, besides `Bins` -/
structure Facts (A : Astro) (D N : ℤ → ℤ) (T : ℤ → ℚ) (lo hi : ℤ) : Prop extends Bins A D N T lo hi where
  late : 1584 ≤ lo
  le : lo ≤ hi
  four : hi ≤ 9998
  year : ∀ Y, lo ≤ Y → Y ≤ hi → D (24 * (Y - 2000) + 18) + 362 ≤ D (24 * (Y - 2000) + 18 + 24)
  years : ∀ Y, lo ≤ Y → Y < hi → D (24 * (Y - 2000) + 18 + 48) ≤ D (24 * (Y - 2000) + 18) + 733
  moons : ∀ k : ℤ, 365.2422 * ((lo : ℚ) - 2000) - 100 ≤ 29.5306 * k → 29.5306 * ((k : ℚ) + 25) ≤ 365.2422 * ((hi : ℚ) - 2000) + 500 →
    N k + 734 ≤ N (k + 25)
  leap : ∀ Y, lo ≤ Y → Y ≤ hi → ∀ k, N k ≤ D (24 * (Y - 2000) + 18) → D (24 * (Y - 2000) + 18) < N (k + 1) →
    365.2422 * ((Y : ℚ) - 2000) - 54 ≤ 29.5306 * k → 29.5306 * (k : ℚ) ≤ 365.2422 * ((Y : ℚ) - 2000) →
    GoodAt (leapTag Y) D N (24 * (Y - 2000) + 18) k

variable {A : Astro} {D N : ℤ → ℤ} {T : ℤ → ℚ} {lo hi : ℤ} (B : Facts A D N T lo hi)

/-- … and of the moments of the solar terms: that none lies about midnight before the first of a month -/
structure Full (A : Astro) (D N : ℤ → ℤ) (T : ℤ → ℚ) (lo hi : ℤ) : Prop extends Facts A D N T lo hi where
  month : ∀ n, 24 * (lo - 2000) + 17 ≤ n → n ≤ 24 * (hi - 2000) + 47 → ∃ m,
    (JD.jdn (High.firstOf m) : ℚ) + 1 / 10 ^ 7 ≤ T n + 1 / 2 + 2451545 ∧ T n + 1 / 2 + 2451545 + 12 / 10 ^ 6 ≤ JD.jdn (High.firstOf (m + 1))

/-- the month with which the list of year `Y` begins -/
noncomputable def start (B : Facts A D N T lo hi) (Y : ℤ) : ℤ :=
  if h : lo ≤ Y ∧ Y ≤ hi then Classical.choose (B.toBins.hs h.1 h.2) else 0

include B

theorem start_spec {Y : ℤ} (h1 : lo ≤ Y) (h2 : Y ≤ hi) :
    N (start B Y) ≤ D (24 * (Y - 2000) + 18) ∧ D (24 * (Y - 2000) + 18) < N (start B Y + 1) ∧
      365.2422 * ((Y : ℚ) - 2000) - 54 ≤ 29.5306 * (start B Y : ℚ) ∧ 29.5306 * (start B Y : ℚ) ≤ 365.2422 * ((Y : ℚ) - 2000) ∧
      hsOf A Y = (List.range 16).map (fun i : ℕ => N (start B Y + i)) := by
  unfold start
  rw [dif_pos ⟨h1, h2⟩]
  exact Classical.choose_spec (B.toBins.hs h1 h2)

theorem hs_get {Y : ℤ} (h1 : lo ≤ Y) (h2 : Y ≤ hi) {i : ℕ} (hi : i < 16) : (hsOf A Y).getD i 0 = N (start B Y + i) := by
  rw [(start_spec B h1 h2).2.2.2.2, List.getD_eq_getElem?_getD, List.getElem?_map, List.getElem?_range hi]
  rfl

/-- the months the lists are cut from -/
def InRange (lo hi k : ℤ) : Prop := 365.2422 * ((lo : ℚ) - 2000) - 100 ≤ 29.5306 * k ∧ 29.5306 * (k : ℚ) ≤ 365.2422 * ((hi : ℚ) - 2000) + 500

theorem inRange {Y : ℤ} (h1 : lo ≤ Y) (h2 : Y ≤ hi) {j : ℤ} (j1 : -1 ≤ j) (j2 : j ≤ 16) : InRange lo hi (start B Y + j) := by
  obtain ⟨-, -, a, b, -⟩ := start_spec B h1 h2
  have m1 : ((lo : ℤ) : ℚ) ≤ Y := by exact_mod_cast h1
  have m2 : (Y : ℚ) ≤ hi := by exact_mod_cast h2
  have m3 : (-1 : ℚ) ≤ j := by exact_mod_cast j1
  have m4 : (j : ℚ) ≤ 16 := by exact_mod_cast j2
  unfold InRange
  push_cast
  constructor <;> linarith

theorem N_diff {k : ℤ} {j : ℕ} (h1 : InRange lo hi k) (h2 : InRange lo hi (k + j)) :
    29.5306 * (j : ℚ) - 6.8 ≤ (N (k + j) : ℚ) - N k ∧ (N (k + j) : ℚ) - N k ≤ 29.5306 * (j : ℚ) + 6.8 := by
  have a := B.n k h1.1 h1.2
  have b := B.n (k + j) h2.1 h2.2
  push_cast at b
  constructor <;> linarith [a.1, a.2, b.1, b.2]

theorem N_next {k : ℤ} (h1 : InRange lo hi k) (h2 : InRange lo hi (k + 1)) : N k + 23 ≤ N (k + 1) := by
  have := (N_diff B (k := k) (j := 1) h1 (by simpa using h2)).1
  push_cast at this
  have h : ((N k : ℚ) + 22 < N (k + 1)) := by linarith
  have : N k + 22 < N (k + 1) := by exact_mod_cast h
  omega

/-- how many months later the next list begins -/
theorem start_next {Y : ℤ} (h1 : lo ≤ Y) (h2 : Y < hi) :
    (start B (Y + 1) = start B Y + 12 ∧ D (24 * (Y - 2000) + 18 + 24) < N (start B Y + 13)) ∨
    (start B (Y + 1) = start B Y + 13 ∧ N (start B Y + 13) ≤ D (24 * (Y - 2000) + 18 + 24)) := by
  obtain ⟨a1, a2, a3, a4, -⟩ := start_spec B h1 h2.le
  obtain ⟨b1, b2, b3, b4, -⟩ := start_spec B (Y := Y + 1) (by omega) (by omega)
  rw [show 24 * (Y + 1 - 2000) + 18 = 24 * (Y - 2000) + 18 + 24 by ring] at b1 b2
  push_cast at b3 b4
  have hy := B.year Y h1 h2.le
  have k1 : start B Y + 11 ≤ start B (Y + 1) - 0 := by
    have : (start B Y : ℚ) + 10 < start B (Y + 1) := by linarith
    have : start B Y + 10 < start B (Y + 1) := by exact_mod_cast this
    omega
  have k2 : start B (Y + 1) ≤ start B Y + 14 := by
    have : (start B (Y + 1) : ℚ) < start B Y + 15 := by linarith
    have : start B (Y + 1) < start B Y + 15 := by exact_mod_cast this
    omega
  have r : ∀ j : ℤ, -1 ≤ j → j ≤ 16 → InRange lo hi (start B Y + j) := fun j => inRange B h1 h2.le
  have d11 := (N_diff B (k := start B Y) (j := 12) (by simpa using r 0 (by norm_num) (by norm_num)) (r 12 (by norm_num) (by norm_num))).2
  have d14 := (N_diff B (k := start B Y + 1) (j := 13) (r 1 (by norm_num) (by norm_num))
    (by rw [add_assoc]; exact r 14 (by norm_num) (by norm_num))).1
  have n1 := N_next B (k := start B Y + 13) (r 13 (by norm_num) (by norm_num)) (by rw [add_assoc]; exact r 14 (by norm_num) (by norm_num))
  have n2 := N_next B (k := start B Y + 12) (r 12 (by norm_num) (by norm_num)) (by rw [add_assoc]; exact r 13 (by norm_num) (by norm_num))
  rw [show start B Y + 13 + 1 = start B Y + 14 by ring] at n1
  rw [show start B Y + 12 + 1 = start B Y + 13 by ring] at n2
  rw [show start B Y + 1 + ((13 : ℕ) : ℤ) = start B Y + 14 by push_cast; ring] at d14
  push_cast at d11 d14
  have d0 := B.d (24 * (Y - 2000) + 18) (by omega) (by omega)
  have d1 := B.d (24 * (Y - 2000) + 18 + 24) (by omega) (by omega)
  push_cast at d0 d1
  have lt14 : D (24 * (Y - 2000) + 18 + 24) < N (start B Y + 14) := by
    have : (D (24 * (Y - 2000) + 18) : ℚ) + 1 ≤ N (start B Y + 1) := by exact_mod_cast a2
    have : (D (24 * (Y - 2000) + 18 + 24) : ℚ) < N (start B Y + 14) := by linarith
    exact_mod_cast this
  have le12 : N (start B Y + 12) ≤ D (24 * (Y - 2000) + 18 + 24) := by
    have e1 : (N (start B Y) : ℚ) ≤ D (24 * (Y - 2000) + 18) := by exact_mod_cast a1
    have e2 : (D (24 * (Y - 2000) + 18) : ℚ) + 362 ≤ D (24 * (Y - 2000) + 18 + 24) := by exact_mod_cast hy
    have : (N (start B Y + 12) : ℚ) < D (24 * (Y - 2000) + 18 + 24) + 1 := by linarith
    have : N (start B Y + 12) < D (24 * (Y - 2000) + 18 + 24) + 1 := by exact_mod_cast this
    omega
  generalize start B (Y + 1) = s' at *
  generalize start B Y = s at *
  have : s' = s + 11 ∨ s' = s + 12 ∨ s' = s + 13 ∨ s' = s + 14 := by omega
  rcases this with rfl | rfl | rfl | rfl
  · rw [show s + 11 + 1 = s + 12 by ring] at b2; omega
  · rw [show s + 12 + 1 = s + 13 by ring] at b2; exact Or.inl ⟨rfl, b2⟩
  · exact Or.inr ⟨rfl, b1⟩
  · omega

/-- there are not 26 months in two years -/
theorem not_twice {Y : ℤ} (h1 : lo ≤ Y) (h2 : Y < hi) (h3 : start B (Y + 1) = start B Y + 13) :
    D (24 * (Y - 2000) + 18 + 48) < N (start B (Y + 1) + 13) := by
  obtain ⟨a1, a2, a3, a4, -⟩ := start_spec B h1 h2.le
  have r1 := inRange B h1 h2.le (j := 1) (by norm_num) (by norm_num)
  have r2 := inRange B (Y := Y + 1) (by omega) (by omega) (j := 13) (by norm_num) (by norm_num)
  have hy := B.years Y h1 h2
  rw [h3] at r2 ⊢
  unfold InRange at r1 r2
  push_cast at r1 r2
  have := B.moons (start B Y + 1) (by push_cast; exact r1.1) (by push_cast; linarith [r2.2])
  rw [show start B Y + 1 + 25 = start B Y + 13 + 13 by ring] at this
  omega

end Ephem

theorem leap_next : ∀ Y ∈ LunarYear.LEAP_11 ++ LunarYear.LEAP_12, Y + 1 ∉ LunarYear.LEAP_11 ∧ Y + 1 ∉ LunarYear.LEAP_12 := by decide +kernel
theorem leap_disjoint : ∀ Y ∈ LunarYear.LEAP_11, Y ∉ LunarYear.LEAP_12 := by decide +kernel

namespace Ephem
open F64 LunarYear LunarCal
variable {A : Astro} {D N : ℤ → ℤ} {T : ℤ → ℚ} {lo hi : ℤ} (B : Facts A D N T lo hi)
include B

/-- where the leap month is -/
theorem leapOf_eq {Y : ℤ} (h1 : lo ≤ Y) (h2 : Y ≤ hi) : leapOf A Y =
    if Y ∈ LEAP_11 then 13 else if Y ∈ LEAP_12 then 14
    else if N (start B Y + 13) ≤ D (24 * (Y - 2000) + 18 + 24) then leapLoop (hsOf A Y) (computeJq A Y) 1 else 16 := by
  unfold leapOf leapIndex
  rw [hs_get B h1 h2 (i := 13) (by norm_num), B.toBins.jq_get h1 h2 (i := 24) (by norm_num)]
  rfl

theorem loop_one {Y : ℤ} (h1 : lo ≤ Y) (h2 : Y ≤ hi) : leapLoop (hsOf A Y) (computeJq A Y) 1 =
    if D (24 * (Y - 2000) + 18 + 2) < N (start B Y + 2) then leapLoop (hsOf A Y) (computeJq A Y) 2 else 1 := by
  rw [leapLoop]
  norm_num
  have e1 := hs_get B h1 h2 (i := 2) (by norm_num)
  have e2 := B.toBins.jq_get h1 h2 (i := 2) (by norm_num)
  rw [List.getD_eq_getElem?_getD] at e1 e2
  rw [e1, e2]
  norm_num

theorem loop_two {Y : ℤ} (h1 : lo ≤ Y) (h2 : Y ≤ hi) : leapLoop (hsOf A Y) (computeJq A Y) 2 =
    if D (24 * (Y - 2000) + 18 + 4) < N (start B Y + 3) then leapLoop (hsOf A Y) (computeJq A Y) 3 else 2 := by
  rw [leapLoop]
  norm_num
  have e1 := hs_get B h1 h2 (i := 3) (by norm_num)
  have e2 := B.toBins.jq_get h1 h2 (i := 4) (by norm_num)
  rw [List.getD_eq_getElem?_getD] at e1 e2
  rw [e1, e2]
  norm_num

/-- the leap months of neighbouring lists agree -/
theorem link {Y : ℤ} (h1 : lo ≤ Y) (h2 : Y < hi) : Link (start B (Y + 1) - start B Y) (leapOf A Y) (leapOf A (Y + 1)) := by
  obtain ⟨b1, b2, b3, b4, -⟩ := start_spec B (Y := Y + 1) (by omega) (by omega)
  have good := B.leap (Y + 1) (by omega) (by omega) _ b1 b2 b3 b4
  have hl := leapOf_eq B h1 h2.le
  have hl' := leapOf_eq B (Y := Y + 1) (by omega) (by omega)
  have l1 := loop_one B (Y := Y + 1) (by omega) (by omega)
  have l2 := loop_two B (Y := Y + 1) (by omega) (by omega)
  have e24 : 24 * (Y + 1 - 2000) + 18 + 24 = 24 * (Y - 2000) + 18 + 48 := by ring
  have bound : N (start B (Y + 1) + 13) ≤ D (24 * (Y + 1 - 2000) + 18 + 24) → 3 ≤ leapLoop (hsOf A (Y + 1)) (computeJq A (Y + 1)) 3 := by
    intro c
    refine (leapLoop_bounds _ _ ?_ 9 3 (by norm_num) (by norm_num)).1
    rw [hs_get B (by omega) (by omega) (i := 13) (by norm_num), B.toBins.jq_get (by omega) (by omega) (i := 24) (by norm_num)]
    exact c
  have bound' : N (start B Y + 13) ≤ D (24 * (Y - 2000) + 18 + 24) → leapLoop (hsOf A Y) (computeJq A Y) 1 ≤ 12 := by
    intro c
    refine leapLoop_le _ _ ?_
    rw [hs_get B h1 h2.le (i := 13) (by norm_num), B.toBins.jq_get h1 h2.le (i := 24) (by norm_num)]
    exact c
  -- no year of the tables has thirteen months from solstice to solstice
  have twelve : leapTag (Y + 1) ≠ 0 → start B (Y + 1) = start B Y + 12 ∧ D (24 * (Y - 2000) + 18 + 24) < N (start B Y + 13) := by
    intro ht
    rcases start_next B h1 h2 with c | c
    · exact c
    · exfalso
      have := not_twice B h1 h2 c.1
      have g : N (start B (Y + 1) + 13) ≤ D (24 * (Y + 1 - 2000) + 18 + 24) := by
        unfold GoodAt at good
        split at good
        · exact absurd ‹_› ht
        · exact good.1
        · exact good.1
      rw [e24] at g
      omega
  -- a year after one not in the tables has no leap month at its beginning
  have three : leapTag (Y + 1) = 0 → leapOf A (Y + 1) ≠ 1 ∧ leapOf A (Y + 1) ≠ 2 := by
    intro ht
    rw [ht] at good
    rw [hl']
    split_ifs with c1 c2 c3
    · decide
    · decide
    · have g : D (24 * (Y + 1 - 2000) + 18 + 2) < N (start B (Y + 1) + 2) ∧ D (24 * (Y + 1 - 2000) + 18 + 4) < N (start B (Y + 1) + 3) := by
        unfold GoodAt at good
        rcases good with g | g
        · omega
        · exact g
      rw [l1, if_pos g.1, l2, if_pos g.2]
      have := bound c3
      omega
    · decide
  unfold Link
  by_cases m1 : Y ∈ LEAP_11
  · obtain ⟨n1, n2⟩ := leap_next Y (by simp [m1])
    have ht : leapTag (Y + 1) = 1 := by unfold leapTag; rw [add_sub_cancel_right, if_pos m1]
    obtain ⟨t1, t2⟩ := twelve (by rw [ht]; decide)
    rw [ht] at good
    unfold GoodAt at good
    rw [if_pos m1] at hl
    rw [if_neg n1, if_neg n2, if_pos good.1, l1, if_neg (not_lt.2 good.2)] at hl'
    exact Or.inl ⟨by omega, Or.inr (Or.inl ⟨hl, hl'⟩)⟩
  · by_cases m2 : Y ∈ LEAP_12
    · obtain ⟨n1, n2⟩ := leap_next Y (by simp [m2])
      have ht : leapTag (Y + 1) = 2 := by unfold leapTag; rw [add_sub_cancel_right, if_neg m1, if_pos m2]
      obtain ⟨t1, t2⟩ := twelve (by rw [ht]; decide)
      rw [ht] at good
      unfold GoodAt at good
      rw [if_neg m1, if_pos m2] at hl
      rw [if_neg n1, if_neg n2, if_pos good.1, l1, if_pos good.2.1, l2, if_neg (not_lt.2 good.2.2)] at hl'
      exact Or.inl ⟨by omega, Or.inr (Or.inr ⟨hl, hl'⟩)⟩
    · have ht : leapTag (Y + 1) = 0 := by unfold leapTag; rw [add_sub_cancel_right, if_neg m1, if_neg m2]
      rw [if_neg m1, if_neg m2] at hl
      rcases start_next B h1 h2 with c | c
      · rw [if_neg (not_le.2 c.2)] at hl
        exact Or.inl ⟨by omega, Or.inl ⟨hl, three ht⟩⟩
      · rw [if_pos c.2] at hl
        refine Or.inr ⟨by omega, ?_, three ht⟩
        rw [hl]
        exact bound' c.2

end Ephem
