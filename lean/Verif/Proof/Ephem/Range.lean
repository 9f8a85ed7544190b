import Verif.Proof.Ephem.Days
import Verif.Proof.Ephem.Almanac
import Verif.Proof.High.Gap

/-! # The calendar of the library from 1584 to 6890 -/

namespace Ephem
open F64 LunarYear ShouXing FloatLike

variable {M : Libm} (hM : M.Good)
include hM

theorem moonDay_lt {k : ℤ} (h1 : -500 ≤ k) (h2 : k + 1 ≤ 99000) : moonDay M k < moonDay M (k + 1) := by
  have a := moon_at hM h1 (by omega)
  have b := moon_at hM (k := k + 1) (by omega) h2
  push_cast at b
  have : (moonDay M k : ℚ) < moonDay M (k + 1) := by linarith [a.2, b.1]
  exact_mod_cast this

theorem moonDay_mono {k : ℤ} (n : ℕ) (h1 : -500 ≤ k) (h2 : k + n ≤ 99000) : moonDay M k ≤ moonDay M (k + n) := by
  induction n with
  | zero => simp
  | succ n ih =>
    have := ih (by push_cast at h2; omega)
    have b := moonDay_lt hM (k := k + n) (by omega) (by push_cast at h2; omega)
    rw [show k + ((n + 1 : ℕ) : ℤ) = k + n + 1 by push_cast; ring]
    omega

theorem moonDay_le {k k' : ℤ} (h1 : -500 ≤ k) (h2 : k' ≤ 99000) (h : k ≤ k') : moonDay M k ≤ moonDay M k' := by
  obtain ⟨n, rfl⟩ : ∃ n : ℕ, k' = k + n := ⟨(k' - k).toNat, by omega⟩
  exact moonDay_mono hM n h1 h2

omit hM in
theorem goodAt_congr {tag : ℕ} {D N D' N' : ℤ → ℤ} {n k : ℤ} (h : GoodAt tag D N n k) (d2 : D' (n + 2) = D (n + 2)) (d4 : D' (n + 4) = D (n + 4))
    (d24 : D' (n + 24) = D (n + 24)) (n2 : N' (k + 2) = N (k + 2)) (n3 : N' (k + 3) = N (k + 3)) (n13 : N' (k + 13) = N (k + 13)) :
    GoodAt tag D' N' n k := by
  unfold GoodAt at h ⊢
  rw [d2, d4, d24, n2, n3, n13]
  exact h

/-- the table of the years up to 1960 -/
theorem year_table {Y : ℕ} (h1 : 1584 ≤ Y) (h2 : Y ≤ 1960) (i : ℕ) (hi : i ≤ 48) :
    dayT M (24 * ((Y : ℤ) - 2000) + 18 + i) = (Low.termJD (24 * Y + 18 - 38000 + i) : ℤ) - 2451545 := by
  rw [show 24 * ((Y : ℤ) - 2000) + 18 + i = ((24 * Y + 18 - 38000 + i : ℕ) : ℤ) - 10000 by omega, dayT_table hM (by omega)]

theorem facts : Facts (astro M) (dayT M) (dayN M) (termAt M) 1584 9998 where
  toBins := bins hM
  late := by norm_num
  le := by norm_num
  four := by norm_num
  year Y h1 h2 := by
    obtain ⟨Y, rfl⟩ : ∃ Z : ℕ, Y = Z := ⟨Y.toNat, by omega⟩
    by_cases c : Y ≤ 1960
    · have H := (Low.yearD_mem (Low.allFrom_get Low.years (x := Y) (by omega) (by omega))).1
      have e0 := year_table hM (Y := Y) (by omega) c 0 (by norm_num)
      have e1 := year_table hM (Y := Y) (by omega) c 24 (by norm_num)
      simp only [Nat.cast_zero, add_zero, Nat.cast_ofNat] at e0 e1
      rw [e0, e1]
      generalize Low.termJD _ = a at H ⊢
      generalize Low.termJD _ = b at H ⊢
      omega
    rw [dayT_high M (by omega), dayT_high M (by omega)]
    have g := (High.year_gap hM (Y := Y) (by omega) (by omega)).1
    rw [show 24 * (((Y + 1 : ℕ) : ℤ) - 2000) + 18 = 24 * ((Y : ℤ) - 2000) + 18 + 24 by push_cast; ring] at g
    obtain ⟨-, -, -, ⟨a1, a2⟩, -⟩ := sun_at hM (n := 24 * ((Y : ℤ) - 2000) + 18) (by omega) (by omega)
    obtain ⟨-, -, -, ⟨b1, b2⟩, -⟩ := sun_at hM (n := 24 * ((Y : ℤ) - 2000) + 18 + 24) (by omega) (by omega)
    have : (termDay M (24 * ((Y : ℤ) - 2000) + 18) : ℚ) + 362 ≤ termDay M (24 * ((Y : ℤ) - 2000) + 18 + 24) := by linarith
    exact_mod_cast this
  years Y h1 h2 := by
    obtain ⟨Y, rfl⟩ : ∃ Z : ℕ, Y = Z := ⟨Y.toNat, by omega⟩
    by_cases c : Y ≤ 1960
    · have H := (Low.yearD_mem (Low.allFrom_get Low.years (x := Y) (by omega) (by omega))).2.1
      have e0 := year_table hM (Y := Y) (by omega) c 0 (by norm_num)
      have e1 := year_table hM (Y := Y) (by omega) c 48 (by norm_num)
      simp only [Nat.cast_zero, add_zero, Nat.cast_ofNat] at e0 e1
      rw [e0, e1]
      generalize Low.termJD _ = a at H ⊢
      generalize Low.termJD _ = b at H ⊢
      omega
    rw [dayT_high M (by omega), dayT_high M (by omega)]
    have g := (High.year_gap hM (Y := Y) (by omega) (by omega)).2
    have g' := (High.year_gap hM (Y := Y + 1) (by omega) (by omega)).2
    rw [show 24 * (((Y + 1 : ℕ) : ℤ) - 2000) + 18 = 24 * ((Y : ℤ) - 2000) + 18 + 24 by push_cast; ring] at g g'
    rw [show 24 * (((Y + 1 + 1 : ℕ) : ℤ) - 2000) + 18 = 24 * ((Y : ℤ) - 2000) + 18 + 48 by push_cast; ring] at g'
    obtain ⟨-, -, -, ⟨a1, a2⟩, -⟩ := sun_at hM (n := 24 * ((Y : ℤ) - 2000) + 18) (by omega) (by omega)
    obtain ⟨-, -, -, ⟨b1, b2⟩, -⟩ := sun_at hM (n := 24 * ((Y : ℤ) - 2000) + 18 + 48) (by omega) (by omega)
    have : (termDay M (24 * ((Y : ℤ) - 2000) + 18 + 48) : ℚ) ≤ termDay M (24 * ((Y : ℤ) - 2000) + 18) + 733 := by linarith
    exact_mod_cast this
  moons k h1 h2 := by
    push_cast at h1 h2
    have k0 : (-5149 : ℚ) ≤ k := by linarith
    have k0' : -5149 ≤ k := by exact_mod_cast k0
    have k2 : (k : ℚ) + 25 ≤ 99000 := by linarith
    by_cases c : k ≤ -490
    · obtain ⟨j, rfl⟩ : ∃ j : ℕ, k = (j : ℤ) - 5200 := ⟨(k + 5200).toNat, by omega⟩
      have H := Low.allFrom_get Low.moonGaps (x := j) (by omega) (by omega)
      unfold Low.moonGap at H
      simp only [Nat.ble_eq, Nat.add_eq] at H
      rw [dayN_table hM (by omega), show (j : ℤ) - 5200 + 25 = ((j + 25 : ℕ) : ℤ) - 5200 by push_cast; ring, dayN_table hM (by omega)]
      generalize Low.moonJD _ = a at H ⊢
      generalize Low.moonJD _ = b at H ⊢
      omega
    rw [dayN_high hM (by omega), dayN_high hM (by omega)]
    have g := High.moon_gap hM (k := k) (by omega) (by exact_mod_cast k2)
    rw [moonDay_eq, moonDay_eq]
    have f1 := Int.floor_le (moonU M k)
    have f2 := Int.lt_floor_add_one (moonU M (k + 25))
    have : (⌊moonU M k⌋ : ℚ) + 733 < ⌊moonU M (k + 25)⌋ := by linarith
    have : ⌊moonU M k⌋ + 733 < ⌊moonU M (k + 25)⌋ := by exact_mod_cast this
    omega
  leap Y h1 h2 k a b c d := by
    obtain ⟨Y, rfl⟩ : ∃ Z : ℕ, Y = Z := ⟨Y.toNat, by omega⟩
    have y1 : (1584 : ℚ) ≤ Y := by exact_mod_cast h1
    have y2 : (Y : ℚ) ≤ 9998 := by exact_mod_cast h2
    push_cast at c d
    by_cases hY : Y ≤ 1960
    · have k0 : (-5149 : ℚ) ≤ k := by linarith
      have k0' : -5149 ≤ k := by exact_mod_cast k0
      have y3 : (Y : ℚ) ≤ 1960 := by exact_mod_cast hY
      have k1 : (k : ℚ) < -494 := by linarith
      have k1' : k < -494 := by exact_mod_cast k1
      obtain ⟨j, rfl⟩ : ∃ j : ℕ, k = (j : ℤ) - 5200 := ⟨(k + 5200).toNat, by omega⟩
      push_cast at c d
      have c' : (3652422 * Y - 5769792800 : ℤ) ≤ 295306 * j := by
        have : (3652422 * Y - 5769792800 : ℚ) ≤ 295306 * j := by linarith
        exact_mod_cast this
      have d' : (295306 * j : ℤ) ≤ 3652422 * Y - 5769252800 := by
        have : (295306 * j : ℚ) ≤ 3652422 * Y - 5769252800 := by linarith
        exact_mod_cast this
      have T := fun i hi => year_table hM (Y := Y) (by omega) hY i hi
      have Nt := fun (i : ℕ) (hi : i ≤ 13) => (show dayN M ((j : ℤ) - 5200 + i) = (Low.moonJD (j + i) : ℤ) - 2451545 by
        rw [show (j : ℤ) - 5200 + i = ((j + i : ℕ) : ℤ) - 5200 by push_cast; ring, dayN_table hM (by omega)])
      have T0 := T 0 (by norm_num)
      have N0 := Nt 0 (by norm_num)
      have N1 := Nt 1 (by norm_num)
      simp only [Nat.cast_zero, add_zero, Nat.cast_one] at T0 N0 N1
      rw [N0, T0] at a
      rw [N1, T0] at b
      have H := (Low.yearD_mem (Low.allFrom_get Low.years (x := Y) (by omega) (by omega))).2.2 j (by omega) (by omega)
        (by generalize Low.termJD _ = p at a; generalize Low.moonJD _ = q at a; omega)
        (by generalize Low.termJD _ = p at b; generalize Low.moonJD _ = q at b; omega)
      rw [High.leapOk_mem Low.leaps (by omega) (by omega) (by norm_num)] at H
      have T2 := T 2 (by norm_num)
      have T4 := T 4 (by norm_num)
      have T24 := T 24 (by norm_num)
      have N2 := Nt 2 (by norm_num)
      have N3 := Nt 3 (by norm_num)
      have N13 := Nt 13 (by norm_num)
      simp only [Nat.cast_ofNat] at T2 T4 T24 N2 N3 N13
      unfold GoodAt
      unfold High.Good at H
      rw [T2, T4, T24, N2, N3, N13]
      generalize leapTag (Y : ℤ) = tag at H ⊢
      rcases tag with _ | _ | tag <;> simp only at H ⊢ <;> omega
    · obtain ⟨k', F⟩ := High.moon_facts hM (Y := Y) (by omega) (by omega)
      have hk : -490 ≤ k ∧ k ≤ 98950 := by
        have y1 : (1961 : ℚ) ≤ Y := by exact_mod_cast (by omega : 1961 ≤ Y)
        have k1 : (-490 : ℚ) ≤ k := by linarith
        have k2 : (k : ℚ) ≤ 98950 := by linarith
        exact ⟨by exact_mod_cast k1, by exact_mod_cast k2⟩
      rw [dayN_high hM (by omega), dayT_high M (by omega)] at a
      rw [dayN_high hM (by omega), dayT_high M (by omega)] at b
      have e : k' = k := by
        have r := F.range
        have f1 := F.first
        have f2 := F.second
        by_contra hne
        rcases lt_or_gt_of_ne hne with h | h
        · have := moonDay_le hM (k := k' + 1) (k' := k) (by omega) (by omega) (by omega)
          omega
        · have := moonDay_le hM (k := k + 1) (k' := k') (by omega) (by omega) (by omega)
          omega
      rw [← e]
      refine goodAt_congr F.good (dayT_high M ?_) (dayT_high M ?_) (dayT_high M ?_) (dayN_high hM ?_) (dayN_high hM ?_) (dayN_high hM ?_) <;> omega

omit hM in
theorem Facts.less {A : Astro} {D N : ℤ → ℤ} {T : ℤ → ℚ} {lo hi hi' : ℤ} (B : Facts A D N T lo hi) (h : lo ≤ hi') (h' : hi' ≤ hi) :
    Facts A D N T lo hi' where
  low := B.low
  high := h'.trans B.high
  qi x n a b := B.qi x n a (by omega)
  shuo x k a b := B.shuo x k a (by have : (hi' : ℚ) ≤ hi := by exact_mod_cast h'
                                   linarith)
  first x a b := B.first x a (by have : (hi' : ℚ) ≤ hi := by exact_mod_cast h'
                                 linarith)
  acc x n a b := B.acc x n a (by omega)
  d n a b := B.d n a (by omega)
  t n a b := B.t n a (by omega)
  td n a b := B.td n a (by omega)
  before Y a b := B.before Y a (by omega)
  after Y a b := B.after Y a (by omega)
  n k a b := B.n k a (by have : (hi' : ℚ) ≤ hi := by exact_mod_cast h'
                         linarith)
  late := B.late
  le := h
  four := h'.trans B.four
  year Y a b := B.year Y a (by omega)
  years Y a b := B.years Y a (by omega)
  moons k a b := B.moons k a (by have : (hi' : ℚ) ≤ hi := by exact_mod_cast h'
                                 linarith)
  leap Y a b := B.leap Y a (by omega)

theorem full : Full (astro M) (dayT M) (dayN M) (termAt M) 1584 6890 where
  toFacts := (facts hM).less (by norm_num) (by norm_num)
  month n h1 h2 := by
    obtain ⟨Y, s, hs, hY1, hY2, rfl⟩ : ∃ Y s : ℕ, s < 24 ∧ 1584 ≤ Y ∧ Y ≤ 6891 ∧ n = 24 * ((Y : ℤ) - 2000) + s :=
      ⟨(2000 + n / 24).toNat, (n % 24).toNat, by omega, by omega, by omega, by omega⟩
    obtain ⟨m, m1, m2⟩ : High.InMonth (termV M (24 * ((Y : ℤ) - 2000) + s)) := by
      by_cases c : Y ≤ 1960
      · exact (Low.inst hM hY1 (by omega)).month s hs
      · exact High.month_facts hM (by omega) hY2 hs
    have b' := abs_le.1 (term_facts hM (n := 24 * ((Y : ℤ) - 2000) + s) (by omega) (by omega)).2.2.2
    exact ⟨m, by linarith [b'.1, b'.2], by linarith [b'.1, b'.2]⟩

end Ephem
