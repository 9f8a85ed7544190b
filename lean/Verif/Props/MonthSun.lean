import Verif.Props.MonthPillar
import Verif.Props.SunPillar

/-! # C123: the number of the lunar month tells where the sun stands -/

section
open Spec ShouXing

variable {M : Libm}

private theorem num_eq {a b : ℤ} (h : ganZhi a = ganZhi b) (h1 : |a - b| < 60) : a = b := by
  have k1 : ∀ i j : Fin 60, ganZhi (i : ℕ) = ganZhi (j : ℕ) → i = j := by decide +kernel
  have per : ∀ c : ℤ, ganZhi c = ganZhi ((c % 60).toNat : ℕ) := by
    intro c
    unfold ganZhi stem branch
    rw [show (((c % 60).toNat : ℕ) : ℤ) % 10 = c % 10 by omega, show (((c % 60).toNat : ℕ) : ℤ) % 12 = c % 12 by omega]
  rw [per a, per b] at h
  have := k1 ⟨(a % 60).toNat, by omega⟩ ⟨(b % 60).toNat, by omega⟩ h
  simp only [Fin.mk.injEq] at this
  have h1 := abs_lt.1 h1
  omega

/-- **C123** in lunar month `m` of lunar year `Y` the longitude of the sun is within 45° of that of the principal term of the month, which is
`24 (Y - 2000) + 2 m + 20` times 15° (雨水, 330°, for the first month; 冬至, 270°, for the eleventh); in a leap month it is no more than 15° before it, on the first
day of a month no more than 15° after it.  The longitude is counted on from year to year; `x` is, to 380 days, the instant in days, and `δ` may be any
difference of dynamical and universal time within 14 minutes of `dtT x` -/
theorem C123_month (hM : M.Good) (s : Solar) (hs : s.Valid) (h1 : 1587 ≤ s.year) (h2 : s.year ≤ 2997) (l : Lunar)
    (hl : Lunar.fromSolar (astro M) s = .ok l) (W : ℝ) (hW : W = (24 * (l.year - 2000) + 2 * |l.month| + 20 : ℤ) * (Real.pi / 12)) :
    ∃ x : Fl M, ∀ δ t : ℝ, |δ - (dtT x : Fl M).v| ≤ 0.01 → Instant s δ t → |(x.v : ℝ) - 36525 * t| ≤ 380 ∧
      |saLon t (-1) - W| ≤ Real.pi / 4 + 0.00025 ∧
      (l.month < 0 → W - Real.pi / 12 - 0.00025 ≤ saLon t (-1)) ∧
      (l.day = 1 → saLon t (-1) ≤ W + Real.pi / 12 + 0.00025) := by
  obtain ⟨f1, P, mb, -⟩ := Ephem.made hM hs (by omega) (by omega) hl
  obtain ⟨p, ep, c1, c2, c3⟩ := C97_month hM s hs (by omega) (by omega) l hl l.getMonthInGanZhiExact (by simp)
  obtain ⟨m, x, mb', em, h⟩ := month_num hM s hs (by omega) h2 l hl
  have ny := P.near
  rw [f1] at ny
  have c1 := abs_le.1 c1
  rw [ep] at em
  obtain rfl : p = m := num_eq (Except.ok.inj em) (by rw [abs_lt]; omega)
  refine ⟨x, fun δ t hδ ht => ?_⟩
  obtain ⟨a, b, c⟩ := h δ t hδ ht
  have pos := Real.pi_pos
  generalize |l.month| = k at *
  have mul : ∀ u v : ℤ, u ≤ v → (u : ℝ) * (Real.pi / 12) ≤ v * (Real.pi / 12) := fun u v h =>
    mul_le_mul_of_nonneg_right (by exact_mod_cast h) (by positivity)
  have r1 := mul (24 * (l.year - 2000) + 2 * k + 20 - 3) (2 * p - 47887) (by omega)
  have r2 := mul (2 * p - 47885) (24 * (l.year - 2000) + 2 * k + 20 + 3) (by omega)
  rw [Int.cast_sub, sub_mul, ← hW] at r1
  rw [Int.cast_add _ 3, add_mul, ← hW] at r2
  push_cast at r1 r2
  refine ⟨a, ?_, fun hl => ?_, fun hd => ?_⟩
  · rw [abs_le]; constructor <;> linarith
  · have := c2 hl
    have r := mul (24 * (l.year - 2000) + 2 * k + 20 - 1) (2 * p - 47887) (by omega)
    rw [Int.cast_sub, sub_mul, ← hW] at r
    push_cast at r
    linarith
  · have := c3 hd
    have r := mul (2 * p - 47885) (24 * (l.year - 2000) + 2 * k + 20 + 1) (by omega)
    rw [Int.cast_add _ 1, add_mul, ← hW] at r
    push_cast at r
    linarith

/-- **C123** so in the second and the eighth month the sun is within 46.4° of the equinoxes, in the fifth and the eleventh of the solstices, also if they are
leap months -/
theorem C123_seasons (hM : M.Good) (s : Solar) (hs : s.Valid) (h1 : 1587 ≤ s.year) (h2 : s.year ≤ 2997) (l : Lunar)
    (hl : Lunar.fromSolar (astro M) s = .ok l) :
    ∃ x : Fl M, ∀ δ t : ℝ, |δ - (dtT x : Fl M).v| ≤ 0.01 → Instant s δ t → |(x.v : ℝ) - 36525 * t| ≤ 380 ∧
      (|l.month| = 2 → 0.69 ≤ Real.cos (saLon t (-1))) ∧ (|l.month| = 5 → 0.69 ≤ Real.sin (saLon t (-1))) ∧
      (|l.month| = 8 → Real.cos (saLon t (-1)) ≤ -0.69) ∧ (|l.month| = 11 → Real.sin (saLon t (-1)) ≤ -0.69) := by
  obtain ⟨x, h⟩ := C123_month hM s hs h1 h2 l hl _ rfl
  refine ⟨x, fun δ t hδ ht => ?_⟩
  obtain ⟨a, b, -⟩ := h δ t hδ ht
  have near : 0.69 ≤ Real.cos (saLon t (-1) - (24 * (l.year - 2000) + 2 * |l.month| + 20 : ℤ) * (Real.pi / 12)) := by
    have p2 := Real.pi_lt_d4
    have := Real.one_sub_sq_div_two_le_cos (x := saLon t (-1) - (24 * (l.year - 2000) + 2 * |l.month| + 20 : ℤ) * (Real.pi / 12))
    have b := abs_le.1 b
    have : (saLon t (-1) - (24 * (l.year - 2000) + 2 * |l.month| + 20 : ℤ) * (Real.pi / 12)) ^ 2 ≤ 0.78566 ^ 2 := sq_le_sq' (by linarith) (by linarith)
    linarith
  have turn : ∀ y : ℝ, Real.cos (saLon t (-1) - y - ((l.year - 2000 : ℤ) : ℝ) * (2 * Real.pi)) = Real.cos (saLon t (-1) - y) :=
    fun y => Real.cos_sub_int_mul_two_pi _ _
  refine ⟨a, fun e => ?_, fun e => ?_, fun e => ?_, fun e => ?_⟩ <;> rw [e] at near
  · rw [show saLon t (-1) - (24 * (l.year - 2000) + 2 * 2 + 20 : ℤ) * (Real.pi / 12) = saLon t (-1) - 2 * Real.pi - ((l.year - 2000 : ℤ) : ℝ) * (2 * Real.pi) by
      push_cast; ring, turn, Real.cos_sub_two_pi] at near
    exact near
  · rw [show saLon t (-1) - (24 * (l.year - 2000) + 2 * 5 + 20 : ℤ) * (Real.pi / 12) =
      saLon t (-1) - (Real.pi / 2 + 2 * Real.pi) - ((l.year - 2000 : ℤ) : ℝ) * (2 * Real.pi) by push_cast; ring, turn, ← sub_sub, Real.cos_sub_two_pi,
      Real.cos_sub_pi_div_two] at near
    exact near
  · rw [show saLon t (-1) - (24 * (l.year - 2000) + 2 * 8 + 20 : ℤ) * (Real.pi / 12) =
      saLon t (-1) - (Real.pi + 2 * Real.pi) - ((l.year - 2000 : ℤ) : ℝ) * (2 * Real.pi) by push_cast; ring, turn, ← sub_sub, Real.cos_sub_two_pi,
      Real.cos_sub_pi] at near
    linarith
  · rw [show saLon t (-1) - (24 * (l.year - 2000) + 2 * 11 + 20 : ℤ) * (Real.pi / 12) =
      saLon t (-1) - (Real.pi / 2 + Real.pi + 2 * Real.pi) - ((l.year - 2000 : ℤ) : ℝ) * (2 * Real.pi) by push_cast; ring, turn, ← sub_sub, Real.cos_sub_two_pi,
      ← sub_sub, Real.cos_sub_pi, Real.cos_sub_pi_div_two] at near
    linarith

/-- 1 July 2028 at noon is in a month with the sun where it should be -/
example : ∃ l t, Lunar.fromSolar (astro Libm.cut) ⟨2028, 7, 1, 12, 0, 0⟩ = .ok l ∧ (∃ x : Fl Libm.cut, |(x.v : ℝ) - 36525 * t| ≤ 380 ∧
    Instant ⟨2028, 7, 1, 12, 0, 0⟩ (dtT x : Fl Libm.cut).v t) ∧
    |saLon t (-1) - (24 * (l.year - 2000) + 2 * |l.month| + 20 : ℤ) * (Real.pi / 12)| ≤ Real.pi / 4 + 0.00025 := by
  obtain ⟨l, e, -⟩ := C84_round_trip Libm.cut_good ⟨2028, 7, 1, 12, 0, 0⟩ (by decide) (by decide) (by decide)
  obtain ⟨x, h⟩ := C123_month Libm.cut_good ⟨2028, 7, 1, 12, 0, 0⟩ (by decide) (by decide) (by decide) l e _ rfl
  obtain ⟨t, ht⟩ : ∃ t, Instant ⟨2028, 7, 1, 12, 0, 0⟩ (dtT x : Fl Libm.cut).v t :=
    ⟨((86400 * ((JD.jdn ⟨2028, 7, 1⟩ : ℤ) - 2451545) + (12 : ℤ) * 3600 + (0 : ℤ) * 60 + (0 : ℤ) - 43200 : ℝ) / 86400 + (dtT x : Fl Libm.cut).v - 1 / 3) / 36525,
      JD.jdn ⟨2028, 7, 1⟩, (isDay_iff (by decide)).2 rfl, by push_cast; ring⟩
  obtain ⟨a, b, -⟩ := h _ t (by rw [sub_self, abs_zero]; norm_num) ht
  exact ⟨l, t, e, ⟨x, a, ht⟩, b⟩

/-- the principal terms of the first and the eleventh month of 2000: 330° and 270°, the latter after one turn -/
example : (24 * (2000 - 2000) + 2 * |(1 : ℤ)| + 20) * 15 = 330 ∧ (24 * (2000 - 2000) + 2 * |(11 : ℤ)| + 20) * 15 = 270 + 360 := by decide

end
