import Verif.Proof.Lunation.Month

/-! # From one new moon to the twelfth and the thirteenth after it -/

open ShouXing

namespace Lunation
open Near (ampl R R_eq)

section
variable {t t' Δ : ℝ} {n : ℤ}

/-- the time of 12 or 13 months -/
theorem year_start {w w' : ℝ} (hn : n = 12 ∨ n = 13) (ht : |t| ≤ 30.1) (ht' : |t'| ≤ 30.1) (hw' : |w' - w - n * (2 * Real.pi)| ≤ 0.000001) (hG : |G t - w| ≤ 0.0055)
    (hG' : |G t' - w'| ≤ 0.0055) (hΔ : v0 * (t' - t) = n * (2 * Real.pi) + Δ) :
    |t' - t| ≤ 0.0107 ∧ 0 ≤ t' - t ∧ |Δ| ≤ 0.4093 ∧ |Δ - ((Dm t' - w') - (Dm t - w))| ≤ 0.00003 := by
  have v0' : (0 : ℝ) < v0 := by linarith [v0_pos]
  have p2 := Real.pi_lt_d6
  have p1 := Real.pi_gt_d6
  have P := abs_le.1 (crude ht hG)
  have P' := abs_le.1 (crude ht' hG')
  have hw' := abs_le.1 hw'
  have lip := abs_le.1 (Dm_lip ht ht')
  have nn : (n : ℝ) * (2 * Real.pi) ≤ 81.69 ∧ 75 ≤ (n : ℝ) * (2 * Real.pi) := by
    rcases hn with rfl | rfl <;> push_cast <;> constructor <;> linarith
  have T1 : |t' - t| ≤ 0.0107 := by
    by_contra hc
    push Not at hc
    have : 7771 * |t' - t| ≤ |v0 * (t' - t)| := by
      rw [abs_mul, abs_of_pos v0']
      exact mul_le_mul_of_nonneg_right v0_pos (abs_nonneg _)
    have : |v0 * (t' - t)| ≤ 82.11 + 0.0023 * |t' - t| := by rw [abs_le]; constructor <;> linarith
    linarith
  have T0 : 0 ≤ t' - t := by
    by_contra hc
    push Not at hc
    have : v0 * (t' - t) < 0 := mul_neg_of_pos_of_neg v0' hc
    linarith
  have Δ1 : |Δ - ((Dm t' - w') - (Dm t - w))| ≤ 0.00003 := by rw [abs_le]; constructor <;> linarith
  refine ⟨T1, T0, ?_, Δ1⟩
  have Δ1 := abs_le.1 Δ1
  rw [abs_le]; constructor <;> linarith

/-- the sun after a year and some days -/
theorem Su_year (h0 : -0.5 ≤ t) (h1 : t ≤ 30.1) (T1 : |t' - t| ≤ 0.0107) {d : ℝ} (hd : |628.307585 * (t' - t) - 2 * Real.pi| ≤ d) :
    |Su t' - Su t| ≤ 0.0335 * d + 0.000003 := by
  have s : |Real.sin (628.307585 * (t' - t) / 2)| ≤ d / 2 := by
    rw [show 628.307585 * (t' - t) / 2 = (628.307585 * (t' - t) - 2 * Real.pi) / 2 + Real.pi by ring, Real.sin_add_pi, abs_neg]
    exact (abs_sin_half _).trans (div_le_div_of_nonneg_right hd (by norm_num))
  have e : Su t' - Su t = -2 * (Real.sin (628.307585 * (t' - t) / 2) *
      (0.0334166 * Real.sin ((4.669257 + 628.307585 * t' + (4.669257 + 628.307585 * t)) / 2) +
        0.0002061 * t * Real.sin ((4.669257 + 628.307585 * t' + (4.669257 + 628.307585 * t)) / 2 + -1.991027))) +
      0.0002061 * (Real.cos (2.67823 + 628.307585 * t') * (t' - t)) := by
    have e1 := Real.cos_sub_cos (4.669257 + 628.307585 * t') (4.669257 + 628.307585 * t)
    have e2 := Real.cos_sub_cos (2.67823 + 628.307585 * t') (2.67823 + 628.307585 * t)
    rw [show (4.669257 + 628.307585 * t' - (4.669257 + 628.307585 * t)) / 2 = 628.307585 * (t' - t) / 2 by ring] at e1
    rw [show (2.67823 + 628.307585 * t' - (2.67823 + 628.307585 * t)) / 2 = 628.307585 * (t' - t) / 2 by ring,
      show (2.67823 + 628.307585 * t' + (2.67823 + 628.307585 * t)) / 2 = (4.669257 + 628.307585 * t' + (4.669257 + 628.307585 * t)) / 2 + -1.991027 by ring] at e2
    unfold Su
    linear_combination 0.0334166 * e1 + 0.0002061 * t * e2
  rw [e]
  have a := sun_amp h0 h1 ((4.669257 + 628.307585 * t' + (4.669257 + 628.307585 * t)) / 2)
  have k1 := mul_le (show |(-2 : ℝ)| ≤ 2 by norm_num) (mul_le s a)
  have k2 := mul_le (show |(0.0002061 : ℝ)| ≤ 0.0002061 by rw [abs_of_pos (by norm_num)])
    (mul_le (Real.abs_cos_le_one (2.67823 + 628.307585 * t')) T1)
  refine (abs_add_le _ _).trans ?_
  linarith

theorem sun_year (hn : n = 12 ∨ n = 13) (h0 : -0.5 ≤ t) (h1 : t ≤ 30.1) (hΔ : v0 * (t' - t) = n * (2 * Real.pi) + Δ) (T1 : |t' - t| ≤ 0.0107) (Δ2 : |Δ| ≤ 0.4093) :
    |Su t' - Su t| ≤ 0.0119 := by
  have v0' : (0 : ℝ) < v0 := by linarith [v0_pos]
  have p2 := Real.pi_lt_d6
  have p1 := Real.pi_gt_d6
  have Δ3 := abs_le.1 Δ2
  have hd : |628.307585 * (t' - t) - 2 * Real.pi| ≤ 0.354 := by
    unfold v0 at hΔ
    rcases hn with rfl | rfl <;> push_cast at hΔ <;> rw [abs_le] <;> constructor <;> linarith
  exact (Su_year h0 h1 T1 hd).trans (by norm_num)

/-- how far a row is from whole turns -/
theorem ph_year {r : Row} (hr : small r) (ht : |t| ≤ 30.1) (ht' : |t'| ≤ 30.1) (hΔ : v0 * (t' - t) = n * (2 * Real.pi) + Δ) (T1 : |t' - t| ≤ 0.0107) :
    |ph r t' - ph r t - fr r / v0 * (n * (2 * Real.pi) + Δ)| ≤ 0.00034 := by
  have v0' : (0 : ℝ) < v0 := by linarith [v0_pos]
  have eT : fr r * (t' - t) = fr r / v0 * (n * (2 * Real.pi) + Δ) := by rw [← hΔ]; field_simp
  rw [← eT]
  exact (ph_lin hr ht ht').trans (by linarith)

theorem row2_year (hn : n = 12 ∨ n = 13) (ht : |t| ≤ 30.1) (ht' : |t'| ≤ 30.1) (hΔ : v0 * (t' - t) = n * (2 * Real.pi) + Δ) (T1 : |t' - t| ≤ 0.0107) (Δ2 : |Δ| ≤ 0.4093) :
    |(r2.1 : ℝ) / 10 ^ 7 / R * (Real.cos (ph r2 t') - Real.cos (ph r2 t))| ≤ 0.01149 * (2 * |Δ| + 0.0004) := by
  have p2 := Real.pi_lt_d6
  have p1 := Real.pi_gt_d6
  have Δ3 := abs_le.1 Δ2
  have h := abs_le.1 (ph_year small_rows.2.2.1 ht ht' hΔ T1)
  have ha : |(r2.1 : ℝ) / 10 ^ 7 / R| ≤ 0.01149 := by have := abs_le.1 amp2; rw [abs_le]; constructor <;> linarith
  have c : |fr r2 / v0 - 2| ≤ 0.0000000001 := by
    simp only [fr, r2]; unfold v0; rw [abs_le]; constructor <;> norm_num
  have nn : |(n : ℝ) * (2 * Real.pi) + Δ| ≤ 83 := by
    rcases hn with rfl | rfl <;> push_cast <;> rw [abs_le] <;> constructor <;> linarith
  have c' := abs_le.1 (mul_le c nn)
  rw [sub_mul] at c'
  rw [← cos_turns (ph r2 t') (2 * n)]
  refine mul_le ha ((Real.abs_cos_sub_cos_le _ _).trans ?_)
  have := le_abs_self Δ
  have := neg_abs_le Δ
  push_cast
  rw [abs_le]; constructor <;> linarith

theorem main_year {w w' : ℝ} (hn : n = 12 ∨ n = 13) (h0 : -0.5 ≤ t) (ht : |t| ≤ 30.1) (ht' : |t'| ≤ 30.1) (hw' : |w' - w - n * (2 * Real.pi)| ≤ 0.000001)
    (hG : |G t - w| ≤ 0.0055) (hG' : |G t' - w'| ≤ 0.0055) (hΔ : v0 * (t' - t) = n * (2 * Real.pi) + Δ) :
    |Δ + ((r0.1 : ℝ) / 10 ^ 7 / R * (Real.cos (ph r0 t') - Real.cos (ph r0 t)) +
      (r1.1 : ℝ) / 10 ^ 7 / R * (Real.cos (ph r1 t') - Real.cos (ph r1 t)))| ≤ 0.05471 + 0.02298 * |Δ| := by
  obtain ⟨T1, T0, Δ2, Δ1⟩ := year_start hn ht ht' hw' hG hG' hΔ
  have sun := abs_le.1 (sun_year hn h0 (abs_le.1 ht).2 hΔ T1 Δ2)
  have rs := abs_le.1 (rest_rad t)
  have rs' := abs_le.1 (rest_rad t')
  have row2 := abs_le.1 (row2_year hn ht ht' hΔ T1 Δ2)
  have e : G t' - G t = (Dm t' - Dm t) - (Su t' - Su t) + (S rest t' / R - S rest t / R) +
    ((r0.1 : ℝ) / 10 ^ 7 / R * (Real.cos (ph r0 t') - Real.cos (ph r0 t)) +
    (r1.1 : ℝ) / 10 ^ 7 / R * (Real.cos (ph r1 t') - Real.cos (ph r1 t))) +
    (r2.1 : ℝ) / 10 ^ 7 / R * (Real.cos (ph r2 t') - Real.cos (ph r2 t)) := by
    unfold G
    rw [S20_eq, S20_eq]
    ring
  have Δ1 := abs_le.1 Δ1
  have hG := abs_le.1 hG
  have hG' := abs_le.1 hG'
  have := abs_nonneg Δ
  rw [abs_le]; constructor <;> linarith

/-- the angle of row 0 after 12 and 13 months -/
theorem x_year (hn : n = 12 ∨ n = 13) (ht : |t| ≤ 30.1) (ht' : |t'| ≤ 30.1) (hΔ : v0 * (t' - t) = n * (2 * Real.pi) + Δ) (T1 : |t' - t| ≤ 0.0107) (Δ2 : |Δ| ≤ 0.4093) :
    |ph r0 t' - ph r0 t - (n + 1 : ℤ) * (2 * Real.pi) - (0.45059052 * n - 2 * Real.pi + 1.07171371 * Δ)| ≤ 0.00035 := by
  have p2 := Real.pi_lt_d20
  have p1 := Real.pi_gt_d20
  have Δ3 := abs_le.1 Δ2
  have h := abs_le.1 (ph_year small_rows.1 ht ht' hΔ T1)
  have c : |fr r0 / v0 - 1.07171370907| ≤ 0.0000000001 := by
    simp only [fr, r0]; unfold v0; rw [abs_le]; constructor <;> norm_num
  have nn : |(n : ℝ) * (2 * Real.pi) + Δ| ≤ 83 := by
    rcases hn with rfl | rfl <;> push_cast <;> rw [abs_le] <;> constructor <;> linarith
  have c' := abs_le.1 (mul_le c nn)
  rw [sub_mul] at c'
  rcases hn with rfl | rfl <;> push_cast at * <;> rw [abs_le] <;> constructor <;> linarith

/-- the angle of row 1 after 12 and 13 months -/
theorem y_year (hn : n = 12 ∨ n = 13) (ht : |t| ≤ 30.1) (ht' : |t'| ≤ 30.1) (hΔ : v0 * (t' - t) = n * (2 * Real.pi) + Δ) (T1 : |t' - t| ≤ 0.0107) (Δ2 : |Δ| ≤ 0.4093) :
    |ph r1 t' - ph r1 t - (n - 1 : ℤ) * (2 * Real.pi) - (2 * Real.pi - 0.45059052 * n + 0.92828629 * Δ)| ≤ 0.00035 := by
  have p2 := Real.pi_lt_d20
  have p1 := Real.pi_gt_d20
  have Δ3 := abs_le.1 Δ2
  have h := abs_le.1 (ph_year small_rows.2.1 ht ht' hΔ T1)
  have c : |fr r1 / v0 - 0.92828629093| ≤ 0.0000000001 := by
    simp only [fr, r1]; unfold v0; rw [abs_le]; constructor <;> norm_num
  have nn : |(n : ℝ) * (2 * Real.pi) + Δ| ≤ 83 := by
    rcases hn with rfl | rfl <;> push_cast <;> rw [abs_le] <;> constructor <;> linarith
  have c' := abs_le.1 (mul_le c nn)
  rw [sub_mul] at c'
  rcases hn with rfl | rfl <;> push_cast at * <;> rw [abs_le] <;> constructor <;> linarith

end

theorem cos_change {p p' x : ℝ} {m : ℤ} (hx : x = p' - p - m * (2 * Real.pi)) :
    Real.cos p' - Real.cos p = -2 * (Real.sin (x / 2) * Real.sin (p + x / 2)) := by
  rw [← cos_turns p' m, show p' - m * (2 * Real.pi) = p + x by rw [hx]; ring, Real.cos_sub_cos, show (p + x - p) / 2 = x / 2 by ring,
    show (p + x + p) / 2 = p + x / 2 by ring]
  ring

/-- rows 0 and 1 in a long year of 12 months -/
theorem pair_year {a b x y p z D : ℝ} (ha : |a - 0.10975981| ≤ 0.00000001) (hb : |b - 0.02223568| ≤ 0.00000001) (hD : 0.134 ≤ D) (hD' : D ≤ 0.41)
    (hx : |x - (-0.876099 + 1.07171371 * D)| ≤ 0.00036) (hy : |y - (0.876099 + 0.92828629 * D)| ≤ 0.00036) (hz : |z| ≤ 0.416) :
    |a * (-2 * (Real.sin (x / 2) * Real.sin p)) + b * (-2 * (Real.sin (y / 2) * Real.sin (p + z)))| ≤ 0.061 + 0.14 * (D - 0.134) := by
  have cz : 0.913 ≤ Real.cos z := by
    have := Real.one_sub_sq_div_two_le_cos (x := z)
    have h2 : z ^ 2 ≤ 0.416 ^ 2 := by
      rw [← sq_abs]; gcongr
    linarith
  have w : |0.07861 * Real.sin p + -0.02133 * Real.sin (p + z)| ≤ 0.0599 := by
    refine two_waves (by norm_num) ?_
    linarith
  have s1 : |Real.sin 0.366245 - 0.358| ≤ 0.0009 := by
    have := Real.sin_bound (x := 0.366245) (by rw [abs_of_pos (by norm_num)]; norm_num)
    rw [abs_of_pos (by norm_num : (0 : ℝ) < 0.366245)] at this
    have := abs_le.1 this
    rw [abs_le]; constructor <;> norm_num at * <;> linarith
  have s2 : |Real.sin 0.500245 - 0.4796| ≤ 0.0036 := by
    have := Real.sin_bound (x := 0.500245) (by rw [abs_of_pos (by norm_num)]; norm_num)
    rw [abs_of_pos (by norm_num : (0 : ℝ) < 0.500245)] at this
    have := abs_le.1 this
    rw [abs_le]; constructor <;> norm_num at * <;> linarith
  have hx' := abs_le.1 hx
  have hy' := abs_le.1 hy
  have d1 : |Real.sin (x / 2) - Real.sin (-0.366245)| ≤ 0.5359 * (D - 0.134) + 0.0002 := by
    refine (Real.abs_sin_sub_sin_le _ _).trans ?_
    rw [abs_le]; constructor <;> linarith
  have d2 : |Real.sin (y / 2) - Real.sin 0.500245| ≤ 0.4642 * (D - 0.134) + 0.0002 := by
    refine (Real.abs_sin_sub_sin_le _ _).trans ?_
    rw [abs_le]; constructor <;> linarith
  rw [Real.sin_neg] at d1
  have f1 : |a * (2 * Real.sin (x / 2)) - -0.07861| ≤ 0.1177 * (D - 0.134) + 0.0003 := by
    have g1 := abs_le.1 (mul_le ha (Real.abs_sin_le_one (x / 2)))
    have := abs_le.1 s1
    have := abs_le.1 d1
    rw [sub_mul] at g1
    rw [abs_le]; constructor <;> linarith
  have f2 : |b * (2 * Real.sin (y / 2)) - 0.02133| ≤ 0.0207 * (D - 0.134) + 0.0002 := by
    have g1 := abs_le.1 (mul_le hb (Real.abs_sin_le_one (y / 2)))
    have := abs_le.1 s2
    have := abs_le.1 d2
    rw [sub_mul] at g1
    rw [abs_le]; constructor <;> linarith
  have k1 := abs_le.1 (mul_le f1 (Real.abs_sin_le_one p))
  have k2 := abs_le.1 (mul_le f2 (Real.abs_sin_le_one (p + z)))
  have w := abs_le.1 w
  rw [sub_mul] at k1 k2
  rw [abs_le]; constructor <;> linarith

/-- rows 0 and 1, each at its largest -/
theorem apart {a b x y p q X Y : ℝ} (ha : |a - 0.10975981| ≤ 0.00000001) (hb : |b - 0.02223568| ≤ 0.00000001) (hx : |x| ≤ X) (hy : |y| ≤ Y) :
    |a * (-2 * (Real.sin (x / 2) * Real.sin p)) + b * (-2 * (Real.sin (y / 2) * Real.sin q))| ≤ 0.10976 * X + 0.022236 * Y := by
  have am0 := abs_le.1 ha
  have am1 := abs_le.1 hb
  have m1 := mul_le (show |a| ≤ 0.10976 by rw [abs_le]; constructor <;> linarith)
    (mul_le (show |(-2 : ℝ)| ≤ 2 by norm_num) (mul_le ((abs_sin_half x).trans (div_le_div_of_nonneg_right hx (by norm_num))) (Real.abs_sin_le_one p)))
  have m2 := mul_le (show |b| ≤ 0.022236 by rw [abs_le]; constructor <;> linarith)
    (mul_le (show |(-2 : ℝ)| ≤ 2 by norm_num) (mul_le ((abs_sin_half y).trans (div_le_div_of_nonneg_right hy (by norm_num))) (Real.abs_sin_le_one q)))
  refine (abs_add_le _ _).trans ?_
  linarith

section
variable {t t' w w' : ℝ} {k : ℤ}

/-- twelve months -/
theorem year12 (h0 : -0.5 ≤ t) (h1 : t ≤ 30.1) (h0' : -0.5 ≤ t') (h1' : t' ≤ 30.1) (hw : |w - k * (2 * Real.pi)| ≤ 0.000001)
    (hw' : |w' - w - 12 * (2 * Real.pi)| ≤ 0.000001) (hG : |G t - w| ≤ 0.0055) (hG' : |G t' - w'| ≤ 0.0055) :
    -0.29 ≤ v0 * (t' - t) - 12 * (2 * Real.pi) ∧ v0 * (t' - t) - 12 * (2 * Real.pi) ≤ 0.134 := by
  have ht : |t| ≤ 30.1 := by rw [abs_le]; constructor <;> linarith
  have ht' : |t'| ≤ 30.1 := by rw [abs_le]; constructor <;> linarith
  obtain ⟨Δ, hΔ⟩ : ∃ Δ, Δ = v0 * (t' - t) - 12 * (2 * Real.pi) := ⟨_, rfl⟩
  rw [← hΔ]
  have hn : (12 : ℤ) = 12 ∨ (12 : ℤ) = 13 := Or.inl rfl
  have hw'' : |w' - w - ((12 : ℤ) : ℝ) * (2 * Real.pi)| ≤ 0.000001 := by push_cast; exact hw'
  have hΔ : v0 * (t' - t) = ((12 : ℤ) : ℝ) * (2 * Real.pi) + Δ := by rw [hΔ]; push_cast; ring
  obtain ⟨T1, T0, Δ2, Δ1⟩ := year_start hn ht ht' hw'' hG hG' hΔ
  have main := abs_le.1 (main_year hn h0 ht ht' hw'' hG hG' hΔ)
  have Δ3 := abs_le.1 Δ2
  have p2 := Real.pi_lt_d6
  have p1 := Real.pi_gt_d6
  obtain ⟨x, hx⟩ : ∃ x, x = ph r0 t' - ph r0 t - (12 + 1 : ℤ) * (2 * Real.pi) := ⟨_, rfl⟩
  obtain ⟨y, hy⟩ : ∃ x, x = ph r1 t' - ph r1 t - (12 - 1 : ℤ) * (2 * Real.pi) := ⟨_, rfl⟩
  have bx := x_year hn ht ht' hΔ T1 Δ2
  have bY := y_year hn ht ht' hΔ T1 Δ2
  rw [← hx] at bx
  rw [← hy] at bY
  push_cast at bx bY
  have bx' := abs_le.1 bx
  have bY' := abs_le.1 bY
  rw [cos_change hx, cos_change hy] at main
  constructor
  · by_contra hc
    push Not at hc
    have ax : |x| ≤ 0.8765 + 1.0718 * -Δ := by rw [abs_le]; constructor <;> linarith
    have ay : |y| ≤ 0.8765 := by rw [abs_le]; constructor <;> linarith
    have q := abs_le.1 (apart (p := ph r0 t + x / 2) (q := ph r1 t + y / 2) amp0 amp1 ax ay)
    rw [abs_of_neg (by linarith : Δ < 0)] at main
    linarith
  · by_contra hc
    push Not at hc
    rw [abs_of_pos (by linarith : 0 < Δ)] at main
    have hz : |ph r0 t + x / 2 + y / 2 + ph r1 t - Real.pi - 2 * (k * (2 * Real.pi))| ≤ 0.416 := by
      have f := abs_le.1 (phases ht)
      have P := abs_le.1 (crude ht hG)
      have P' := abs_le.1 (crude ht' hG')
      have Δ1 := abs_le.1 Δ1
      have hw := abs_le.1 hw
      rw [abs_le]; constructor <;> linarith
    obtain ⟨z, hz'⟩ : ∃ z, z = ph r0 t + x / 2 + y / 2 + ph r1 t - Real.pi - 2 * (k * (2 * Real.pi)) := ⟨_, rfl⟩
    rw [← hz'] at hz
    have e : Real.sin (ph r1 t + y / 2) = Real.sin (ph r0 t + x / 2 + -z) := by
      rw [show ph r1 t + y / 2 = Real.pi - (ph r0 t + x / 2 + -z) + (2 * k : ℤ) * (2 * Real.pi) by rw [hz']; push_cast; ring,
        Real.sin_add_int_mul_two_pi, Real.sin_pi_sub]
    have q := abs_le.1 (pair_year (x := x) (y := y) (p := ph r0 t + x / 2) (z := -z) (D := Δ) amp0 amp1 (by linarith) (by linarith)
      (by rw [abs_le]; constructor <;> linarith) (by rw [abs_le]; constructor <;> linarith) (by rw [abs_neg]; exact hz))
    rw [e] at main
    linarith

/-- thirteen months -/
theorem year13 (h0 : -0.5 ≤ t) (h1 : t ≤ 30.1) (h0' : -0.5 ≤ t') (h1' : t' ≤ 30.1)
    (hw' : |w' - w - 13 * (2 * Real.pi)| ≤ 0.000001) (hG : |G t - w| ≤ 0.0055) (hG' : |G t' - w'| ≤ 0.0055) :
    -0.19 ≤ v0 * (t' - t) - 13 * (2 * Real.pi) ∧ v0 * (t' - t) - 13 * (2 * Real.pi) ≤ 0.23 := by
  have ht : |t| ≤ 30.1 := by rw [abs_le]; constructor <;> linarith
  have ht' : |t'| ≤ 30.1 := by rw [abs_le]; constructor <;> linarith
  obtain ⟨Δ, hΔ⟩ : ∃ Δ, Δ = v0 * (t' - t) - 13 * (2 * Real.pi) := ⟨_, rfl⟩
  rw [← hΔ]
  have hn : (13 : ℤ) = 12 ∨ (13 : ℤ) = 13 := Or.inr rfl
  have hw'' : |w' - w - ((13 : ℤ) : ℝ) * (2 * Real.pi)| ≤ 0.000001 := by push_cast; exact hw'
  have hΔ : v0 * (t' - t) = ((13 : ℤ) : ℝ) * (2 * Real.pi) + Δ := by rw [hΔ]; push_cast; ring
  obtain ⟨T1, T0, Δ2, Δ1⟩ := year_start hn ht ht' hw'' hG hG' hΔ
  have main := abs_le.1 (main_year hn h0 ht ht' hw'' hG hG' hΔ)
  have Δ3 := abs_le.1 Δ2
  have p2 := Real.pi_lt_d6
  have p1 := Real.pi_gt_d6
  obtain ⟨x, hx⟩ : ∃ x, x = ph r0 t' - ph r0 t - (13 + 1 : ℤ) * (2 * Real.pi) := ⟨_, rfl⟩
  obtain ⟨y, hy⟩ : ∃ x, x = ph r1 t' - ph r1 t - (13 - 1 : ℤ) * (2 * Real.pi) := ⟨_, rfl⟩
  have bx := x_year hn ht ht' hΔ T1 Δ2
  have bY := y_year hn ht ht' hΔ T1 Δ2
  rw [← hx] at bx
  rw [← hy] at bY
  push_cast at bx bY
  have bx' := abs_le.1 bx
  have bY' := abs_le.1 bY
  rw [cos_change hx, cos_change hy] at main
  constructor
  · by_contra hc
    push Not at hc
    have ax : |x| ≤ 0.4259 + 1.0718 * -Δ := by rw [abs_le]; constructor <;> linarith
    have ay : |y| ≤ 0.4259 := by rw [abs_le]; constructor <;> linarith
    have q := abs_le.1 (apart (p := ph r0 t + x / 2) (q := ph r1 t + y / 2) amp0 amp1 ax ay)
    rw [abs_of_neg (by linarith : Δ < 0)] at main
    linarith
  · by_contra hc
    push Not at hc
    have ax : |x| ≤ 0.4259 := by rw [abs_le]; constructor <;> linarith
    have ay : |y| ≤ 0.4259 + 0.9283 * Δ := by rw [abs_le]; constructor <;> linarith
    have q := abs_le.1 (apart (p := ph r0 t + x / 2) (q := ph r1 t + y / 2) amp0 amp1 ax ay)
    rw [abs_of_pos (by linarith : 0 < Δ)] at main
    linarith

end

end Lunation
