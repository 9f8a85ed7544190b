import Verif.Proof.Lunation.Year
import Verif.Proof.Lunation.Table

/-! # From one new moon to the 235th after it, nineteen years later -/

open ShouXing Low Ephem LunarYear

namespace Lunation
open Near (ampl R R_eq)

section
variable {t t' Δ w w' : ℝ}

/-- the time of 235 months -/
theorem nineteen_start (ht : |t| ≤ 30.1) (ht' : |t'| ≤ 30.1) (hw' : |w' - w - 235 * (2 * Real.pi)| ≤ 0.000001) (hG : |G t - w| ≤ 0.0055)
    (hG' : |G t' - w'| ≤ 0.0055) (hΔ : v0 * (t' - t) = 235 * (2 * Real.pi) + Δ) :
    |t' - t| ≤ 0.1901 ∧ |Δ| ≤ 0.4098 ∧ |Δ - ((Dm t' - w') - (Dm t - w))| ≤ 0.00045 := by
  have v0' : (0 : ℝ) < v0 := by linarith [v0_pos]
  have p2 := Real.pi_lt_d6
  have p1 := Real.pi_gt_d6
  have P := abs_le.1 (crude ht hG)
  have P' := abs_le.1 (crude ht' hG')
  have hw' := abs_le.1 hw'
  have lip := abs_le.1 (Dm_lip ht ht')
  have T1 : |t' - t| ≤ 0.1901 := by
    by_contra hc
    push Not at hc
    have : 7771 * |t' - t| ≤ |v0 * (t' - t)| := by
      rw [abs_mul, abs_of_pos v0']
      exact mul_le_mul_of_nonneg_right v0_pos (abs_nonneg _)
    have : |v0 * (t' - t)| ≤ 1476.96 + 0.0023 * |t' - t| := by rw [abs_le]; constructor <;> linarith
    linarith
  have Δ1 : |Δ - ((Dm t' - w') - (Dm t - w))| ≤ 0.00045 := by rw [abs_le]; constructor <;> linarith
  refine ⟨T1, ?_, Δ1⟩
  have Δ1 := abs_le.1 Δ1
  rw [abs_le]; constructor <;> linarith

/-- the sun after nineteen years -/
theorem Su_nineteen (h0 : -0.5 ≤ t) (h1 : t ≤ 30.1) (hΔ : v0 * (t' - t) = 235 * (2 * Real.pi) + Δ) (T1 : |t' - t| ≤ 0.1901) (Δ2 : |Δ| ≤ 0.4098) :
    |Su t' - Su t| ≤ 0.0013 := by
  have p2 := Real.pi_lt_d6
  have p1 := Real.pi_gt_d6
  have Δ3 := abs_le.1 Δ2
  have hd : |628.307585 * (t' - t) - 19 * (2 * Real.pi)| ≤ 0.0367 := by
    unfold v0 at hΔ
    rw [abs_le]; constructor <;> linarith
  have s : |Real.sin (628.307585 * (t' - t) / 2)| ≤ 0.0367 / 2 := by
    have e : Real.sin (628.307585 * (t' - t) / 2) = -Real.sin ((628.307585 * (t' - t) - 19 * (2 * Real.pi)) / 2) := by
      rw [show 628.307585 * (t' - t) / 2 = (628.307585 * (t' - t) - 19 * (2 * Real.pi)) / 2 + Real.pi + (9 : ℤ) * (2 * Real.pi) by push_cast; ring,
        Real.sin_add_int_mul_two_pi, Real.sin_add_pi]
    rw [e, abs_neg]
    exact (abs_sin_half _).trans (div_le_div_of_nonneg_right hd (by norm_num))
  have e : Su t' - Su t = -2 * (Real.sin (628.307585 * (t' - t) / 2) *
      (0.0334166 * Real.sin ((4.669257 + 628.307585 * t' + (4.669257 + 628.307585 * t)) / 2) +
        0.0002061 * t * Real.sin ((4.669257 + 628.307585 * t' + (4.669257 + 628.307585 * t)) / 2 + -1.991027))) +
      0.0002061 * (Real.cos (2.67823 + 628.307585 * t') * (t' - t)) := by
    have e1 := Real.cos_sub_cos (4.669257 + 628.307585 * t') (4.669257 + 628.307585 * t)
    have e2 := Real.cos_sub_cos (2.67823 + 628.307585 * t') (2.67823 + 628.307585 * t)
    rw [show (4.669257 + 628.307585 * t' - (4.669257 + 628.307585 * t)) / 2 = 628.307585 * (t' - t) / 2 by ring] at e1
    rw [show (2.67823 + 628.307585 * t' - (2.67823 + 628.307585 * t)) / 2 = 628.307585 * (t' - t) / 2 by ring,
      show (2.67823 + 628.307585 * t' + (2.67823 + 628.307585 * t)) / 2 = (4.669257 + 628.307585 * t' + (4.669257 + 628.307585 * t)) / 2 + -1.991027 by ring] at e2
    unfold Su
    linear_combination 0.0334166 * e1 + 0.0002061 * t * e2
  rw [e]
  have a := sun_amp h0 h1 ((4.669257 + 628.307585 * t' + (4.669257 + 628.307585 * t)) / 2)
  have k1 := mul_le (show |(-2 : ℝ)| ≤ 2 by norm_num) (mul_le s a)
  have k2 := mul_le (show |(0.0002061 : ℝ)| ≤ 0.0002061 by rw [abs_of_pos (by norm_num)])
    (mul_le (Real.abs_cos_le_one (2.67823 + 628.307585 * t')) T1)
  refine (abs_add_le _ _).trans ?_
  linarith

/-- how far a row is from whole turns -/
theorem ph_nineteen {r : Row} (hr : small r) (ht : |t| ≤ 30.1) (ht' : |t'| ≤ 30.1) (hΔ : v0 * (t' - t) = 235 * (2 * Real.pi) + Δ) (T1 : |t' - t| ≤ 0.1901) :
    |ph r t' - ph r t - fr r / v0 * (235 * (2 * Real.pi) + Δ)| ≤ 0.0059 := by
  have v0' : (0 : ℝ) < v0 := by linarith [v0_pos]
  have eT : fr r * (t' - t) = fr r / v0 * (235 * (2 * Real.pi) + Δ) := by rw [← hΔ]; field_simp
  rw [← eT]
  exact (ph_lin hr ht ht').trans (by linarith)

/-- the angle of a row of 20 after 235 months, from the ratio `q` of its motion to the moon's -/
theorem angle_nineteen {r : Row} {q d : ℝ} (m : ℤ) (hr : small r) (ht : |t| ≤ 30.1) (ht' : |t'| ≤ 30.1) (hΔ : v0 * (t' - t) = 235 * (2 * Real.pi) + Δ) (T1 : |t' - t| ≤ 0.1901)
    (Δ2 : |Δ| ≤ 0.4098) (c : |fr r / v0 - q| ≤ 0.0000000001) (hd : |q * (235 * (2 * Real.pi)) - m * (2 * Real.pi) - d| ≤ 0.00005) :
    |ph r t' - ph r t - m * (2 * Real.pi) - (d + q * Δ)| ≤ 0.006 := by
  have p2 := Real.pi_lt_d6
  have p1 := Real.pi_gt_d6
  have Δ3 := abs_le.1 Δ2
  have h := abs_le.1 (ph_nineteen hr ht ht' hΔ T1)
  have c' := abs_le.1 (mul_le c (show |235 * (2 * Real.pi) + Δ| ≤ 1480 by rw [abs_le]; constructor <;> linarith))
  rw [sub_mul] at c'
  have hd := abs_le.1 hd
  rw [abs_le]; constructor <;> linarith

theorem row2_nineteen (ht : |t| ≤ 30.1) (ht' : |t'| ≤ 30.1) (hΔ : v0 * (t' - t) = 235 * (2 * Real.pi) + Δ) (T1 : |t' - t| ≤ 0.1901) (Δ2 : |Δ| ≤ 0.4098) :
    |(r2.1 : ℝ) / 10 ^ 7 / R * (Real.cos (ph r2 t') - Real.cos (ph r2 t))| ≤ 0.01149 * (2 * |Δ| + 0.006) := by
  have h := abs_le.1 (angle_nineteen (r := r2) (q := 2) (d := 0) 470 small_rows.2.2.1 ht ht' hΔ T1 Δ2
    (by simp only [fr, r2]; unfold v0; rw [abs_le]; constructor <;> norm_num)
    (by rw [show (2 : ℝ) * (235 * (2 * Real.pi)) - (470 : ℤ) * (2 * Real.pi) - 0 = 0 by push_cast; ring, abs_zero]; norm_num))
  have ha : |(r2.1 : ℝ) / 10 ^ 7 / R| ≤ 0.01149 := by have := abs_le.1 amp2; rw [abs_le]; constructor <;> linarith
  rw [← cos_turns (ph r2 t') 470]
  refine mul_le ha ((Real.abs_cos_sub_cos_le _ _).trans ?_)
  have := le_abs_self Δ
  have := neg_abs_le Δ
  rw [abs_le]; constructor <;> linarith

theorem main_nineteen (h0 : -0.5 ≤ t) (ht : |t| ≤ 30.1) (ht' : |t'| ≤ 30.1) (hw' : |w' - w - 235 * (2 * Real.pi)| ≤ 0.000001)
    (hG : |G t - w| ≤ 0.0055) (hG' : |G t' - w'| ≤ 0.0055) (hΔ : v0 * (t' - t) = 235 * (2 * Real.pi) + Δ) :
    |Δ + ((r0.1 : ℝ) / 10 ^ 7 / R * (Real.cos (ph r0 t') - Real.cos (ph r0 t)) +
      (r1.1 : ℝ) / 10 ^ 7 / R * (Real.cos (ph r1 t') - Real.cos (ph r1 t)))| ≤ 0.0447 + 0.02298 * |Δ| := by
  obtain ⟨T1, Δ2, Δ1⟩ := nineteen_start ht ht' hw' hG hG' hΔ
  have sun := abs_le.1 (Su_nineteen h0 (abs_le.1 ht).2 hΔ T1 Δ2)
  have rs := abs_le.1 (rest_rad t)
  have rs' := abs_le.1 (rest_rad t')
  have row2 := abs_le.1 (row2_nineteen ht ht' hΔ T1 Δ2)
  have e : G t' - G t = (Dm t' - Dm t) - (Su t' - Su t) + (S rest t' / R - S rest t / R) +
    ((r0.1 : ℝ) / 10 ^ 7 / R * (Real.cos (ph r0 t') - Real.cos (ph r0 t)) +
    (r1.1 : ℝ) / 10 ^ 7 / R * (Real.cos (ph r1 t') - Real.cos (ph r1 t))) +
    (r2.1 : ℝ) / 10 ^ 7 / R * (Real.cos (ph r2 t') - Real.cos (ph r2 t)) := by
    unfold G
    rw [S20_eq, S20_eq]
    ring
  have Δ1 := abs_le.1 Δ1
  have hG := abs_le.1 hG
  have hG' := abs_le.1 hG'
  have := abs_nonneg Δ
  rw [abs_le]; constructor <;> linarith

/-- 235 months -/
theorem nineteen (h0 : -0.5 ≤ t) (h1 : t ≤ 30.1) (h0' : -0.5 ≤ t') (h1' : t' ≤ 30.1)
    (hw' : |w' - w - 235 * (2 * Real.pi)| ≤ 0.000001) (hG : |G t - w| ≤ 0.0055) (hG' : |G t' - w'| ≤ 0.0055) :
    -0.2 ≤ v0 * (t' - t) - 235 * (2 * Real.pi) ∧ v0 * (t' - t) - 235 * (2 * Real.pi) ≤ 0.18 := by
  have ht : |t| ≤ 30.1 := by rw [abs_le]; constructor <;> linarith
  have ht' : |t'| ≤ 30.1 := by rw [abs_le]; constructor <;> linarith
  obtain ⟨Δ, hΔ⟩ : ∃ Δ, Δ = v0 * (t' - t) - 235 * (2 * Real.pi) := ⟨_, rfl⟩
  rw [← hΔ]
  have hΔ : v0 * (t' - t) = 235 * (2 * Real.pi) + Δ := by rw [hΔ]; ring
  obtain ⟨T1, Δ2, -⟩ := nineteen_start ht ht' hw' hG hG' hΔ
  have main := abs_le.1 (main_nineteen h0 ht ht' hw' hG hG' hΔ)
  have Δ3 := abs_le.1 Δ2
  have p2 := Real.pi_lt_d20
  have p1 := Real.pi_gt_d20
  obtain ⟨x, hx⟩ : ∃ x, x = ph r0 t' - ph r0 t - (252 : ℤ) * (2 * Real.pi) := ⟨_, rfl⟩
  obtain ⟨y, hy⟩ : ∃ x, x = ph r1 t' - ph r1 t - (218 : ℤ) * (2 * Real.pi) := ⟨_, rfl⟩
  have bx := angle_nineteen (r := r0) (q := 1.07171370907) (d := -0.92538) 252 small_rows.1 ht ht' hΔ T1 Δ2
    (by simp only [fr, r0]; unfold v0; rw [abs_le]; constructor <;> norm_num) (by push_cast; rw [abs_le]; constructor <;> linarith)
  have bY := angle_nineteen (r := r1) (q := 0.92828629093) (d := 0.92538) 218 small_rows.2.1 ht ht' hΔ T1 Δ2
    (by simp only [fr, r1]; unfold v0; rw [abs_le]; constructor <;> norm_num) (by push_cast; rw [abs_le]; constructor <;> linarith)
  rw [← hx] at bx
  rw [← hy] at bY
  have bx' := abs_le.1 bx
  have bY' := abs_le.1 bY
  rw [cos_change hx, cos_change hy] at main
  constructor
  · by_contra hc
    push Not at hc
    have ax : |x| ≤ 0.9314 + 1.0718 * -Δ := by rw [abs_le]; constructor <;> linarith
    have ay : |y| ≤ 0.9314 := by rw [abs_le]; constructor <;> linarith
    have q := abs_le.1 (apart (p := ph r0 t + x / 2) (q := ph r1 t + y / 2) amp0 amp1 ax ay)
    rw [abs_of_neg (by linarith : Δ < 0)] at main
    linarith
  · by_contra hc
    push Not at hc
    have ax : |x| ≤ 0.9314 := by rw [abs_le]; constructor <;> linarith
    have ay : |y| ≤ 0.9314 + 0.9283 * Δ := by rw [abs_le]; constructor <;> linarith
    have q := abs_le.1 (apart (p := ph r0 t + x / 2) (q := ph r1 t + y / 2) amp0 amp1 ax ay)
    rw [abs_of_pos (by linarith : 0 < Δ)] at main
    linarith

end

variable {M : Libm}

/-- the difference of the two times changes little in nineteen years -/
theorem dtT_nineteen {x x' : Fl M} (h0 : -14540 ≤ (x.v : ℝ)) (h : (x.v : ℝ) + 6930 ≤ x'.v) (h' : (x'.v : ℝ) ≤ x.v + 6950) (h1 : (x'.v : ℝ) ≤ 1100000) :
    |((dtT x' : Fl M).v : ℝ) - (dtT x : Fl M).v| ≤ 0.0342 := by
  have iv : ∀ n : ℤ, |n| ≤ 2000000 → ((int n : Fl M).v : ℝ) = n := by
    intro n hn
    rw [Block.int_v M (k := n) (by have := abs_le.1 hn; omega)]; norm_cast
  obtain ⟨a, ha⟩ : ∃ a : ℤ, a = ⌊(x.v : ℝ)⌋ + 2 := ⟨_, rfl⟩
  have f1 := Int.floor_le (x.v : ℝ)
  have f2 := Int.lt_floor_add_one (x.v : ℝ)
  have ha' : (a : ℝ) = ⌊(x.v : ℝ)⌋ + 2 := by rw [ha]; push_cast; ring
  have a1 : (-14540 : ℤ) < a := by have : ((-14540 : ℤ) : ℝ) < a := by push_cast; linarith
                                   exact_mod_cast this
  have a2 : a < (1100000 - 6900 : ℤ) := by have : (a : ℝ) < ((1100000 - 6900 : ℤ) : ℝ) := by push_cast; linarith
                                           exact_mod_cast this
  have chain : ∀ n : ℕ, n ≤ 17 → |((dtT (int (a + 390 * n)) : Fl M).v : ℝ) - (dtT (int a : Fl M) : Fl M).v| ≤ 0.0018 * n := by
    intro n hn
    induction n with
    | zero => simp
    | succ n ih =>
      have ih := abs_le.1 (ih (by omega))
      have e1 := iv (a + 390 * n) (by rw [abs_le]; constructor <;> omega)
      have e2 := iv (a + 390 * (n + 1 : ℕ)) (by rw [abs_le]; constructor <;> omega)
      have a1 : (-14540 : ℝ) ≤ ((a + 390 * n : ℤ) : ℝ) := by exact_mod_cast (by omega : -14540 ≤ a + 390 * (n : ℤ))
      have a2 : ((a + 390 * (n + 1 : ℕ) : ℤ) : ℝ) ≤ 1100000 := by exact_mod_cast (by omega : a + 390 * ((n + 1 : ℕ) : ℤ) ≤ 1100000)
      have c := abs_le.1 (dtT_change (x := (int (a + 390 * n) : Fl M)) (x' := (int (a + 390 * (n + 1 : ℕ)) : Fl M)) (by rw [e1]; exact a1)
        (by rw [e1, e2]; push_cast; linarith) (by rw [e1, e2]; push_cast; linarith) (by rw [e2]; exact a2))
      push_cast at c ⊢
      rw [abs_le]; constructor <;> linarith
  have c := abs_le.1 (chain 17 le_rfl)
  have e0 := iv a (by rw [abs_le]; constructor <;> omega)
  have e1 := iv (a + 390 * (17 : ℕ)) (by rw [abs_le]; constructor <;> omega)
  have c0 := abs_le.1 (dtT_change (x := x) (x' := (int a : Fl M)) h0 (by rw [e0]; linarith) (by rw [e0]; linarith) (by rw [e0]; linarith))
  have c1 := abs_le.1 (dtT_change (x := (int (a + 390 * (17 : ℕ)) : Fl M)) (x' := x') (by rw [e1]; push_cast; linarith) (by rw [e1]; push_cast; linarith)
    (by rw [e1]; push_cast; linarith) h1)
  push_cast at c c1
  rw [abs_le]; constructor <;> linarith

variable (hM : M.Good)
include hM

/-- the first days of a month and of the 235th after it -/
theorem dayN_nineteen {k : ℤ} (h0 : -490 ≤ k) (h1 : k + 235 ≤ 37150) : 6938 ≤ dayN M (k + 235) - dayN M k ∧ dayN M (k + 235) - dayN M k ≤ 6941 := by
  obtain ⟨T, x, a1, a2, a3, a4, a5, a6, a7⟩ := moon_form hM h0 (by linarith : k ≤ 37150)
  obtain ⟨T', x', b1, b2, b3, b4, b5, b6, b7⟩ := moon_form hM (by linarith : -490 ≤ k + 235) h1
  have w := abs_le.1 (arg_near (M := M) (k := k) (by rw [abs_le]; constructor <;> linarith))
  have w' := abs_le.1 (arg_near (M := M) (k := k + 235) (by rw [abs_le]; constructor <;> linarith))
  push_cast at w'
  obtain ⟨m1, m2⟩ := nineteen a1 a2 b1 b2 (w := ((shuoArg (int k) : Fl M).v : ℝ)) (w' := ((shuoArg (int (k + 235)) : Fl M).v : ℝ))
    (by rw [abs_le]; constructor <;> linarith) a3 b3
  have p1 := Real.pi_gt_d6
  have p2 := Real.pi_lt_d6
  unfold v0 at m1 m2
  have d1 : 6938.7 ≤ 36525 * (T' - T) := by linarith
  have d2 : 36525 * (T' - T) ≤ 6940.6 := by linarith
  have a4 := abs_le.1 a4
  have b4 := abs_le.1 b4
  have c := abs_le.1 (dtT_nineteen (x := x) (x' := x') a5 (by linarith) (by linarith) b6)
  have a7 := abs_le.1 a7
  have b7 := abs_le.1 b7
  rw [dayN_high hM (by omega), dayN_high hM (by omega), moonDay_eq, moonDay_eq]
  have f1 := Int.floor_le (moonU M k)
  have f2 := Int.lt_floor_add_one (moonU M k)
  have g1 := Int.floor_le (moonU M (k + 235))
  have g2 := Int.lt_floor_add_one (moonU M (k + 235))
  have f1 : ((⌊moonU M k⌋ : ℤ) : ℝ) ≤ ((moonU M k : ℚ) : ℝ) := by exact_mod_cast f1
  have f2 : ((moonU M k : ℚ) : ℝ) < ((⌊moonU M k⌋ : ℤ) : ℝ) + 1 := by exact_mod_cast f2
  have g1 : ((⌊moonU M (k + 235)⌋ : ℤ) : ℝ) ≤ ((moonU M (k + 235) : ℚ) : ℝ) := by exact_mod_cast g1
  have g2 : ((moonU M (k + 235) : ℚ) : ℝ) < ((⌊moonU M (k + 235)⌋ : ℤ) : ℝ) + 1 := by exact_mod_cast g2
  have r1 : ((6937 : ℤ) : ℝ) < ((⌊moonU M (k + 235)⌋ - ⌊moonU M k⌋ : ℤ) : ℝ) := by push_cast; linarith
  have r2 : ((⌊moonU M (k + 235)⌋ - ⌊moonU M k⌋ : ℤ) : ℝ) < ((6942 : ℤ) : ℝ) := by push_cast; linarith
  have r1 := Int.cast_lt.1 r1
  have r2 := Int.cast_lt.1 r2
  omega

end Lunation
