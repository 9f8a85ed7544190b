import Verif.Proof.SunDay.Newton

/-! # What the steps of `saLonT` and `saLonT2` leave, on real numbers -/

open ShouXing

namespace SunDay
open Near (R R_eq)
open Lunation (mul_le Su cos_second sun_near er_ok)

theorem sin_mul_cos (x : ℝ) : |Real.sin x * Real.cos x| ≤ 1 / 2 := by
  have := Real.sin_sq_add_cos_sq x
  rw [abs_le]; constructor <;> nlinarith [sq_nonneg (Real.sin x + Real.cos x), sq_nonneg (Real.sin x - Real.cos x)]

theorem r_sum {a b c d e f g h i j k : ℝ} (ha : -0.00000001 ≤ a ∧ a ≤ 0.00000001) (hb : -0.00000001 ≤ b ∧ b ≤ 0.00000001) (hc : -0.0012 ≤ c ∧ c ≤ 0.0012)
    (hd : -0.000655 ≤ d ∧ d ≤ 0.000655) (he : -(0.002597 * 1) ≤ e ∧ e ≤ 0.002597 * 1) (hf : -0.0723 ≤ f ∧ f ≤ 0.0723) (hg : -(1 / 2) ≤ g ∧ g ≤ 1 / 2)
    (hh : -(0.0361 * 10.01) ≤ h ∧ h ≤ 0.0361 * 10.01) (hi : -(1 * 0.0000574) ≤ i ∧ i ≤ 1 * 0.0000574) (hj : -0.000334 ≤ j ∧ j ≤ 0.000334)
    (hk : -(37.7 * (1 / 206264.8)) ≤ k ∧ k ≤ 37.7 * (1 / 206264.8)) :
    |-a + b + 0.000005297 * c - 0.0334166 * d - 0.0334166 * e - 0.0003489428 * f - (0.0334166 * 0.0334166 - 2 * 0.0003489428) * g + 0.0002061 * h + 0.0002061 * i -
      j + k| ≤ 0.00094 := by
  rw [abs_le]
  constructor <;> linarith

/-- the first step of `saLonT2` leaves less than 0.00094, because the second harmonic comes with it -/
theorem r_bound {τ s w : ℝ} (hτ : |τ| ≤ 10.01) (hs : |s| ≤ 10.02) (h1 : |v * τ - (w - 1.75347 - PI)| ≤ 0.00000001)
    (h2 : |v * (τ - s) - (0.000005297 * (τ * τ) + Su τ)| ≤ 0.00000001) : |w - G8 s| ≤ 0.00094 := by
  have p2 := Real.pi_gt_d6
  have p1 := Real.pi_lt_d6
  obtain ⟨r0, r1⟩ := inv_R_le
  have k8 := abs_le.1 (eLon8 hs)
  have h1 := abs_le.1 h1
  have h2 := abs_le.1 h2
  have c1 := Real.abs_cos_le_one (4.669257 + 628.307585 * τ)
  have c2 := mul_le (Real.abs_cos_le_one (2.67823 + 628.307585 * τ)) hτ
  have tt := mul_le hτ hτ
  have a1 := abs_le.1 c1; have a2 := abs_le.1 c2; have a3 := abs_le.1 tt
  -- the length of the step
  have P : |0.000005297 * (τ * τ) + Su τ| ≤ 0.03602 := by
    unfold Su
    rw [abs_le]; constructor <;> linarith
  have P := abs_le.1 P
  have d0 : |τ - s| ≤ 0.0000574 := by
    unfold v at h2
    rw [abs_le]; constructor <;> linarith
  have d0' := abs_le.1 d0
  obtain ⟨d, hd⟩ : ∃ d, d = 628.307585 * (τ - s) := ⟨_, rfl⟩
  have d1 : |d| ≤ 0.0361 := by rw [hd, abs_le]; constructor <;> linarith
  have d2 : |d - (0.000005297 * (τ * τ) + Su τ)| ≤ 0.0000015 := by
    have e : d = v * (τ - s) - 0.0243803318 * (τ - s) := by rw [hd]; unfold v; ring
    rw [e, abs_le]; constructor <;> linarith
  have d2 := abs_le.1 d2
  -- the cosines at `s`
  have e1 := cos_second (4.669257 + 628.307585 * τ) (-d) (by rw [abs_neg]; linarith)
  rw [show 4.669257 + 628.307585 * τ + -d = 4.669257 + 628.307585 * s by rw [hd]; ring, abs_neg] at e1
  have q1 : |d| ^ 2 / 2 + |d| ^ 3 / 16 ≤ 0.000655 := by
    have b1 : |d| ^ 2 ≤ 0.00130322 := (pow_le_pow_left₀ (abs_nonneg d) d1 2).trans (by norm_num)
    have b2 : |d| ^ 3 ≤ 0.0000471 := (pow_le_pow_left₀ (abs_nonneg d) d1 3).trans (by norm_num)
    linarith
  have e1 := abs_le.1 (e1.trans q1)
  have e2 : |Real.cos (2.67823 + 628.307585 * τ) - Real.cos (2.67823 + 628.307585 * s)| ≤ 0.0361 := by
    refine (Real.abs_cos_sub_cos_le _ _).trans ?_
    rw [show 2.67823 + 628.307585 * τ - (2.67823 + 628.307585 * s) = d by rw [hd]; ring]
    exact d1
  have e2 := abs_le.1 (mul_le e2 hτ)
  have e3 := abs_le.1 (mul_le (Real.abs_cos_le_one (2.67823 + 628.307585 * s)) d0)
  have e4 : |Real.cos (4.6261024 + 1256.61517 * s) + 2 * Real.sin (4.669257 + 628.307585 * τ) * Real.cos (4.669257 + 628.307585 * τ)| ≤ 0.0723 := by
    have e : 2 * Real.sin (4.669257 + 628.307585 * τ) * Real.cos (4.669257 + 628.307585 * τ) = -Real.cos (2 * (4.669257 + 628.307585 * τ) + Real.pi / 2 - 2 * Real.pi) := by
      rw [Real.cos_sub_two_pi, Real.cos_add_pi_div_two, Real.sin_two_mul]; ring
    rw [e, ← sub_eq_add_neg]
    refine (Real.abs_cos_sub_cos_le _ _).trans ?_
    have d1' := abs_le.1 d1
    rw [show 4.6261024 + 1256.61517 * s - (2 * (4.669257 + 628.307585 * τ) + Real.pi / 2 - 2 * Real.pi) = -2 * d + (3 * Real.pi / 2 - 4.7124116) by rw [hd]; ring]
    rw [abs_le]; constructor <;> linarith
  have e4 := abs_le.1 e4
  have ss : |τ * τ - s * s| ≤ 0.0012 := by
    rw [show τ * τ - s * s = (τ - s) * (τ + s) by ring]
    refine (mul_le d0 (show |τ + s| ≤ 20.03 from (abs_add_le _ _).trans (by linarith))).trans (by norm_num)
  have ss := abs_le.1 ss
  have ab : |(20.5 + 17.2 * Real.sin (2.1824 - 33.75705 * s)) * (1 / R)| ≤ 37.7 * (1 / 206264.8) := by
    refine mul_le ?_ (by rw [abs_of_nonneg r0]; exact r1)
    have := abs_le.1 (Real.abs_sin_le_one (2.1824 - 33.75705 * s))
    rw [abs_le]; constructor <;> linarith
  have ab := abs_le.1 ab
  have f3 := abs_le.1 (sin_mul_cos (4.669257 + 628.307585 * τ))
  have s1 := Real.abs_sin_le_one (4.669257 + 628.307585 * τ)
  unfold G8
  unfold H Su at k8
  unfold Su at h2 d2
  generalize (20.5 + 17.2 * Real.sin (2.1824 - 33.75705 * s)) * (1 / R) = A at *
  generalize Real.sin (4.669257 + 628.307585 * τ) = y at *
  generalize Real.cos (4.669257 + 628.307585 * τ) = x at *
  generalize Real.cos (4.669257 + 628.307585 * s) = x' at *
  generalize Real.cos (2.67823 + 628.307585 * τ) = z at *
  generalize Real.cos (2.67823 + 628.307585 * s) = z' at *
  generalize Real.cos (4.6261024 + 1256.61517 * s) = g at *
  have f1 : |d - 0.0334166 * x| ≤ 0.002597 := by
    clear k8 h1 h2 e1 e2 e3 e4 ss ab f3 s1
    rw [abs_le]; constructor <;> linarith
  have f2 := abs_le.1 (mul_le f1 s1)
  -- the remainder
  have key : w - (eLon s 8 + PI - A) = -(v * τ - (w - 1.75347 - PI)) + (v * (τ - s) - (0.000005297 * (τ * τ) + (0.0334166 * x + 0.0002061 * z * τ))) +
      0.000005297 * (τ * τ - s * s) - 0.0334166 * (x' - x + -d * y) - 0.0334166 * ((d - 0.0334166 * x) * y) -
      0.0003489428 * (g + 2 * y * x) - (0.0334166 * 0.0334166 - 2 * 0.0003489428) * (y * x) + 0.0002061 * ((z - z') * τ) + 0.0002061 * (z' * (τ - s)) -
      (eLon s 8 - (1.75347 + v * s + 0.000005297 * (s * s) + (0.0334166 * x' + 0.0002061 * z' * s) + 0.0003489428 * g)) + A := by ring
  rw [key]
  exact r_sum h1 h2 ss e1 f2 e4 f3 e2 e3 k8 ab

theorem v_pos : (628 : ℝ) ≤ v := by unfold v; norm_num

/-- the second step of `saLonT2` -/
theorem short_step {s s' w : ℝ} (hs : |s| ≤ 10.019) (h : |w - G8 s| ≤ 0.00094) (hs' : |v * (s' - s) - (w - G8 s)| ≤ 0.00000003) :
    |s' - s| ≤ 0.000002 ∧ |saLon s' (-1) - w| ≤ 0.000206 := by
  have h1 := abs_le.1 h
  have h2 := abs_le.1 hs'
  have d : |s' - s| ≤ 0.0000015 := by
    unfold v at h2
    rw [abs_le]; constructor <;> linarith
  have ha : |s'| ≤ 10.02 := by
    have := abs_add_le (s' - s) s
    rw [sub_add_cancel] at this
    linarith
  have f := abs_le.1 ((L_first (by linarith) ha).trans (mul_le_mul_of_nonneg_left d (by norm_num)))
  have g := abs_le.1 (G8_near (t := s) (by linarith))
  refine ⟨by linarith, ?_⟩
  rw [abs_le]; constructor <;> linarith

/-- the start of `saLonT` -/
theorem start_near {τ w : ℝ} (hτ : |τ| ≤ 10.01) (h1 : |v * τ - (w - 1.75347 - PI)| ≤ 0.00000001) : |w - saLon τ 10| ≤ 0.0385 := by
  have k := abs_le.1 (sun_near (t := τ) (by linarith) er_ok.2.1)
  have h1 := abs_le.1 h1
  have e : saLon τ 10 = eLon τ 10 + nutationLon2 τ + gxcSunLon τ + PI := rfl
  have p : (PI : ℝ) = 3.141592653589793 := by show ((3141592653589793 : ℤ) : ℝ) / 10 ^ 15 = _; norm_num
  obtain ⟨r0, r1⟩ := inv_R_le
  have n : |nutationLon2 τ| ≤ 19.5 * (1 / 206264.8) := by
    rw [nut_real]
    refine mul_le ?_ (by rw [abs_of_nonneg r0]; exact r1)
    have a := abs_le.1 (LB_nut.bd τ (by linarith))
    have s1 := Real.abs_sin_le_one (2.1824 - 33.75705 * τ + 0.000036 * (τ * τ))
    have b := abs_le.1 (mul_le hτ s1)
    have s1 := abs_le.1 s1
    generalize Real.sin (2.1824 - 33.75705 * τ + 0.000036 * (τ * τ)) = S at *
    rw [show ((-1720 - 1.742 * τ) * S + nut nutRest τ) / 100 = -17.2 * S - 0.01742 * (τ * S) + nut nutRest τ / 100 by ring]
    rw [abs_le]; constructor <;> linarith
  have n := abs_le.1 n
  have c1 := abs_le.1 (Real.abs_cos_le_one (4.669257 + 628.307585 * τ))
  have c2 := abs_le.1 (mul_le (Real.abs_cos_le_one (2.67823 + 628.307585 * τ)) hτ)
  have tt := abs_le.1 (mul_le hτ hτ)
  unfold Su at k
  unfold v at h1
  rw [e]
  rw [p] at h1 k ⊢
  rw [abs_le]; constructor <;> linarith

/-- the two steps of `saLonT` -/
theorem long_steps {τ t t' w : ℝ} (hτ : |τ| ≤ 10.01) (h1 : |v * τ - (w - 1.75347 - PI)| ≤ 0.00000001)
    (h2 : |ev τ * (t - τ) - (w - saLon τ 10)| ≤ 0.00000003) (h3 : |ev t * (t' - t) - (w - saLon t (-1))| ≤ 0.00000003) :
    |t - τ| ≤ 0.000064 ∧ |saLon t (-1) - w| ≤ 0.00026 ∧ |t' - t| ≤ 0.000001 ∧ |saLon t' (-1) - w| ≤ 0.0000008 := by
  have s := start_near hτ h1
  have s' := abs_le.1 s
  have b := ev_bounds (t := τ) (by linarith)
  have step : ∀ {x y e : ℝ}, 605 ≤ e → |e * (x - y)| ≤ 0.5 → 605 * |x - y| ≤ |e * (x - y)| := by
    intro x y e he _
    rw [abs_mul, abs_of_nonneg (a := e) (by linarith)]
    exact mul_le_mul_of_nonneg_right he (abs_nonneg _)
  have h2' := abs_le.1 h2
  have k1 : |ev τ * (t - τ)| ≤ 0.038501 := by rw [abs_le]; constructor <;> linarith
  have d1 : |t - τ| ≤ 0.0000637 := by
    have := step b.1 (k1.trans (by norm_num))
    linarith
  have ht : |t| ≤ 10.0101 := by
    have := abs_add_le (t - τ) τ
    rw [sub_add_cancel] at this
    linarith
  have f := L_second (t := τ) (t' := t) (by linarith) (by linarith) (by linarith)
  have q : |t - τ| ^ 2 ≤ 0.00000000406 := (pow_le_pow_left₀ (abs_nonneg _) d1 2).trans (by norm_num)
  have f := abs_le.1 f
  have o := abs_le.1 (omit10 (t := τ) (by linarith))
  have e1 : saLon τ (-1) - saLon τ 10 = eLon τ (-1) - eLon τ 10 := by
    show eLon τ (-1) + nutationLon2 τ + gxcSunLon τ + PI - (eLon τ 10 + nutationLon2 τ + gxcSunLon τ + PI) = _
    ring
  rw [← e1] at o
  have g1 : |saLon t (-1) - w| ≤ 0.00026 := by
    rw [abs_le]; constructor <;> linarith
  have g1' := abs_le.1 g1
  have b' := ev_bounds (t := t) (by linarith)
  have h3' := abs_le.1 h3
  have k2 : |ev t * (t' - t)| ≤ 0.000261 := by rw [abs_le]; constructor <;> linarith
  have d2 : |t' - t| ≤ 0.00000044 := by
    have := step b'.1 (k2.trans (by norm_num))
    linarith
  have ht' : |t'| ≤ 10.0102 := by
    have := abs_add_le (t' - t) t
    rw [sub_add_cancel] at this
    linarith
  have f' := L_second (t := t) (t' := t') (by linarith) (by linarith) (by linarith)
  have q' : |t' - t| ^ 2 ≤ 0.0000000000002 := (pow_le_pow_left₀ (abs_nonneg _) d2 2).trans (by norm_num)
  have f' := abs_le.1 f'
  refine ⟨by linarith, g1, by linarith, ?_⟩
  rw [abs_le]; constructor <;> linarith

/-- times with nearly the same longitude -/
theorem close {t t' d : ℝ} (ht : |t| ≤ 10.02) (ht' : |t'| ≤ 10.02) (h : |saLon t' (-1) - saLon t (-1)| ≤ d) : 605 * |t' - t| ≤ d := by
  have f := L_first ht ht'
  have a := abs_sub_abs_le_abs_sub (v * (t' - t)) (saLon t' (-1) - saLon t (-1))
  rw [abs_sub_comm (v * (t' - t)), abs_mul, abs_of_pos (by linarith [v_pos] : (0 : ℝ) < v)] at a
  have e : (605 : ℝ) + 23.32 ≤ v := by unfold v; norm_num
  have := mul_le_mul_of_nonneg_right e (abs_nonneg (t' - t))
  rw [add_mul] at this
  linarith

end SunDay
