import Verif.Proof.Lunation.Second

/-! # The elongation at the times the program finds -/

open ShouXing

namespace Lunation
open Near (ampl R R_eq)

theorem vT2_bounds (t : ℝ) : 6518 ≤ Moon.vT2 t ∧ Moon.vT2 t ≤ 9025 := by
  rw [vT2_real]
  have h1 := abs_le.1 (Real.abs_sin_le_one (0.7848 + 8328.691425 * t + 0.0001523 * (t * t)))
  have h2 := abs_le.1 (Real.abs_sin_le_one (2.543 + 15542.7543 * t))
  have h3 := abs_le.1 (Real.abs_sin_le_one (0.1874 + 7214.0629 * t))
  constructor <;> linarith

/-- the velocity changes by at most this much -/
theorem vT2_lip {t t' : ℝ} (ht : |t| ≤ 30.1) (ht' : |t'| ≤ 30.1) : |Moon.vT2 t' - Moon.vT2 t| ≤ 11560000 * |t' - t| := by
  rw [vT2_real, vT2_real]
  have a1 : |0.7848 + 8328.691425 * t' + 0.0001523 * (t' * t') - (0.7848 + 8328.691425 * t + 0.0001523 * (t * t))| ≤ 8328.71 * |t' - t| := by
    rw [show 0.7848 + 8328.691425 * t' + 0.0001523 * (t' * t') - (0.7848 + 8328.691425 * t + 0.0001523 * (t * t)) =
      (8328.691425 + 0.0001523 * (t + t')) * (t' - t) by ring]
    refine mul_le ?_ le_rfl
    have := abs_le.1 ht
    have := abs_le.1 ht'
    rw [abs_le]; constructor <;> linarith
  have a2 : |2.543 + 15542.7543 * t' - (2.543 + 15542.7543 * t)| ≤ 15542.7543 * |t' - t| := by
    rw [show 2.543 + 15542.7543 * t' - (2.543 + 15542.7543 * t) = 15542.7543 * (t' - t) by ring]
    exact mul_le (abs_of_pos (by norm_num)).le le_rfl
  have a3 : |0.1874 + 7214.0629 * t' - (0.1874 + 7214.0629 * t)| ≤ 7214.0629 * |t' - t| := by
    rw [show 0.1874 + 7214.0629 * t' - (0.1874 + 7214.0629 * t) = 7214.0629 * (t' - t) by ring]
    exact mul_le (abs_of_pos (by norm_num)).le le_rfl
  have b1 := abs_le.1 ((Real.abs_sin_sub_sin_le _ _).trans a1)
  have b2 := abs_le.1 ((Real.abs_sin_sub_sin_le _ _).trans a2)
  have b3 := abs_le.1 ((Real.abs_sin_sub_sin_le _ _).trans a3)
  have := abs_nonneg (t' - t)
  rw [abs_le]; constructor <;> linarith

/-- the velocity of `msaLonT` -/
theorem v_near {t : ℝ} (ht : |t| ≤ 30.1) : |mv t - ev t - Moon.vT2 t| ≤ 183 := by
  rw [vT2_real]
  unfold mv ev int
  simp only [lit_real, sin_real]
  push_cast
  have t2 := mul_le ht ht
  have k : ∀ x : ℝ, |Real.sin x| ≤ 1 := Real.abs_sin_le_one
  have h1 := abs_le.1 (k (314 / 10 ^ 2 + 166573828 / 10 ^ 4 * t))
  have h2 := abs_le.1 (k (4827 / 10 ^ 3 + 168669323 / 10 ^ 4 * t))
  have h3 := abs_le.1 (k (49 / 10 ^ 1 + 238714457 / 10 ^ 4 * t))
  have h4 := abs_le.1 (k (259 / 10 ^ 2 + 149144523 / 10 ^ 4 * t))
  have h5 := abs_le.1 (k (23 / 10 ^ 2 + 65857609 / 10 ^ 4 * t))
  have h6 := abs_le.1 (k (9 / 10 ^ 1 + 25195624 / 10 ^ 3 * t))
  have h7 := abs_le.1 (k (232 / 10 ^ 2 - 77003895 / 10 ^ 4 * t))
  have h8 := abs_le.1 (k (388 / 10 ^ 2 + 89569934 / 10 ^ 4 * t))
  have h9 := abs_le.1 (k (49 / 10 ^ 2 + 77713771 / 10 ^ 4 * t))
  have g1 := abs_le.1 (k (1527 / 10 ^ 3 + 628307585 / 10 ^ 6 * t))
  have g2 := abs_le.1 (k (148 / 10 ^ 2 + 628307585 / 10 ^ 6 * t * (2 / 10 ^ 0)))
  have g3 := abs_le.1 (mul_le (k (582 / 10 ^ 2 + 628307585 / 10 ^ 6 * t)) ht)
  have g4 := abs_le.1 (mul_le (k (421 / 10 ^ 2 + 628307585 / 10 ^ 6 * t)) t2)
  have e1 : Real.sin (7848 / 10 ^ 4 + 8328691425 / 10 ^ 6 * t + 1523 / 10 ^ 7 * t * t) = Real.sin (0.7848 + 8328.691425 * t + 0.0001523 * (t * t)) := by
    congr 1; ring
  have e2 : Real.sin (2543 / 10 ^ 3 + 155427543 / 10 ^ 4 * t) = Real.sin (2.543 + 15542.7543 * t) := by congr 1; ring
  have e3 : Real.sin (1874 / 10 ^ 4 + 72140629 / 10 ^ 4 * t) = Real.sin (0.1874 + 7214.0629 * t) := by congr 1; ring
  have e4 : ∀ x : ℝ, 55 / 10 ^ 5 * x * t * t = 55 / 10 ^ 5 * (x * (t * t)) := fun x => by ring
  have e5 : ∀ x : ℝ, 129 / 10 ^ 3 * x * t = 129 / 10 ^ 3 * (x * t) := fun x => by ring
  show |_ - _ * _ - (_ + _ + _ + _ + _ + _ + _ + _ + _ + _ + _) - (_ + _ + _ + 129 / 10 ^ 3 * _ * t + 55 / 10 ^ 5 * _ * t * t) - _| ≤ _
  rw [e1, e2, e3, e4, e5]
  rw [abs_le]; constructor <;> linarith

/-- the first correction of `msaLonT2` -/
noncomputable def s1 (t : ℝ) : ℝ := -0.00003309 * (t * t) + 0.10976 * Real.cos (0.784758 + 8328.6914246 * t + 0.000152292 * (t * t)) +
    0.02224 * Real.cos (0.1874 + 7214.0628654 * t - 0.00021848 * (t * t)) - 0.03342 * Real.cos (4.669257 + 628.307585 * t)

theorem t1_real (t : ℝ) : Moon.t1 t = t - s1 t / v0 := by
  unfold Moon.t1 s1 v0
  simp only [lit_real, cos_real]
  push_cast
  norm_num

theorem v0_pos : (7771 : ℝ) ≤ v0 := by unfold v0; norm_num

/-- the start of the second step of `msaLonT2` -/
theorem t1_near {τ t w : ℝ} (hτ : |τ| ≤ 30.06) (h0 : |v0 * τ - (w + 1.08472)| ≤ 0.000001) (h1 : |t - Moon.t1 τ| ≤ 0.0000000001) :
    |t - τ| ≤ 0.0000252 ∧ |w - G t| ≤ 0.0639 := by
  rw [t1_real] at h1
  have v0p := v0_pos
  have v0' : (0 : ℝ) < v0 := by linarith
  have c0 := Real.abs_cos_le_one (0.784758 + 8328.6914246 * τ + 0.000152292 * (τ * τ))
  have c1 := Real.abs_cos_le_one (0.1874 + 7214.0628654 * τ - 0.00021848 * (τ * τ))
  have c2 := Real.abs_cos_le_one (4.669257 + 628.307585 * τ)
  have τ2 := mul_le hτ hτ
  have hs : |s1 τ| ≤ 0.1954 := by
    unfold s1
    have := abs_le.1 c0
    have := abs_le.1 c1
    have := abs_le.1 c2
    have := abs_le.1 τ2
    rw [abs_le]; constructor <;> linarith
  have hq : |s1 τ / v0| ≤ 0.00002515 := by
    rw [abs_div, abs_of_pos v0', div_le_iff₀ v0']
    unfold v0
    linarith
  have hd : |t - τ| ≤ 0.0000252 := by
    have := abs_le.1 h1
    have := abs_le.1 hq
    rw [abs_le]; constructor <;> linarith
  refine ⟨hd, ?_⟩
  have ht : |t| ≤ 30.061 := by
    have := abs_le.1 hd
    have := abs_le.1 hτ
    rw [abs_le]; constructor <;> linarith
  have ht' : |t| ≤ 30.1 := by linarith
  have hτ' : |τ| ≤ 30.1 := by linarith
  have w1 : |w + 1.08472 - s1 τ - v0 * t| ≤ 0.000002 := by
    have e : w + 1.08472 - s1 τ - v0 * t = -(v0 * τ - (w + 1.08472)) - v0 * (t - (τ - s1 τ / v0)) := by
      have : v0 * (s1 τ / v0) = s1 τ := by field_simp
      linear_combination this
    have k := mul_le (abs_of_pos v0').le h1
    have k' : v0 * 0.0000000001 ≤ 0.0000009 := by unfold v0; norm_num
    rw [e]
    have := abs_le.1 h0
    have := abs_le.1 k
    rw [abs_le]; constructor <;> linarith
  have q2 : |t * t - τ * τ| ≤ 0.01 := by
    rw [show t * t - τ * τ = (t + τ) * (t - τ) by ring]
    have : |t + τ| ≤ 60.2 := (abs_add_le _ _).trans (by linarith)
    exact (mul_le this hd).trans (by norm_num)
  have a0 : |ph r0 t - (0.784758 + 8328.6914246 * τ + 0.000152292 * (τ * τ))| ≤ 0.2183 := by
    have := abs_le.1 (ph0_near ht')
    have := abs_le.1 hd
    have := abs_le.1 q2
    have := abs_le.1 τ2
    have := abs_le.1 hτ
    rw [abs_le]; constructor <;> linarith
  have a1 : |ph r1 t - (0.1874 + 7214.0628654 * τ - 0.00021848 * (τ * τ))| ≤ 0.188 := by
    have t2 := mul_le ht' ht'
    have t3 := mul_le t2 ht'
    have t4 := mul_le t3 ht'
    have := abs_le.1 hd
    have := abs_le.1 q2
    have := abs_le.1 t3
    have := abs_le.1 t4
    have := abs_le.1 τ2
    have := abs_le.1 hτ
    simp only [ph, r1, angleM]
    push_cast
    rw [abs_le]; constructor <;> linarith
  have a2 : |4.669257 + 628.307585 * t - (4.669257 + 628.307585 * τ)| ≤ 0.0159 := by
    have := abs_le.1 hd
    rw [abs_le]; constructor <;> linarith
  have b0 := abs_le.1 ((Real.abs_cos_sub_cos_le _ _).trans a0)
  have b1 := abs_le.1 ((Real.abs_cos_sub_cos_le _ _).trans a1)
  have b2 := abs_le.1 ((Real.abs_cos_sub_cos_le _ _).trans a2)
  have d0 := mul_le amp0 (Real.abs_cos_le_one (ph r0 t))
  have d1 := mul_le amp1 (Real.abs_cos_le_one (ph r1 t))
  have d2 := mul_le amp2 (Real.abs_cos_le_one (ph r2 t))
  have d3 := rest_rad t
  have d4 := Dm_near ht'
  have d5 := mul_le (Real.abs_cos_le_one (2.67823 + 628.307585 * t)) ht
  have k0 := abs_le.1 (Real.abs_cos_le_one (ph r0 t))
  have k1 := abs_le.1 (Real.abs_cos_le_one (ph r1 t))
  have k2 := abs_le.1 (Real.abs_cos_le_one (ph r2 t))
  have k3 := abs_le.1 (Real.abs_cos_le_one (4.669257 + 628.307585 * t))
  have d0 := abs_le.1 d0
  have d1 := abs_le.1 d1
  have d2 := abs_le.1 d2
  have d3 := abs_le.1 d3
  have d4 := abs_le.1 d4
  have d5 := abs_le.1 d5
  have w1 := abs_le.1 w1
  have q2 := abs_le.1 q2
  unfold G Su
  rw [S20_eq]
  unfold s1 at w1
  rw [sub_mul] at d0 d1 d2
  rw [abs_le]; constructor <;> linarith

/-- a step of Newton with the velocity of `msaLonT2` -/
theorem step_short {t t' w : ℝ} (ht : |t| ≤ 30.09) (hw : |w - G t| ≤ 0.0639) (h : |Moon.vT2 t * (t' - t) - (w - Moon.nT2 t)| ≤ 0.00005) :
    |t' - t| ≤ 0.00001 ∧ |G t' - w| ≤ 0.0055 := by
  have ht1 : |t| ≤ 30.1 := by linarith
  have n := abs_le.1 (nT2_near ht1)
  have v := vT2_bounds t
  have hw' := abs_le.1 hw
  have h' := abs_le.1 h
  have hd : |t' - t| ≤ 0.00001 := by
    by_contra hc
    push Not at hc
    have : 6518 * 0.00001 < |Moon.vT2 t * (t' - t)| := by
      rw [abs_mul, abs_of_pos (by linarith : 0 < Moon.vT2 t)]
      exact mul_lt_mul' v.1 hc (by norm_num) (by linarith)
    have k : |Moon.vT2 t * (t' - t)| ≤ 0.0651 := by rw [abs_le]; constructor <;> linarith
    linarith
  refine ⟨hd, ?_⟩
  have ht' : |t'| ≤ 30.1 := by
    have := abs_add_le (t' - t) t
    rw [sub_add_cancel] at this
    linarith
  have g := abs_le.1 (G_second ht1 ht' (by linarith))
  have d2 : |t' - t| ^ 2 ≤ 0.00001 * 0.00001 := by
    rw [sq]; exact mul_le_mul hd hd (abs_nonneg _) (by norm_num)
  rw [abs_le]; constructor <;> linarith

/-- the first step of `msaLonT` -/
theorem step_a {ta w : ℝ} (ha : |ta| ≤ 30.06) (h0 : |v0 * ta - (w + 1.08472)| ≤ 0.000001) : |w - msaLon ta 3 3| ≤ 0.218 := by
  have ha1 : |ta| ≤ 30.1 := by linarith
  have t2 := abs_le.1 (mul_le ha ha)
  have d0 := abs_le.1 (mul_le amp0 (Real.abs_cos_le_one (ph r0 ta)))
  have d1 := abs_le.1 (mul_le amp1 (Real.abs_cos_le_one (ph r1 ta)))
  have d2 := abs_le.1 (mul_le amp2 (Real.abs_cos_le_one (ph r2 ta)))
  have d4 := abs_le.1 (Dm_near ha1)
  have d5 := abs_le.1 (mul_le (Real.abs_cos_le_one (2.67823 + 628.307585 * ta)) ha)
  have k0 := abs_le.1 (Real.abs_cos_le_one (ph r0 ta))
  have k1 := abs_le.1 (Real.abs_cos_le_one (ph r1 ta))
  have k2 := abs_le.1 (Real.abs_cos_le_one (ph r2 ta))
  have k3 := abs_le.1 (Real.abs_cos_le_one (4.669257 + 628.307585 * ta))
  have m := abs_le.1 (msaLon3_near' ha1)
  have h0 := abs_le.1 h0
  unfold G Su at m
  rw [S20_eq] at m
  rw [sub_mul] at d0 d1 d2
  rw [abs_le]; constructor <;> linarith

theorem step_a' {ta tb w : ℝ} (ha : |ta| ≤ 30.06) (h0 : |v0 * ta - (w + 1.08472)| ≤ 0.000001)
    (h1 : |v0 * (tb - ta) - (w - msaLon ta 3 3)| ≤ 0.0001) : |tb - ta| ≤ 0.0000281 ∧ |tb| ≤ 30.061 ∧ |w - G tb| ≤ 0.0598 := by
  have v0' : (0 : ℝ) < v0 := by linarith [v0_pos]
  have ha1 : |ta| ≤ 30.1 := by linarith
  have w1 := step_a ha h0
  have e1 : |tb - ta| ≤ 0.0000281 := by
    by_contra hc
    push Not at hc
    have : 7771 * 0.0000281 < |v0 * (tb - ta)| := by
      rw [abs_mul, abs_of_pos v0']
      exact mul_lt_mul' v0_pos hc (by norm_num) v0'
    have h1 := abs_le.1 h1
    have w1 := abs_le.1 w1
    have k : |v0 * (tb - ta)| ≤ 0.2182 := by rw [abs_le]; constructor <;> linarith
    linarith
  have tb1 : |tb| ≤ 30.061 := by
    have := abs_add_le (tb - ta) ta
    rw [sub_add_cancel] at this
    linarith
  refine ⟨e1, tb1, ?_⟩
  have r2 : |w - G tb| ≤ 0.0598 := by
    have g := abs_le.1 (G_first ha1 (by linarith : |tb| ≤ 30.1))
    have m := abs_le.1 (msaLon3_near' ha1)
    have q := abs_le.1 (rest_rad ta)
    have h1 := abs_le.1 h1
    rw [abs_le]; constructor <;> linarith
  exact r2

theorem step_le {x y c V : ℝ} (V0 : 6335 ≤ V) (h : |V * (y - x)| ≤ 6335 * c) : |y - x| ≤ c := by
  rw [abs_mul, abs_of_pos (by linarith)] at h
  have : 6335 * |y - x| ≤ V * |y - x| := mul_le_mul_of_nonneg_right V0 (abs_nonneg _)
  linarith

theorem step_second {x y c : ℝ} (hx : |x| ≤ 30.07) (hy : |y| ≤ 30.07) (hd : |y - x| ≤ c) (hc : c ≤ 0.000012) :
    |G y - G x - Moon.vT2 x * (y - x)| ≤ 252 * c + 5920000 * c ^ 2 + 0.0000043 := by
  refine (G_second (by linarith) (by linarith) (by linarith)).trans ?_
  have : |y - x| ^ 2 ≤ c ^ 2 := by gcongr
  linarith

/-- the second step of `msaLonT` -/
theorem step_b {tb tc w V : ℝ} (tb1 : |tb| ≤ 30.061) (r2 : |w - G tb| ≤ 0.0598) (hV : |V - Moon.vT2 tb| ≤ 183)
    (h2 : |V * (tc - tb) - (w - msaLon tb 20 10)| ≤ 0.0001) : |tc - tb| ≤ 0.00001 ∧ |tc| ≤ 30.062 ∧ |w - G tc| ≤ 0.0081 := by
  have vb := vT2_bounds tb
  have hV' := abs_le.1 hV
  have m2 := abs_le.1 (msaLon20_near (by linarith : |tb| ≤ 30.1))
  have e2 : |tc - tb| ≤ 0.00001 := by
    refine step_le (V := V) (by linarith) ?_
    have h2 := abs_le.1 h2
    have r2 := abs_le.1 r2
    rw [abs_le]; constructor <;> linarith
  have tc1 : |tc| ≤ 30.062 := by
    have := abs_add_le (tc - tb) tb
    rw [sub_add_cancel] at this
    linarith
  refine ⟨e2, tc1, ?_⟩
  have g := abs_le.1 (step_second (by linarith) (by linarith) e2 (by norm_num))
  have k := abs_le.1 (mul_le hV e2)
  have h2 := abs_le.1 h2
  rw [abs_le]; constructor <;> linarith

/-- the third step of `msaLonT` -/
theorem step_c {tb tc td w V : ℝ} (tb1 : |tb| ≤ 30.061) (e2 : |tc - tb| ≤ 0.00001) (tc1 : |tc| ≤ 30.062) (r3 : |w - G tc| ≤ 0.0081)
    (hV : |V - Moon.vT2 tb| ≤ 183) (h3 : |V * (td - tc) - (w - msaLon tc (-1) 60)| ≤ 0.00005) :
    |td - tc| ≤ 0.00000197 ∧ |td| ≤ 30.063 ∧ |G td - w| ≤ 0.0055 := by
  have vb := vT2_bounds tb
  have hV' := abs_le.1 hV
  have m3 := abs_le.1 (msaLon60_near (by linarith : |tc| ≤ 30.1))
  have e3 : |td - tc| ≤ 0.00000197 := by
    refine step_le (V := V) (by linarith) ?_
    have h3 := abs_le.1 h3
    have r3 := abs_le.1 r3
    rw [abs_le]; constructor <;> linarith
  have td1 : |td| ≤ 30.063 := by
    have := abs_add_le (td - tc) tc
    rw [sub_add_cancel] at this
    linarith
  refine ⟨e3, td1, ?_⟩
  have g := abs_le.1 (step_second (by linarith) (by linarith) e3 (by norm_num))
  have hV2 : |V - Moon.vT2 tc| ≤ 298.7 := by
    have := abs_le.1 (vT2_lip (t := tb) (t' := tc) (by linarith) (by linarith))
    rw [abs_le]; constructor <;> linarith
  have k := abs_le.1 (mul_le hV2 e3)
  have h3 := abs_le.1 h3
  rw [abs_le]; constructor <;> linarith

end Lunation
