import Verif.Proof.Lunation.Real

/-! # The functions in the steps are near the elongation -/

open ShouXing

namespace Lunation
open Near (ampl R R_eq)

/-- the sum of some rows of `__XL0` at a time -/
noncomputable def E (l : List (ℤ × ℤ × ℤ)) (u : ℝ) : ℝ := (l.map (realE u)).sum

theorem E_abs (l : List (ℤ × ℤ × ℤ)) (u : ℝ) : |E l u| ≤ (ampl (fun x => x.1) l : ℝ) := by
  induction l with
  | nil => simp [E, ampl]
  | cons r l ih =>
    have e : E (r :: l) u = realE u r + E l u := by simp [E]
    rw [e]
    refine (abs_add_le _ _).trans ?_
    have h1 : |realE u r| ≤ |(r.1 : ℝ)| * 1 := by
      unfold realE
      rw [abs_mul]
      exact mul_le_mul_of_nonneg_left (Real.abs_cos_le_one _) (by positivity)
    have h2 : (ampl (fun x => x.1) (r :: l) : ℝ) = |(r.1 : ℝ)| + ampl (fun x => x.1) l := by
      simp [ampl]
    rw [h2]
    linarith

/-- the rows of group `i` that are read -/
def er (s : ℤ) (i : ℕ) : List (ℤ × ℤ × ℤ) := (XL0 i).take (eCount s i (XL0 i).length)

theorem eGroup_real (s : ℤ) (i : ℕ) (u : ℝ) : FloatLike.eGroup s i u = E (er s i) u := rfl

/-- what is read of the table of the sun, for the numbers of terms the program uses -/
def erOk (s : ℤ) : Bool :=
  er s 0 == (17534704567, 0, 0) :: (334165646, 4669256804, 6283075849991) :: (er s 0).drop 2 &&
  er s 1 == (62833196674749, 0, 0) :: (20605886, 2678234560, 6283075849990) :: (er s 1).drop 2 &&
  er s 2 == (5291887, 0, 0) :: (er s 2).drop 1 &&
  ampl (fun x => x.1) ((er s 0).drop 2) ≤ 6362594 && ampl (fun x => x.1) ((er s 1).drop 2) ≤ 574345 && ampl (fun x => x.1) ((er s 2).drop 1) ≤ 915067 &&
  ampl (fun x => x.1) (er s 3) ≤ 34397 && ampl (fun x => x.1) (er s 4) ≤ 12257 && ampl (fun x => x.1) (er s 5) ≤ 110

theorem er_ok : erOk 3 ∧ erOk 10 ∧ erOk 60 := by decide +kernel

theorem E_cons (r : ℤ × ℤ × ℤ) (l : List (ℤ × ℤ × ℤ)) (u : ℝ) : E (r :: l) u = realE u r + E l u := by simp [E]

theorem E_le {l : List (ℤ × ℤ × ℤ)} {b : ℤ} (h : ampl (fun x => x.1) l ≤ b) (u : ℝ) : |E l u| ≤ b :=
  (E_abs l u).trans (by exact_mod_cast h)

/-- the longitude of the sun -/
theorem sun_near {t : ℝ} (ht : |t| ≤ 30.1) {s : ℤ} (hs : erOk s) :
    |eLon t s + gxcSunLon t + PI + 0.0000034 - (4.8950632 + 628.3319653318 * t + 0.000005297 * (t * t) + Su t)| ≤ 0.00213 := by
  have hR : (206264 : ℝ) ≤ R := by rw [R_eq]; norm_num
  have R0 : (0 : ℝ) < R := by linarith
  have hR' : (1 : ℝ) / R ≤ 1 / 206264 := by gcongr
  have hRl : (1 : ℝ) / 206265 ≤ 1 / R := by
    have : R ≤ 206265 := by rw [R_eq]; norm_num
    gcongr
  simp only [erOk, Bool.and_eq_true, beq_iff_eq, decide_eq_true_eq] at hs
  obtain ⟨⟨⟨⟨⟨⟨⟨⟨q0, q1⟩, q2⟩, b0⟩, b1⟩, b2⟩, b3⟩, b4⟩, b5⟩ := hs
  obtain ⟨u, hu⟩ : ∃ u, u = t / 10 := ⟨_, rfl⟩
  have hu' : |u| ≤ 3.01 := by
    rw [hu, abs_div, abs_of_pos (by norm_num : (0 : ℝ) < 10), div_le_iff₀ (by norm_num)]; linarith
  have ht' : t = 10 * u := by rw [hu]; ring
  have e0 := E_le b0 u
  have e1 := E_le b1 u
  have e2 := E_le b2 u
  have e3 := E_le b3 u
  have e4 := E_le b4 u
  have e5 := E_le b5 u
  have g0 : E (er s 0) u = 17534704567 + 334165646 * Real.cos (4.669256804 + u * 6283.075849991) + E ((er s 0).drop 2) u := by
    rw [q0, E_cons, E_cons]; simp only [realE, List.drop_succ_cons, List.drop_zero]; push_cast; norm_num; ring
  have g1 : E (er s 1) u = 62833196674749 + 20605886 * Real.cos (2.67823456 + u * 6283.07584999) + E ((er s 1).drop 2) u := by
    rw [q1, E_cons, E_cons]; simp only [realE, List.drop_succ_cons, List.drop_zero]; push_cast; norm_num; ring
  have g2 : E (er s 2) u = 5291887 + E ((er s 2).drop 1) u := by
    rw [q2, E_cons]; simp only [realE, List.drop_succ_cons, List.drop_zero]; push_cast; norm_num
  have i0 : (int 0 : ℝ) = 0 := by show ((0 : ℤ) : ℝ) / 10 ^ 0 = _; norm_num
  have i1 : (int 1 : ℝ) = 1 := by show ((1 : ℤ) : ℝ) / 10 ^ 0 = _; norm_num
  have i10 : (int 10 : ℝ) = 10 := by show ((10 : ℤ) : ℝ) / 10 ^ 0 = _; norm_num
  have i10' : (int 10000000000 : ℝ) = 10 ^ 10 := by show ((10000000000 : ℤ) : ℝ) / 10 ^ 0 = _; norm_num
  have d1 : eLon t s = (E (er s 0) u + E (er s 1) u * u + E (er s 2) u * u * u + E (er s 3) u * u * u * u + E (er s 4) u * u * u * u * u +
      E (er s 5) u * u * u * u * u * u) / 10 ^ 10 + (-0.0728 - 2.7702 * u - 1.1019 * (u * u) - 0.0996 * (u * u * u)) * (1 / R) := by
    rw [Near.eLon_eq]
    show Near.eSeries s (t / int 10) + Near.ePoly (t / int 10) = _
    rw [i10, ← hu]
    unfold Near.eSeries Near.ePoly
    simp only [eGroup_real, lit_real, i0, i1, i10']
    show (0 + E (er s 0) u * 1 + E (er s 1) u * (1 * u) + E (er s 2) u * (1 * u * u) + E (er s 3) u * (1 * u * u * u) +
      E (er s 4) u * (1 * u * u * u * u) + E (er s 5) u * (1 * u * u * u * u * u)) / 10 ^ 10 + (_ - _ - _ - _) / R = _
    push_cast
    ring
  have d2 : ∃ c : ℝ, |c| ≤ 1 ∧ gxcSunLon t = -20.49552 * (1 + (0.016708634 - 0.00042037 * u - 0.00001267 * (u * u)) * c) * (1 / R) := by
    refine ⟨Real.cos (-0.043126 + 628.301955 * t - 0.000002732 * t * t), Real.abs_cos_le_one _, ?_⟩
    unfold gxcSunLon
    simp only [lit_real, cos_real, i1]
    show (_ * (1 + (_ - _ * t - _ * t * t) * _)) / R = _
    rw [ht']
    push_cast
    norm_num
    ring
  obtain ⟨c, hc, d2⟩ := d2
  have d3 : (PI : ℝ) = 3.141592653589793 := by show ((3141592653589793 : ℤ) : ℝ) / 10 ^ 15 = _; norm_num
  have c1 : |Real.cos (4.669256804 + u * 6283.075849991) - Real.cos (4.669257 + 628.307585 * t)| ≤ 0.000001 := by
    refine (Real.abs_cos_sub_cos_le _ _).trans ?_
    rw [ht', abs_le]
    have := abs_le.1 hu'
    constructor <;> linarith
  have c2 : |Real.cos (2.67823456 + u * 6283.07584999) - Real.cos (2.67823 + 628.307585 * t)| ≤ 0.000006 := by
    refine (Real.abs_cos_sub_cos_le _ _).trans ?_
    rw [ht', abs_le]
    have := abs_le.1 hu'
    constructor <;> linarith
  have u2 := mul_le hu' hu'
  have u3 := mul_le u2 hu'
  have f1 := mul_le e1 hu'
  have f2 := mul_le (mul_le e2 hu') hu'
  have f3 := mul_le (mul_le (mul_le e3 hu') hu') hu'
  have f4 := mul_le (mul_le (mul_le (mul_le e4 hu') hu') hu') hu'
  have f5 := mul_le (mul_le (mul_le (mul_le (mul_le e5 hu') hu') hu') hu') hu'
  have k1 := Real.abs_cos_le_one (4.669257 + 628.307585 * t)
  have k2 := mul_le (Real.abs_cos_le_one (2.67823 + 628.307585 * t)) hu'
  have c2' := mul_le c2 hu'
  obtain ⟨x0, hx0⟩ : ∃ x, x = Real.cos (4.669256804 + u * 6283.075849991) := ⟨_, rfl⟩
  obtain ⟨x1, hx1⟩ : ∃ x, x = Real.cos (4.669257 + 628.307585 * t) := ⟨_, rfl⟩
  obtain ⟨y0, hy0⟩ : ∃ x, x = Real.cos (2.67823456 + u * 6283.07584999) := ⟨_, rfl⟩
  obtain ⟨y1, hy1⟩ : ∃ x, x = Real.cos (2.67823 + 628.307585 * t) := ⟨_, rfl⟩
  unfold Su
  rw [d1, d2, d3, g0, g1, g2]
  rw [← hx0, ← hy0, ← hx1, ← hy1]
  rw [← hx0, ← hx1] at c1
  rw [← hy0, ← hy1] at c2'
  rw [← hx1] at k1
  rw [← hy1] at k2
  have p1 : |(-0.0728 - 2.7702 * u - 1.1019 * (u * u) - 0.0996 * (u * u * u)) * (1 / R)| ≤ 22 * (1 / 206264) := by
    refine mul_le ?_ ?_
    · have a1 := abs_le.1 hu'; have a2 := abs_le.1 u2; have a3 := abs_le.1 u3
      rw [abs_le]; constructor <;> linarith
    · rw [abs_of_pos (by positivity)]; exact hR'
  have p2 : |(-20.49552 * ((0.016708634 - 0.00042037 * u - 0.00001267 * (u * u)) * c)) * (1 / R)| ≤ 20.5 * (0.02 * 1) * (1 / 206264) := by
    refine mul_le (mul_le (by rw [abs_le]; constructor <;> norm_num) (mul_le ?_ hc)) ?_
    · have a1 := abs_le.1 hu'; have a2 := abs_le.1 u2
      rw [abs_le]; constructor <;> linarith
    · rw [abs_of_pos (by positivity)]; exact hR'
  rw [ht']
  have key : (17534704567 + 334165646 * x0 + E ((er s 0).drop 2) u + (62833196674749 + 20605886 * y0 + E ((er s 1).drop 2) u) * u +
      (5291887 + E ((er s 2).drop 1) u) * u * u + E (er s 3) u * u * u * u + E (er s 4) u * u * u * u * u +
      E (er s 5) u * u * u * u * u * u) / 10 ^ 10 + (-0.0728 - 2.7702 * u - 1.1019 * (u * u) - 0.0996 * (u * u * u)) * (1 / R) +
      -20.49552 * (1 + (0.016708634 - 0.00042037 * u - 0.00001267 * (u * u)) * c) * (1 / R) + 3.141592653589793 + 0.0000034 -
      (4.8950632 + 628.3319653318 * (10 * u) + 0.000005297 * (10 * u * (10 * u)) + (0.0334166 * x1 + 0.0002061 * y1 * (10 * u))) =
    (0.0334165646 * (x0 - x1) - 0.0000000354 * x1) + (0.0020605886 * ((y0 - y1) * u) - 0.0000004114 * (y1 * u)) +
    ((E ((er s 0).drop 2) u + E ((er s 1).drop 2) u * u + E ((er s 2).drop 1) u * u * u + E (er s 3) u * u * u * u + E (er s 4) u * u * u * u * u +
      E (er s 5) u * u * u * u * u * u) / 10 ^ 10) + (-0.0728 - 2.7702 * u - 1.1019 * (u * u) - 0.0996 * (u * u * u)) * (1 / R) +
    (-20.49552 * ((0.016708634 - 0.00042037 * u - 0.00001267 * (u * u)) * c)) * (1 / R) + 0.0000141569 * u - 0.0000005113 * (u * u) +
    (1.7534704567 + 3.141592653589793 + 0.0000034 - 4.8950632 - 20.49552 * (1 / R)) := by ring
  rw [key]
  have a0 := abs_le.1 e0
  have a1 := abs_le.1 f1
  have a2 := abs_le.1 f2
  have a3 := abs_le.1 f3
  have a4 := abs_le.1 f4
  have a5 := abs_le.1 f5
  have a6 := abs_le.1 c1
  have a7 := abs_le.1 c2'
  have a8 := abs_le.1 k1
  have a9 := abs_le.1 k2
  have a10 := abs_le.1 p1
  have a11 := abs_le.1 p2
  have a12 := abs_le.1 hu'
  have a13 := abs_le.1 u2
  push_cast at *
  rw [abs_le]
  constructor <;> linarith

theorem nT2_near {t : ℝ} (ht : |t| ≤ 30.1) : |Moon.nT2 t - G t| ≤ 0.00114 := by
  have h := mLon_near ht 20
  rw [mAt20] at h
  have hR : (206264 : ℝ) ≤ R := by rw [R_eq]; norm_num
  have R0 : (0 : ℝ) < R := by linarith
  have hR' : (1 : ℝ) / R ≤ 1 / 206264 := by gcongr
  have hR0 : 0 < (1 : ℝ) / R := by positivity
  have e : Moon.nT2 t = mLon t 20 - (4.8950632 + 628.3319653318 * t + 0.000005297 * (t * t) + 0.0334166 * Real.cos (4.669257 + 628.307585 * t) +
      0.0002061 * Real.cos (2.67823 + 628.307585 * t) * t + 0.000349 * Real.cos (4.6261 + 1256.61517 * t) - 20.5 * (1 / R)) := by
    unfold Moon.nT2
    simp only [lit_real, cos_real]
    show mLon t 20 - (_ + _ * t + _ * (t * t) + _ * _ + _ * _ * t + _ * _ - _ / R) = _
    push_cast
    norm_num
    ring
  have c := abs_le.1 (Real.abs_cos_le_one (4.6261 + 1256.61517 * t))
  rw [e]
  unfold G Dm Su
  have h := abs_le.1 h
  rw [abs_le]
  constructor <;> linarith

theorem msaLon_eq (t : ℝ) (n s : ℤ) : msaLon t n s = mLon t n - 0.0000034 - (eLon t s + gxcSunLon t + PI) := by
  unfold msaLon
  show mLon t n + (((-34 : ℤ) : ℝ) / 10 ^ 7) - (eLon t s + gxcSunLon t + PI) = _
  push_cast
  ring

theorem msaLon60_near {t : ℝ} (ht : |t| ≤ 30.1) : |msaLon t (-1) 60 - G t| ≤ 0.0043 := by
  have h := abs_le.1 (mLon_near ht (-1))
  have k := abs_le.1 (sun_near ht er_ok.2.2)
  have hR : (206264 : ℝ) ≤ R := by rw [R_eq]; norm_num
  have q : |S tail t / R| ≤ 0.001487 := by
    rw [abs_div, abs_of_pos (by linarith : (0 : ℝ) < R), div_le_iff₀ (by linarith)]
    have := tail_le t
    nlinarith
  have q := abs_le.1 q
  rw [mAtAll, add_div] at h
  rw [msaLon_eq]
  unfold G Dm
  rw [abs_le]
  constructor <;> linarith

theorem msaLon20_near {t : ℝ} (ht : |t| ≤ 30.1) : |msaLon t 20 10 - G t| ≤ 0.00282 := by
  have h := abs_le.1 (mLon_near ht 20)
  have k := abs_le.1 (sun_near ht er_ok.2.1)
  rw [mAt20] at h
  rw [msaLon_eq]
  unfold G Dm
  rw [abs_le]
  constructor <;> linarith

theorem msaLon3_near' {t : ℝ} (ht : |t| ≤ 30.1) : |msaLon t 3 3 - (G t - S rest t / R)| ≤ 0.00282 := by
  have h := abs_le.1 (mLon_near ht 3)
  have k := abs_le.1 (sun_near ht er_ok.1)
  rw [mAt3, sub_div] at h
  rw [msaLon_eq]
  unfold G Dm
  rw [abs_le]
  constructor <;> linarith

theorem rest_rad (t : ℝ) : |S rest t / R| ≤ 0.015884 := by
  have hR : (206264 : ℝ) ≤ R := by rw [R_eq]; norm_num
  rw [abs_div, abs_of_pos (by linarith : (0 : ℝ) < R), div_le_iff₀ (by linarith)]
  have := rest_le t
  nlinarith

end Lunation
