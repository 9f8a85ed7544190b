import Verif.Proof.SunDay.Real
import Verif.Proof.Lunation.Second

/-! # The steps of `saLonT` and `saLonT2`, on real numbers -/

open ShouXing

namespace SunDay
open Near (ampl R R_eq)
open Lunation (E E_le E_cons er eGroup_real lit_real sin_real cos_real mul_le Su R_lo R_hi R_pos cos_second)

/-- the mean motion of the sun in a century, as the program writes it -/
noncomputable def v : ℝ := 628.3319653318

theorem LB_Su0 : LB Su0 0.036 22.296 := by
  refine (((LB.smul 0.0334165646 (LB.cos (LB.lin 4.669256804 628.3075849991))).add
    (LB.smul 0.00020605886 (LB.id.mul (LB.cos (LB.lin 2.67823456 628.307584999))))).congr (fun t => rfl)).mono ?_ ?_ <;> norm_num

/-- the longitude changes at nearly the mean rate -/
theorem L_first {t t' : ℝ} (ht : |t| ≤ 10.02) (ht' : |t'| ≤ 10.02) : |saLon t' (-1) - saLon t (-1) - v * (t' - t)| ≤ 23.32 * |t' - t| := by
  have h1 := LB_Su0.lip t' t ht' ht
  have h2 := LB_rest.lip t' t ht' ht
  rw [saLon_real, saLon_real]
  have e : PI + 1.7534704567 + 628.33196674749 * t' + Su0 t' + rest t' - (PI + 1.7534704567 + 628.33196674749 * t + Su0 t + rest t) - v * (t' - t) =
      (Su0 t' - Su0 t) + (rest t' - rest t) + 0.00000141569 * (t' - t) := by unfold v; ring
  rw [e]
  have h3 : |0.00000141569 * (t' - t)| ≤ 0.00000141569 * |t' - t| := by rw [abs_mul, abs_of_pos (by norm_num : (0 : ℝ) < 0.00000141569)]
  have a1 := abs_add_le ((Su0 t' - Su0 t) + (rest t' - rest t)) (0.00000141569 * (t' - t))
  have a2 := abs_add_le (Su0 t' - Su0 t) (rest t' - rest t)
  have := abs_nonneg (t' - t)
  linarith

theorem ev_real (t : ℝ) : ev t = 628.332 + 21 * Real.sin (1.527 + 628.307585 * t) + 0.44 * Real.sin (1.48 + 628.307585 * t * 2) +
    0.129 * Real.sin (5.82 + 628.307585 * t) * t + 0.00055 * Real.sin (4.21 + 628.307585 * t) * t * t := by
  unfold ev int
  simp only [lit_real, sin_real]
  show (_ + _ * Real.sin (_ + _ * t) + _ * Real.sin (_ + _ * t * _) + _ * Real.sin (_ + _ * t) * t + _ * Real.sin (_ + _ * t) * t * t) = _
  push_cast
  norm_num

theorem ev_bounds {t : ℝ} (ht : |t| ≤ 10.02) : 605 ≤ ev t ∧ ev t ≤ 652 := by
  rw [ev_real]
  have s1 := abs_le.1 (Real.abs_sin_le_one (1.527 + 628.307585 * t))
  have s2 := abs_le.1 (Real.abs_sin_le_one (1.48 + 628.307585 * t * 2))
  have s3 := abs_le.1 (mul_le (Real.abs_sin_le_one (5.82 + 628.307585 * t)) ht)
  have s4 := abs_le.1 (mul_le (mul_le (Real.abs_sin_le_one (4.21 + 628.307585 * t)) ht) ht)
  constructor <;> linarith

/-- the longitude changes at nearly the rate `ev` -/
theorem L_second {t t' : ℝ} (ht : |t| ≤ 10.02) (ht' : |t'| ≤ 10.02) (hδ : |t' - t| ≤ 0.0001) :
    |saLon t' (-1) - saLon t (-1) - ev t * (t' - t)| ≤ 1.55 * |t' - t| + 7070 * |t' - t| ^ 2 := by
  have h2 := LB_rest.lip t' t ht' ht
  obtain ⟨d, hd⟩ : ∃ d, d = t' - t := ⟨_, rfl⟩
  have et : t' = t + d := by rw [hd]; ring
  rw [← hd] at h2 hδ ⊢
  have d0 := abs_nonneg d
  have p2 := Real.pi_gt_d6
  have p1 := Real.pi_lt_d6
  -- the equation of the centre
  have k1 := cos_second (4.669256804 + 628.3075849991 * t) (628.3075849991 * d) (by rw [abs_mul, abs_of_pos (by norm_num : (0 : ℝ) < 628.3075849991)]; linarith)
  have k2 := cos_second (2.67823456 + 628.307584999 * t) (628.307584999 * d) (by rw [abs_mul, abs_of_pos (by norm_num : (0 : ℝ) < 628.307584999)]; linarith)
  rw [show 4.669256804 + 628.3075849991 * t + 628.3075849991 * d = 4.669256804 + 628.3075849991 * t' by rw [et]; ring,
    abs_mul, abs_of_pos (by norm_num : (0 : ℝ) < 628.3075849991)] at k1
  rw [show 2.67823456 + 628.307584999 * t + 628.307584999 * d = 2.67823456 + 628.307584999 * t' by rw [et]; ring,
    abs_mul, abs_of_pos (by norm_num : (0 : ℝ) < 628.307584999)] at k2
  have q1 : (628.3075849991 * |d|) ^ 2 / 2 + (628.3075849991 * |d|) ^ 3 / 16 ≤ 199000 * |d| ^ 2 := by
    have : |d| ^ 3 ≤ 0.0001 * |d| ^ 2 := by
      have e : |d| ^ 3 = |d| * |d| ^ 2 := by ring
      rw [e]; exact mul_le_mul_of_nonneg_right hδ (by positivity)
    rw [mul_pow, mul_pow]
    have := sq_nonneg |d|
    nlinarith
  have q2 : (628.307584999 * |d|) ^ 2 / 2 + (628.307584999 * |d|) ^ 3 / 16 ≤ 199000 * |d| ^ 2 := by
    have : |d| ^ 3 ≤ 0.0001 * |d| ^ 2 := by
      have e : |d| ^ 3 = |d| * |d| ^ 2 := by ring
      rw [e]; exact mul_le_mul_of_nonneg_right hδ (by positivity)
    rw [mul_pow, mul_pow]
    have := sq_nonneg |d|
    nlinarith
  have k1 := k1.trans q1
  have k2 := k2.trans q2
  -- the sines of `ev`
  have j1 : |-Real.sin (4.669256804 + 628.3075849991 * t) - Real.sin (1.527 + 628.307585 * t)| ≤ 0.00067 := by
    rw [← Real.sin_sub_pi]
    refine (Real.abs_sin_sub_sin_le _ _).trans ?_
    have := abs_le.1 ht
    rw [abs_le]; constructor <;> linarith
  have j2 : |-Real.sin (2.67823456 + 628.307584999 * t) - Real.sin (5.82 + 628.307585 * t)| ≤ 0.0002 := by
    rw [← Real.sin_add_pi]
    refine (Real.abs_sin_sub_sin_le _ _).trans ?_
    have := abs_le.1 ht
    rw [abs_le]; constructor <;> linarith
  have s2 := Real.abs_sin_le_one (1.48 + 628.307585 * t * 2)
  have s3 := mul_le (Real.abs_sin_le_one (2.67823456 + 628.307584999 * t)) ht
  have s4 := mul_le (mul_le (Real.abs_sin_le_one (4.21 + 628.307585 * t)) ht) ht
  have s1 := Real.abs_sin_le_one (4.669256804 + 628.3075849991 * t)
  have c2 := Real.abs_cos_le_one (2.67823456 + 628.307584999 * t')
  have j2 := mul_le j2 ht
  have k2 := mul_le k2 ht
  rw [saLon_real, saLon_real, ev_real]
  unfold Su0
  generalize Real.sin (4.669256804 + 628.3075849991 * t) = S1 at *
  generalize Real.sin (2.67823456 + 628.307584999 * t) = S2 at *
  generalize Real.sin (1.527 + 628.307585 * t) = T1 at *
  generalize Real.sin (1.48 + 628.307585 * t * 2) = T2 at *
  generalize Real.sin (5.82 + 628.307585 * t) = T3 at *
  generalize Real.sin (4.21 + 628.307585 * t) = T4 at *
  generalize Real.cos (4.669256804 + 628.3075849991 * t) = C1 at *
  generalize Real.cos (4.669256804 + 628.3075849991 * t') = C1' at *
  generalize Real.cos (2.67823456 + 628.307584999 * t) = C2 at *
  generalize Real.cos (2.67823456 + 628.307584999 * t') = C2' at *
  have key : PI + 1.7534704567 + 628.33196674749 * t' + (0.0334165646 * C1' + 0.00020605886 * (t' * C2')) + rest t' -
      (PI + 1.7534704567 + 628.33196674749 * t + (0.0334165646 * C1 + 0.00020605886 * (t * C2)) + rest t) -
      (628.332 + 21 * T1 + 0.44 * T2 + 0.129 * T3 * t + 0.00055 * T4 * t * t) * d =
    (rest t' - rest t) + 0.0334165646 * (C1' - C1 + 628.3075849991 * d * S1) + 0.00020605886 * ((C2' - C2 + 628.307584999 * d * S2) * t) +
    (-0.00003325251 + 21 * (-S1 - T1) + (21 - 0.0334165646 * 628.3075849991) * S1 - 0.44 * T2 + 0.129 * ((-S2 - T3) * t) +
      (0.129 - 0.00020605886 * 628.307584999) * (S2 * t) - 0.00055 * (T4 * t * t) + 0.00020605886 * C2') * d := by
    rw [et]; ring
  rw [key]
  have big : |-0.00003325251 + 21 * (-S1 - T1) + (21 - 0.0334165646 * 628.3075849991) * S1 - 0.44 * T2 + 0.129 * ((-S2 - T3) * t) +
      (0.129 - 0.00020605886 * 628.307584999) * (S2 * t) - 0.00055 * (T4 * t * t) + 0.00020605886 * C2'| ≤ 0.53 := by
    have a1 := abs_le.1 j1; have a2 := abs_le.1 s1; have a3 := abs_le.1 s2; have a4 := abs_le.1 j2; have a5 := abs_le.1 s3; have a6 := abs_le.1 s4
    have a7 := abs_le.1 c2
    rw [abs_le]; constructor <;> linarith
  have b1 := mul_le big (le_refl |d|)
  have b2 := abs_le.1 b1; have b3 := abs_le.1 h2; have b4 := abs_le.1 k1; have b5 := abs_le.1 k2
  rw [abs_le]; constructor <;> linarith [sq_nonneg |d|]

/-! ## The rows that are not read -/

theorem omit_ok8 : er (-1) 0 = er 8 0 ++ (XL0 0).drop 8 ∧ er (-1) 1 = er 8 1 ++ (XL0 1).drop 6 ∧ er (-1) 2 = er 8 2 ++ (XL0 2).drop 4 ∧
    er (-1) 3 = er 8 3 ++ (XL0 3).drop 2 ∧ er (-1) 4 = er 8 4 ++ (XL0 4).drop 2 ∧ er (-1) 5 = er 8 5 ++ (XL0 5).drop 2 := by decide +kernel

theorem omit_ok10 : er (-1) 0 = er 10 0 ++ (XL0 0).drop 10 ∧ er (-1) 1 = er 10 1 ++ (XL0 1).drop 7 ∧ er (-1) 2 = er 10 2 ++ (XL0 2).drop 5 ∧
    er (-1) 3 = er 10 3 ++ (XL0 3).drop 2 ∧ er (-1) 4 = er 10 4 ++ (XL0 4).drop 2 ∧ er (-1) 5 = er 10 5 ++ (XL0 5).drop 2 := by decide +kernel

theorem omit_ampl : (ampl (fun x => x.1) ((XL0 0).drop 8) ≤ 1467559 ∧ ampl (fun x => x.1) ((XL0 1).drop 6) ≤ 91781 ∧ ampl (fun x => x.1) ((XL0 2).drop 4) ≤ 11840 ∧
    ampl (fun x => x.1) ((XL0 3).drop 2) ≤ 2282 ∧ ampl (fun x => x.1) ((XL0 4).drop 2) ≤ 119 ∧ ampl (fun x => x.1) ((XL0 5).drop 2) ≤ 8) ∧
    ampl (fun x => x.1) ((XL0 0).drop 10) ≤ 1207813 ∧ ampl (fun x => x.1) ((XL0 1).drop 7) ≤ 82433 ∧ ampl (fun x => x.1) ((XL0 2).drop 5) ≤ 10207 := by decide +kernel

theorem E_append (l l' : List (ℤ × ℤ × ℤ)) (u : ℝ) : E (l ++ l') u = E l u + E l' u := by simp [E]

theorem u_le {t : ℝ} (ht : |t| ≤ 10.02) : |t / 10| ≤ 1.002 := LB_u.bd t ht

/-- the difference of two sums of the series -/
theorem omit_near {t : ℝ} (ht : |t| ≤ 10.02) {s : ℤ} {o0 o1 o2 o3 o4 o5 : List (ℤ × ℤ × ℤ)} {a0 a1 a2 a3 a4 a5 : ℤ}
    (h : er (-1) 0 = er s 0 ++ o0 ∧ er (-1) 1 = er s 1 ++ o1 ∧ er (-1) 2 = er s 2 ++ o2 ∧
    er (-1) 3 = er s 3 ++ o3 ∧ er (-1) 4 = er s 4 ++ o4 ∧ er (-1) 5 = er s 5 ++ o5)
    (h0 : ampl (fun x => x.1) o0 ≤ a0) (h1 : ampl (fun x => x.1) o1 ≤ a1) (h2 : ampl (fun x => x.1) o2 ≤ a2) (h3 : ampl (fun x => x.1) o3 ≤ a3)
    (h4 : ampl (fun x => x.1) o4 ≤ a4) (h5 : ampl (fun x => x.1) o5 ≤ a5) :
    |eLon t (-1) - eLon t s| ≤ (a0 + a1 * 1.002 + a2 * 1.002 * 1.002 + a3 * 1.002 * 1.002 * 1.002 + a4 * 1.002 * 1.002 * 1.002 * 1.002 +
      a5 * 1.002 * 1.002 * 1.002 * 1.002 * 1.002) / 10 ^ 10 := by
  obtain ⟨q0, q1, q2, q3, q4, q5⟩ := h
  have hu := u_le ht
  rw [eLon_real, eLon_real, q0, q1, q2, q3, q4, q5, E_append, E_append, E_append, E_append, E_append, E_append]
  generalize t / 10 = u at *
  have e0 := abs_le.1 (E_le h0 u)
  have e1 := abs_le.1 (mul_le (E_le h1 u) hu)
  have e2 := abs_le.1 (mul_le (mul_le (E_le h2 u) hu) hu)
  have e3 := abs_le.1 (mul_le (mul_le (mul_le (E_le h3 u) hu) hu) hu)
  have e4 := abs_le.1 (mul_le (mul_le (mul_le (mul_le (E_le h4 u) hu) hu) hu) hu)
  have e5 := abs_le.1 (mul_le (mul_le (mul_le (mul_le (mul_le (E_le h5 u) hu) hu) hu) hu) hu)
  generalize E o0 u = x0 at *
  generalize E o1 u = x1 at *
  generalize E o2 u = x2 at *
  generalize E o3 u = x3 at *
  generalize E o4 u = x4 at *
  generalize E o5 u = x5 at *
  rw [abs_le]
  constructor <;> linarith

theorem omit8 {t : ℝ} (ht : |t| ≤ 10.02) : |eLon t (-1) - eLon t 8| ≤ 0.00015741 := by
  obtain ⟨⟨b0, b1, b2, b3, b4, b5⟩, _⟩ := omit_ampl
  refine (omit_near ht omit_ok8 b0 b1 b2 b3 b4 b5).trans ?_
  norm_num

theorem omit10 {t : ℝ} (ht : |t| ≤ 10.02) : |eLon t (-1) - eLon t 10| ≤ 0.000131 := by
  obtain ⟨⟨_, _, _, b3, b4, b5⟩, b0, b1, b2⟩ := omit_ampl
  refine (omit_near ht omit_ok10 b0 b1 b2 b3 b4 b5).trans ?_
  norm_num

/-! ## The longitude of `saLonT2` -/

/-- the longitude `saLonT2` compares with -/
noncomputable def G8 (t : ℝ) : ℝ := eLon t 8 + PI - (20.5 + 17.2 * Real.sin (2.1824 - 33.75705 * t)) * (1 / R)

theorem inv_R_le : (0 : ℝ) ≤ 1 / R ∧ 1 / R ≤ 1 / 206264.8 := by
  have h := R_lo
  have h0 := R_pos
  exact ⟨by positivity, one_div_le_one_div_of_le (by norm_num) (by linarith)⟩

/-- `saLonT2` leaves out little -/
theorem G8_near {t : ℝ} (ht : |t| ≤ 10.02) : |saLon t (-1) - G8 t| ≤ 0.0001706 := by
  have e : saLon t (-1) = eLon t (-1) + nutationLon2 t + gxcSunLon t + PI := rfl
  have h1 := abs_le.1 (omit8 ht)
  obtain ⟨r0, r1⟩ := inv_R_le
  have n := LB_nut.bd t ht
  have s1 := Real.abs_sin_le_one (2.1824 - 33.75705 * t + 0.000036 * (t * t))
  have c1 := Real.abs_cos_le_one (-0.043126 + 628.301955 * t - 0.000002732 * (t * t))
  have ds : |Real.sin (2.1824 - 33.75705 * t + 0.000036 * (t * t)) - Real.sin (2.1824 - 33.75705 * t)| ≤ 0.00362 := by
    refine (Real.abs_sin_sub_sin_le _ _).trans ?_
    have := abs_le.1 (mul_le ht ht)
    rw [abs_le]; constructor <;> linarith
  rw [e, nut_real, gxc_real]
  unfold G8
  generalize Real.sin (2.1824 - 33.75705 * t + 0.000036 * (t * t)) = S at *
  generalize Real.sin (2.1824 - 33.75705 * t) = S' at *
  generalize Real.cos (-0.043126 + 628.301955 * t - 0.000002732 * (t * t)) = C at *
  generalize nut nutRest t = N at *
  have t1 := mul_le ht s1
  have t2 := mul_le ht c1
  have t3 := mul_le (mul_le ht ht) c1
  have b : |-17.2 * (S - S') - 0.01742 * (t * S) + N / 100 + 0.00448 - 20.49552 * (0.016708634 * C - 0.000042037 * (t * C) - 0.0000001267 * (t * t * C))| ≤ 2.71 := by
    have a1 := abs_le.1 ds; have a2 := abs_le.1 t1; have a3 := abs_le.1 n; have a4 := abs_le.1 t2; have a5 := abs_le.1 t3; have a6 := abs_le.1 c1
    rw [abs_le]; constructor <;> linarith
  have b := abs_le.1 (mul_le b (show |1 / R| ≤ 1 / 206264.8 by rw [abs_of_nonneg r0]; exact r1))
  have key : eLon t (-1) + ((-1720 - 1.742 * t) * S + N) / 100 * (1 / R) +
      -20.49552 * (1 + (0.016708634 - 0.000042037 * t - 0.0000001267 * (t * t)) * C) * (1 / R) + PI -
      (eLon t 8 + PI - (20.5 + 17.2 * S') * (1 / R)) = (eLon t (-1) - eLon t 8) +
      (-17.2 * (S - S') - 0.01742 * (t * S) + N / 100 + 0.00448 - 20.49552 * (0.016708634 * C - 0.000042037 * (t * C) - 0.0000001267 * (t * t * C))) * (1 / R) := by
    ring
  rw [key, abs_le]
  constructor <;> linarith

/-- the second harmonic of the equation of the centre -/
noncomputable def H (t : ℝ) : ℝ := 0.0003489428 * Real.cos (4.6261024 + 1256.61517 * t)

theorem rows8 : er 8 0 = (17534704567, 0, 0) :: (334165646, 4669256804, 6283075849991) :: (3489428, 4626102400, 12566151700000) :: (er 8 0).drop 3 ∧
    er 8 1 = (62833196674749, 0, 0) :: (20605886, 2678234560, 6283075849990) :: (er 8 1).drop 2 ∧ er 8 2 = (5291887, 0, 0) :: (er 8 2).drop 1 ∧
    ampl (fun x => x.1) ((er 8 0).drop 3) ≤ 1506944 ∧ ampl (fun x => x.1) ((er 8 1).drop 2) ≤ 495693 ∧ ampl (fun x => x.1) ((er 8 2).drop 1) ≤ 905631 ∧
    ampl (fun x => x.1) (er 8 3) ≤ 32419 ∧ ampl (fun x => x.1) (er 8 4) ≤ 12180 ∧ ampl (fun x => x.1) (er 8 5) ≤ 105 := by decide +kernel

theorem eLon8 {t : ℝ} (ht : |t| ≤ 10.02) : |eLon t 8 - (1.75347 + v * t + 0.000005297 * (t * t) + Su t + H t)| ≤ 0.000334 := by
  obtain ⟨q0, q1, q2, b0, b1, b2, b3, b4, b5⟩ := rows8
  obtain ⟨r0, r1⟩ := inv_R_le
  have hu := u_le ht
  have g0 : E (er 8 0) (t / 10) = 17534704567 + 334165646 * Real.cos (4.669256804 + 628.3075849991 * t) + 3489428 * Real.cos (4.6261024 + 1256.61517 * t) +
      E ((er 8 0).drop 3) (t / 10) := by
    conv_lhs => rw [q0, E_cons, E_cons, E_cons]
    simp only [realE]
    rw [show ((4669256804 : ℤ) : ℝ) / 10 ^ 9 + t / 10 * (((6283075849991 : ℤ) : ℝ) / 10 ^ 9) = 4.669256804 + 628.3075849991 * t by push_cast; ring,
      show ((4626102400 : ℤ) : ℝ) / 10 ^ 9 + t / 10 * (((12566151700000 : ℤ) : ℝ) / 10 ^ 9) = 4.6261024 + 1256.61517 * t by push_cast; ring]
    push_cast; norm_num; ring
  have g1 : E (er 8 1) (t / 10) = 62833196674749 + 20605886 * Real.cos (2.67823456 + 628.307584999 * t) + E ((er 8 1).drop 2) (t / 10) := by
    conv_lhs => rw [q1, E_cons, E_cons]
    simp only [realE]
    rw [show ((2678234560 : ℤ) : ℝ) / 10 ^ 9 + t / 10 * (((6283075849990 : ℤ) : ℝ) / 10 ^ 9) = 2.67823456 + 628.307584999 * t by push_cast; ring]
    push_cast; norm_num; ring
  have g2 : E (er 8 2) (t / 10) = 5291887 + E ((er 8 2).drop 1) (t / 10) := by
    conv_lhs => rw [q2, E_cons]
    simp only [realE]; push_cast; norm_num
  have c1 : |Real.cos (4.669256804 + 628.3075849991 * t) - Real.cos (4.669257 + 628.307585 * t)| ≤ 0.000001 := by
    refine (Real.abs_cos_sub_cos_le _ _).trans ?_
    have := abs_le.1 ht
    rw [abs_le]; constructor <;> linarith
  have c2 : |Real.cos (2.67823456 + 628.307584999 * t) - Real.cos (2.67823 + 628.307585 * t)| ≤ 0.000006 := by
    refine (Real.abs_cos_sub_cos_le _ _).trans ?_
    have := abs_le.1 ht
    rw [abs_le]; constructor <;> linarith
  rw [eLon_real, g0, g1, g2]
  unfold Su H v
  have ht' : t = 10 * (t / 10) := by ring
  have k1 := Real.abs_cos_le_one (4.669257 + 628.307585 * t)
  have k2 := mul_le (Real.abs_cos_le_one (2.67823 + 628.307585 * t)) hu
  have c2 := mul_le c2 hu
  generalize Real.cos (4.669256804 + 628.3075849991 * t) = C0 at *
  generalize Real.cos (4.669257 + 628.307585 * t) = C1 at *
  generalize Real.cos (2.67823456 + 628.307584999 * t) = D0 at *
  generalize Real.cos (2.67823 + 628.307585 * t) = D1 at *
  generalize Real.cos (4.6261024 + 1256.61517 * t) = F at *
  generalize t / 10 = u at *
  have e0 := abs_le.1 (E_le b0 u)
  have e1 := abs_le.1 (mul_le (E_le b1 u) hu)
  have e2 := abs_le.1 (mul_le (mul_le (E_le b2 u) hu) hu)
  have e3 := abs_le.1 (mul_le (mul_le (mul_le (E_le b3 u) hu) hu) hu)
  have e4 := abs_le.1 (mul_le (mul_le (mul_le (mul_le (E_le b4 u) hu) hu) hu) hu)
  have e5 := abs_le.1 (mul_le (mul_le (mul_le (mul_le (mul_le (E_le b5 u) hu) hu) hu) hu) hu)
  generalize E ((er 8 0).drop 3) u = x0 at *
  generalize E ((er 8 1).drop 2) u = x1 at *
  generalize E ((er 8 2).drop 1) u = x2 at *
  generalize E (er 8 3) u = x3 at *
  generalize E (er 8 4) u = x4 at *
  generalize E (er 8 5) u = x5 at *
  have u2 := mul_le hu hu
  have u3 := mul_le u2 hu
  have p : |(-0.0728 - 2.7702 * u - 1.1019 * (u * u) - 0.0996 * (u * u * u)) * (1 / R)| ≤ 4.06 * (1 / 206264.8) := by
    refine mul_le ?_ (by rw [abs_of_nonneg r0]; exact r1)
    have a1 := abs_le.1 hu; have a2 := abs_le.1 u2; have a3 := abs_le.1 u3
    rw [abs_le]; constructor <;> linarith
  have key : (17534704567 + 334165646 * C0 + 3489428 * F + x0 + (62833196674749 + 20605886 * D0 + x1) * u + (5291887 + x2) * u * u + x3 * u * u * u + x4 * u * u * u * u +
      x5 * u * u * u * u * u) / 10 ^ 10 + (-0.0728 - 2.7702 * u - 1.1019 * (u * u) - 0.0996 * (u * u * u)) * (1 / R) -
      (1.75347 + 628.3319653318 * t + 0.000005297 * (t * t) + (0.0334166 * C1 + 0.0002061 * D1 * t) + 0.0003489428 * F) =
      (0.0334165646 * (C0 - C1) - 0.0000000354 * C1) + (0.0020605886 * ((D0 - D1) * u) - 0.0000004114 * (D1 * u)) +
      (x0 + x1 * u + x2 * u * u + x3 * u * u * u + x4 * u * u * u * u + x5 * u * u * u * u * u) / 10 ^ 10 +
      (-0.0728 - 2.7702 * u - 1.1019 * (u * u) - 0.0996 * (u * u * u)) * (1 / R) + 0.0000141569 * u - 0.0000005113 * (u * u) + 0.0000004567 := by
    rw [ht']; ring
  rw [key]
  have a1 := abs_le.1 c1; have a2 := abs_le.1 k1; have a3 := abs_le.1 c2; have a4 := abs_le.1 k2; have a5 := abs_le.1 p; have a6 := abs_le.1 hu; have a7 := abs_le.1 u2
  push_cast at *
  rw [abs_le]
  constructor <;> linarith

end SunDay
