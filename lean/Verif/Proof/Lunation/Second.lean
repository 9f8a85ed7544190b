import Verif.Proof.Lunation.Newton

/-! # The velocity of the elongation -/

open ShouXing

namespace Lunation
open Near (ampl R R_eq)

theorem sin_near_self {x : ℝ} (hx : |x| ≤ 1) : |x - Real.sin x| ≤ |x| ^ 3 / 4 := by
  have key : ∀ y : ℝ, 0 ≤ y → y ≤ 1 → |y - Real.sin y| ≤ y ^ 3 / 4 := by
    intro y h0 h1
    rcases h0.eq_or_lt with rfl | h0
    · simp
    · rw [abs_of_nonneg (by linarith [Real.sin_lt h0])]
      have := Real.sin_gt_sub_cube h0
      have : 0 < y ^ 3 := by positivity
      linarith
  rcases le_total 0 x with h | h
  · rw [abs_of_nonneg h] at *
    exact key x h hx
  · rw [abs_of_nonpos h] at *
    have := key (-x) (by linarith) hx
    rw [Real.sin_neg, show -x - -Real.sin x = -(x - Real.sin x) by ring, abs_neg] at this
    exact this

theorem cos_second (x h : ℝ) (hh : |h| ≤ 1) : |Real.cos (x + h) - Real.cos x + h * Real.sin x| ≤ |h| ^ 2 / 2 + |h| ^ 3 / 16 := by
  have e1 : Real.cos (x + h) - Real.cos x = -2 * Real.sin (x + h / 2) * Real.sin (h / 2) := by
    rw [Real.cos_sub_cos]
    ring_nf
  have e2 : Real.cos (x + h) - Real.cos x + h * Real.sin x =
      h * (Real.sin x - Real.sin (x + h / 2)) + 2 * ((h / 2 - Real.sin (h / 2)) * Real.sin (x + h / 2)) := by rw [e1]; ring
  rw [e2]
  have a2 : |h / 2| = |h| / 2 := by rw [abs_div, abs_of_pos (by norm_num : (0 : ℝ) < 2)]
  have k1 : |Real.sin x - Real.sin (x + h / 2)| ≤ |h| / 2 := by
    refine (Real.abs_sin_sub_sin_le _ _).trans (le_of_eq ?_)
    rw [show x - (x + h / 2) = -(h / 2) by ring, abs_neg, a2]
  have k2 := sin_near_self (x := h / 2) (by rw [a2]; linarith)
  rw [a2] at k2
  have m1 := mul_le (le_refl |h|) k1
  have m2 := mul_le (abs_of_pos (by norm_num : (0 : ℝ) < 2)).le (mul_le k2 (Real.abs_sin_le_one (x + h / 2)))
  refine (abs_add_le _ _).trans ?_
  have : |h| ^ 2 / 2 + |h| ^ 3 / 16 = |h| * (|h| / 2) + 2 * ((|h| / 2) ^ 3 / 4 * 1) := by ring
  linarith

/-- a row from one time to another, against a term of a velocity -/
theorem row_second {r : Row} (hr : small r) {t t' a ω v q α κ : ℝ} (ht : |t| ≤ 30.1) (ht' : |t'| ≤ 30.1) (hδ : |t' - t| ≤ 0.000012)
    (ha : |(r.1 : ℝ) / 10 ^ 7 / R - a| ≤ 0.00000001) (ha0 : 0 ≤ a) (ha1 : a ≤ 0.11) (hω : fr r = ω) (hω0 : 1000 ≤ ω) (hω1 : ω ≤ 15600)
    (hv : |a * ω - v| ≤ κ) (hv0 : 0 ≤ v) (hα : |ph r t - α| ≤ q) :
    |(r.1 : ℝ) / 10 ^ 7 / R * (Real.cos (ph r t') - Real.cos (ph r t)) + v * Real.sin α * (t' - t)| ≤
      (0.005 + κ + v * q) * |t' - t| + a * ω ^ 2 * 0.512 * |t' - t| ^ 2 := by
  obtain ⟨δ, hδ'⟩ : ∃ δ, δ = t' - t := ⟨_, rfl⟩
  obtain ⟨h, hh⟩ : ∃ h, h = ph r t' - ph r t := ⟨_, rfl⟩
  have lin := ph_lin hr ht ht'
  rw [← hδ', ← hh, hω] at lin
  rw [← hδ'] at hδ ⊢
  have e : ph r t' = ph r t + h := by rw [hh]; ring
  rw [e]
  have d0 := abs_nonneg δ
  have h1 : |h| ≤ (ω + 0.031) * |δ| := by
    have := abs_add_le (h - ω * δ) (ω * δ)
    rw [sub_add_cancel, abs_mul, abs_of_pos (by linarith : 0 < ω)] at this
    linarith
  have h2 : |h| ≤ 0.19 := h1.trans (by nlinarith)
  have key := cos_second (ph r t) h (by linarith)
  have h3 : |h| ^ 2 / 2 + |h| ^ 3 / 16 ≤ |h| ^ 2 * 0.51188 := by
    have : |h| ^ 3 = |h| ^ 2 * |h| := by ring
    have k := mul_le_mul_of_nonneg_left h2 (sq_nonneg |h|)
    rw [this]
    linarith [sq_nonneg |h|]
  have h4 : |h| ^ 2 ≤ (ω ^ 2 * 1.00007) * |δ| ^ 2 := by
    have : |h| ^ 2 ≤ ((ω + 0.031) * |δ|) ^ 2 := by gcongr
    refine this.trans ?_
    rw [mul_pow]
    refine mul_le_mul_of_nonneg_right ?_ (by positivity)
    nlinarith
  have h5 : |Real.cos (ph r t + h) - Real.cos (ph r t) + h * Real.sin (ph r t)| ≤ ω ^ 2 * 0.51192 * |δ| ^ 2 := by
    refine key.trans (h3.trans ?_)
    have : 0 ≤ ω ^ 2 * |δ| ^ 2 := by positivity
    linarith
  have b : |Real.cos (ph r t + h) - Real.cos (ph r t)| ≤ (ω + 0.031) * |δ| := by
    refine (Real.abs_cos_sub_cos_le _ _).trans ?_
    rw [add_sub_cancel_left]; exact h1
  have s := Real.abs_sin_le_one (ph r t)
  have s2 : |Real.sin (ph r t) - Real.sin α| ≤ q := (Real.abs_sin_sub_sin_le _ _).trans hα
  have q0 : 0 ≤ q := (abs_nonneg _).trans hα
  have e2 : (r.1 : ℝ) / 10 ^ 7 / R * (Real.cos (ph r t + h) - Real.cos (ph r t)) + v * Real.sin α * δ =
      ((r.1 : ℝ) / 10 ^ 7 / R - a) * (Real.cos (ph r t + h) - Real.cos (ph r t)) +
      a * (Real.cos (ph r t + h) - Real.cos (ph r t) + h * Real.sin (ph r t)) +
      a * ((h - ω * δ) * -Real.sin (ph r t)) + (a * ω - v) * (-Real.sin (ph r t) * δ) +
      v * ((Real.sin (ph r t) - Real.sin α) * -δ) := by ring
  rw [e2]
  have aa : |a| = a := abs_of_nonneg ha0
  have m1 := mul_le ha b
  have m2 := mul_le aa.le h5
  have m3 := mul_le aa.le (mul_le lin (show |-Real.sin (ph r t)| ≤ 1 by rwa [abs_neg]))
  have m4 := mul_le hv (mul_le (show |-Real.sin (ph r t)| ≤ 1 by rwa [abs_neg]) (le_refl |δ|))
  have m5 := mul_le (abs_of_nonneg hv0).le (mul_le s2 (abs_neg δ).le)
  refine (abs_add_le _ _).trans ?_
  refine (add_le_add_left ((abs_add_le _ _).trans (add_le_add_left ((abs_add_le _ _).trans (add_le_add_left (abs_add_le _ _) _)) _)) _).trans ?_
  have z : a * (ω ^ 2 * 0.51192 * |δ| ^ 2) ≤ a * ω ^ 2 * 0.512 * |δ| ^ 2 := by
    have : 0 ≤ a * ω ^ 2 * |δ| ^ 2 := by positivity
    rw [show a * (ω ^ 2 * 0.51192 * |δ| ^ 2) = a * ω ^ 2 * |δ| ^ 2 * 0.51192 by ring, show a * ω ^ 2 * 0.512 * |δ| ^ 2 = a * ω ^ 2 * |δ| ^ 2 * 0.512 by ring]
    linarith
  have y : a * (0.031 * |δ| * 1) + 0.00000001 * ((ω + 0.031) * |δ|) ≤ 0.005 * |δ| := by
    have y1 : a * |δ| ≤ 0.11 * |δ| := mul_le_mul_of_nonneg_right ha1 d0
    have y2 : ω * |δ| ≤ 15600 * |δ| := mul_le_mul_of_nonneg_right hω1 d0
    rw [show a * (0.031 * |δ| * 1) + 0.00000001 * ((ω + 0.031) * |δ|) = 0.031 * (a * |δ|) + 0.00000001 * (ω * |δ|) + 0.00000000031 * |δ| by ring]
    linarith
  linarith

theorem vT2_real (t : ℝ) : Moon.vT2 t = 7771.38 - 914 * Real.sin (0.7848 + 8328.691425 * t + 0.0001523 * (t * t)) -
   179 * Real.sin (2.543 + 15542.7543 * t) - 160 * Real.sin (0.1874 + 7214.0629 * t) := by
  unfold Moon.vT2 int
  simp only [lit_real, sin_real]
  push_cast
  norm_num

theorem amp0 : |(r0.1 : ℝ) / 10 ^ 7 / R - 0.10975981| ≤ 0.00000001 := by
  rw [R_eq, r0]; norm_num [abs_le]
theorem amp1 : |(r1.1 : ℝ) / 10 ^ 7 / R - 0.02223568| ≤ 0.00000001 := by
  rw [R_eq, r1]; norm_num [abs_le]
theorem amp2 : |(r2.1 : ℝ) / 10 ^ 7 / R - 0.01148967| ≤ 0.00000001 := by
  rw [R_eq, r2]; norm_num [abs_le]

theorem S20_eq (t : ℝ) : S20 t / R = (r0.1 : ℝ) / 10 ^ 7 / R * Real.cos (ph r0 t) + (r1.1 : ℝ) / 10 ^ 7 / R * Real.cos (ph r1 t) +
    (r2.1 : ℝ) / 10 ^ 7 / R * Real.cos (ph r2 t) + S rest t / R := by
  unfold S20
  rw [S_cons, S_cons, S_cons]
  ring

theorem ph0_near {t : ℝ} (ht : |t| ≤ 30.1) : |ph r0 t - (0.7848 + 8328.691425 * t + 0.0001523 * (t * t))| ≤ 0.0081 := by
  have t2 := mul_le ht ht
  have t3 := mul_le t2 ht
  have t4 := mul_le t3 ht
  have := abs_le.1 ht
  have := abs_le.1 t2
  have := abs_le.1 t3
  have := abs_le.1 t4
  simp only [ph, r0, angleM]
  push_cast
  rw [abs_le]; constructor <;> linarith

theorem ph1_near {t : ℝ} (ht : |t| ≤ 30.1) : |ph r1 t - (0.1874 + 7214.0629 * t)| ≤ 0.206 := by
  have t2 := mul_le ht ht
  have t3 := mul_le t2 ht
  have t4 := mul_le t3 ht
  have := abs_le.1 ht
  have := abs_le.1 t2
  have := abs_le.1 t3
  have := abs_le.1 t4
  simp only [ph, r1, angleM]
  push_cast
  rw [abs_le]; constructor <;> linarith

theorem ph2_near {t : ℝ} (ht : |t| ≤ 30.1) : |ph r2 t - (2.543 + 15542.7543 * t)| ≤ 0.0626 := by
  have t2 := mul_le ht ht
  have t3 := mul_le t2 ht
  have t4 := mul_le t3 ht
  have := abs_le.1 ht
  have := abs_le.1 t2
  have := abs_le.1 t3
  have := abs_le.1 t4
  simp only [ph, r2, angleM]
  push_cast
  rw [abs_le]; constructor <;> linarith

/-- the elongation changes at nearly the velocity of `msaLonT2` -/
theorem G_second {t t' : ℝ} (ht : |t| ≤ 30.1) (ht' : |t'| ≤ 30.1) (hδ : |t' - t| ≤ 0.000012) :
    |G t' - G t - Moon.vT2 t * (t' - t)| ≤ 252 * |t' - t| + 5920000 * |t' - t| ^ 2 + 0.0000043 := by
  have m0 := row_second small_rows.1 (a := 0.10975981) (ω := 8328.691424623) (v := 914) (κ := 0.16) ht ht' hδ amp0 (by norm_num) (by norm_num)
    (by simp only [fr, r0]; push_cast; norm_num) (by norm_num) (by norm_num) (by rw [abs_le]; constructor <;> norm_num) (by norm_num) (ph0_near ht)
  have m1 := row_second small_rows.2.1 (a := 0.02223568) (ω := 7214.06286536) (v := 160) (κ := 0.41) ht ht' hδ amp1 (by norm_num) (by norm_num)
    (by simp only [fr, r1]; push_cast; norm_num) (by norm_num) (by norm_num) (by rw [abs_le]; constructor <;> norm_num) (by norm_num) (ph1_near ht)
  have m2 := row_second small_rows.2.2.1 (a := 0.01148967) (ω := 15542.75428998) (v := 179) (κ := 0.42) ht ht' hδ amp2 (by norm_num) (by norm_num)
    (by simp only [fr, r2]; push_cast; norm_num) (by norm_num) (by norm_num) (by rw [abs_le]; constructor <;> norm_num) (by norm_num) (ph2_near ht)
  have m3 := rest_lip ht ht'
  have m4 := Dm_lip ht ht'
  have m5 := Su_lip (t' := t') ht
  have m6 : |(v0 - 7771.38) * (t' - t)| ≤ 0.003 * |t' - t| := by
    refine mul_le ?_ le_rfl
    unfold v0; rw [abs_le]; constructor <;> norm_num
  have e : G t' - G t - Moon.vT2 t * (t' - t) = (Dm t' - Dm t - v0 * (t' - t)) + (v0 - 7771.38) * (t' - t) - (Su t' - Su t) + (S rest t' / R - S rest t / R) +
      ((r0.1 : ℝ) / 10 ^ 7 / R * (Real.cos (ph r0 t') - Real.cos (ph r0 t)) + 914 * Real.sin (0.7848 + 8328.691425 * t + 0.0001523 * (t * t)) * (t' - t)) +
      ((r1.1 : ℝ) / 10 ^ 7 / R * (Real.cos (ph r1 t') - Real.cos (ph r1 t)) + 160 * Real.sin (0.1874 + 7214.0629 * t) * (t' - t)) +
      ((r2.1 : ℝ) / 10 ^ 7 / R * (Real.cos (ph r2 t') - Real.cos (ph r2 t)) + 179 * Real.sin (2.543 + 15542.7543 * t) * (t' - t)) := by
    unfold G
    rw [S20_eq, S20_eq, vT2_real]
    ring
  rw [e]
  have m0 := abs_le.1 m0
  have m1 := abs_le.1 m1
  have m2 := abs_le.1 m2
  have m3 := abs_le.1 m3
  have m4 := abs_le.1 m4
  have m5 := abs_le.1 m5
  have m6 := abs_le.1 m6
  have d0 := abs_nonneg (t' - t)
  have d2 : 0 ≤ |t' - t| ^ 2 := by positivity
  rw [abs_le]
  constructor <;> linarith

/-- the elongation changes by at most this much besides the mean motion -/
theorem G_first {t t' : ℝ} (ht : |t| ≤ 30.1) (ht' : |t'| ≤ 30.1) : |G t' - G t - v0 * (t' - t)| ≤ 1453 * |t' - t| + 0.0000043 := by
  have row : ∀ r : Row, small r → ∀ a ω : ℝ, |(r.1 : ℝ) / 10 ^ 7 / R| ≤ a → |fr r| ≤ ω →
      |(r.1 : ℝ) / 10 ^ 7 / R * (Real.cos (ph r t') - Real.cos (ph r t))| ≤ a * ((ω + 0.031) * |t' - t|) := by
    intro r hr a ω ha hω
    refine mul_le ha ((Real.abs_cos_sub_cos_le _ _).trans ?_)
    have := ph_lin hr ht ht'
    have h2 := abs_add_le (ph r t' - ph r t - fr r * (t' - t)) (fr r * (t' - t))
    rw [sub_add_cancel] at h2
    have h3 := mul_le hω (le_refl |t' - t|)
    linarith
  have m0 := row r0 small_rows.1 0.10975982 8328.691424623 (by have := abs_le.1 amp0; rw [abs_le]; constructor <;> linarith)
    (by simp only [fr, r0]; push_cast; norm_num [abs_le])
  have m1 := row r1 small_rows.2.1 0.02223569 7214.06286536 (by have := abs_le.1 amp1; rw [abs_le]; constructor <;> linarith)
    (by simp only [fr, r1]; push_cast; norm_num [abs_le])
  have m2 := row r2 small_rows.2.2.1 0.01148968 15542.75428998 (by have := abs_le.1 amp2; rw [abs_le]; constructor <;> linarith)
    (by simp only [fr, r2]; push_cast; norm_num [abs_le])
  have m3 := abs_le.1 (rest_lip ht ht')
  have m4 := abs_le.1 (Dm_lip ht ht')
  have m5 := abs_le.1 (Su_lip (t' := t') ht)
  have m0 := abs_le.1 m0
  have m1 := abs_le.1 m1
  have m2 := abs_le.1 m2
  have e : G t' - G t - v0 * (t' - t) = (Dm t' - Dm t - v0 * (t' - t)) - (Su t' - Su t) + (S rest t' / R - S rest t / R) +
      (r0.1 : ℝ) / 10 ^ 7 / R * (Real.cos (ph r0 t') - Real.cos (ph r0 t)) +
      (r1.1 : ℝ) / 10 ^ 7 / R * (Real.cos (ph r1 t') - Real.cos (ph r1 t)) +
      (r2.1 : ℝ) / 10 ^ 7 / R * (Real.cos (ph r2 t') - Real.cos (ph r2 t)) := by
    unfold G
    rw [S20_eq, S20_eq]
    ring
  rw [e]
  have d0 := abs_nonneg (t' - t)
  rw [abs_le]
  constructor <;> linarith

end Lunation
