import Verif.Proof.AffSound
import Mathlib.Analysis.Real.Pi.Bounds
import Mathlib.Analysis.Complex.Exponential
import Mathlib.Analysis.SpecialFunctions.Trigonometric.Bounds

/-! # The cosine of the enclosures -/

open Aff0

namespace CosSound

/-- the Taylor polynomial of degree 14 -/
noncomputable def p14 (u : ℝ) : ℝ :=
  1 - u / 2 * (1 - u / 12 * (1 - u / 30 * (1 - u / 56 * (1 - u / 90 * (1 - u / 132 * (1 - u / 182 * 1))))))

theorem cos_taylor {x : ℝ} (hx : |x| ≤ 1) : |Real.cos x - p14 (x ^ 2)| ≤ |x| ^ 16 * (17 / (20922789888000 * 16)) := by
  have h1 := Complex.exp_bound (x := x * Complex.I) (by simpa using hx) (n := 16) (by norm_num)
  have e : (Complex.exp (x * Complex.I) - ∑ m ∈ Finset.range 16, (x * Complex.I) ^ m / (m.factorial : ℂ)).re =
      Real.cos x - p14 (x ^ 2) := by
    rw [Complex.sub_re, Complex.exp_ofReal_mul_I_re]
    congr 1
    have hI : ∀ m : ℕ, ((x : ℂ) * Complex.I) ^ m = ((x ^ m : ℝ) : ℂ) * Complex.I ^ m := by
      intro m; rw [mul_pow]; push_cast; rfl
    have i2 : Complex.I ^ 2 = -1 := Complex.I_sq
    have i3 : Complex.I ^ 3 = -Complex.I := Complex.I_pow_three
    have i4 : Complex.I ^ 4 = 1 := Complex.I_pow_four
    have i5 : Complex.I ^ 5 = Complex.I := by rw [show 5 = 4 + 1 from rfl, pow_add, i4]; simp
    have i6 : Complex.I ^ 6 = -1 := by rw [show 6 = 4 + 2 from rfl, pow_add, i4, i2]; simp
    have i7 : Complex.I ^ 7 = -Complex.I := by rw [show 7 = 4 + 3 from rfl, pow_add, i4, i3]; simp
    have i8 : Complex.I ^ 8 = 1 := by rw [show 8 = 4 + 4 from rfl, pow_add, i4]; simp
    have i9 : Complex.I ^ 9 = Complex.I := by rw [show 9 = 8 + 1 from rfl, pow_add, i8]; simp
    have i10 : Complex.I ^ 10 = -1 := by rw [show 10 = 8 + 2 from rfl, pow_add, i8, i2]; simp
    have i11 : Complex.I ^ 11 = -Complex.I := by rw [show 11 = 8 + 3 from rfl, pow_add, i8, i3]; simp
    have i12 : Complex.I ^ 12 = 1 := by rw [show 12 = 8 + 4 from rfl, pow_add, i8, i4]; simp
    have i13 : Complex.I ^ 13 = Complex.I := by rw [show 13 = 12 + 1 from rfl, pow_add, i12]; simp
    have i14 : Complex.I ^ 14 = -1 := by rw [show 14 = 12 + 2 from rfl, pow_add, i12, i2]; simp
    have i15 : Complex.I ^ 15 = -Complex.I := by rw [show 15 = 12 + 3 from rfl, pow_add, i12, i3]; simp
    have hdiv : ∀ (a : ℝ) (z : ℂ) (m : ℕ), ((a : ℂ) * z / (m : ℂ)).re = a * z.re / m := by
      intro a z m
      rw [Complex.div_natCast_re, Complex.re_ofReal_mul]
    simp only [Finset.sum_range_succ, Finset.sum_range_zero, Complex.add_re, hI, hdiv, i2, i3, i4, i5, i6, i7, i8, i9, i10,
      i11, i12, i13, i14, i15, pow_zero, pow_one, Complex.one_re, Complex.neg_re, Complex.I_re, Complex.zero_re, Nat.factorial]
    unfold p14
    push_cast
    ring
  have h2 := Complex.abs_re_le_norm (Complex.exp (x * Complex.I) - ∑ m ∈ Finset.range 16, (x * Complex.I) ^ m / (m.factorial : ℂ))
  rw [e] at h2
  refine h2.trans (h1.trans_eq ?_)
  rw [norm_mul, Complex.norm_I, mul_one, Complex.norm_real, Real.norm_eq_abs]
  norm_num [Nat.factorial]

/-- the unit -/
noncomputable def w : ℝ := 10000000000000000051

theorem w_pos : 0 < w := by norm_num [w]

/-- one step of Horner's rule, with the error -/
theorem horner_err {z n u : ℕ} {v : ℝ} {E : ℝ} (hn : 2 ≤ n) (hz : (z : ℝ) / (8 * w) ≤ 2 / 5) (hu : u ≤ W)
    (hv : |(u : ℝ) / w - v| ≤ E) :
    |(horner (z ^ 2) n u : ℝ) / w - (1 - ((z : ℝ) / (8 * w)) ^ 2 / n * v)| ≤ 2 / 25 * E + 1 / w ∧ horner (z ^ 2) n u ≤ W := by
  set x : ℝ := (z : ℝ) / (8 * w) with hx
  have hw := w_pos
  have hx0 : 0 ≤ x := by positivity
  have hWw : ((W : ℕ) : ℝ) = w := by norm_num [W, w]
  have hK : ((KW : ℕ) : ℝ) = 64 * w ^ 2 := by norm_num [KW, w]
  have e : horner (z ^ 2) n u = W - z ^ 2 * u / (n * KW) := rfl
  have hnR : (2 : ℝ) ≤ n := by exact_mod_cast hn
  have hKpos : 0 < n * KW := Nat.mul_pos (by omega) (by norm_num [KW])
  set q : ℕ := z ^ 2 * u / (n * KW) with hq
  have q1 : (q : ℝ) ≤ x ^ 2 / n * u := by
    have : q * (n * KW) ≤ z ^ 2 * u := Nat.div_mul_le_self _ _
    have : (q : ℝ) * (n * (64 * w ^ 2)) ≤ z ^ 2 * u := by rw [← hK]; exact_mod_cast this
    rw [hx, div_pow, div_div, div_mul_eq_mul_div, le_div_iff₀ (by positivity)]
    nlinarith
  have q2 : x ^ 2 / n * u < q + 1 := by
    have : z ^ 2 * u < n * KW * (q + 1) := Nat.lt_mul_div_succ _ hKpos
    have : (z : ℝ) ^ 2 * u < n * (64 * w ^ 2) * (q + 1) := by rw [← hK]; exact_mod_cast this
    rw [hx, div_pow, div_div, div_mul_eq_mul_div, div_lt_iff₀ (by positivity)]
    nlinarith
  have huw : (u : ℝ) ≤ w := by rw [← hWw]; exact_mod_cast hu
  have hx2 : x ^ 2 / n ≤ 2 / 25 := by
    have : x ^ 2 ≤ (2 / 5) ^ 2 := by gcongr
    rw [div_le_iff₀ (by linarith)]
    nlinarith
  have hx2' : 0 ≤ x ^ 2 / n := by positivity
  have hqW : q ≤ W := by
    have : (q : ℝ) ≤ (W : ℕ) := by
      rw [hWw]
      calc (q : ℝ) ≤ x ^ 2 / n * u := q1
        _ ≤ 1 * w := mul_le_mul (by linarith) huw (by positivity) (by norm_num)
        _ = w := one_mul _
    exact_mod_cast this
  refine ⟨?_, by rw [e]; exact Nat.sub_le _ _⟩
  rw [e, Nat.cast_sub hqW, hWw]
  have k : (w - q) / w - (1 - x ^ 2 / n * v) = (x ^ 2 / n * u - q) / w - x ^ 2 / n * (u / w - v) := by
    field_simp
    ring
  rw [k]
  have k1 : |(x ^ 2 / n * u - q) / w| ≤ 1 / w := by
    rw [abs_div, abs_of_pos hw]
    gcongr
    rw [abs_le]; constructor <;> linarith
  have k2 : |x ^ 2 / n * (u / w - v)| ≤ 2 / 25 * E := by
    rw [abs_mul, abs_of_nonneg hx2']
    have : 0 ≤ E := (abs_nonneg _).trans hv
    exact mul_le_mul hx2 hv (abs_nonneg _) (by norm_num)
  refine (abs_sub _ _).trans ?_
  linarith

/-- doubling the angle -/
theorem dbl_err {x : ℕ} {α E : ℝ} (h : |(x : ℝ) / w - Real.cos α| ≤ E / w) (hE0 : 0 ≤ E) (hE : E ≤ 1000) :
    |(dbl x : ℝ) / w - (Real.cos (2 * α) + 1)| ≤ (4 * E + 2) / w := by
  have hw := w_pos
  have e : dbl x = 2 * x ^ 2 / W := rfl
  have hWw : ((W : ℕ) : ℝ) = w := by norm_num [W, w]
  have hWpos : 0 < W := by norm_num [W]
  set q := 2 * x ^ 2 / W with hq
  rw [e]
  have q1 : (q : ℝ) ≤ 2 * x ^ 2 / w := by
    have : q * W ≤ 2 * x ^ 2 := Nat.div_mul_le_self _ _
    have : (q : ℝ) * w ≤ 2 * x ^ 2 := by rw [← hWw]; exact_mod_cast this
    rw [le_div_iff₀ hw]; exact this
  have q2 : 2 * x ^ 2 / w < q + 1 := by
    have : 2 * x ^ 2 < W * (q + 1) := Nat.lt_mul_div_succ _ hWpos
    have : (2 : ℝ) * x ^ 2 < w * (q + 1) := by rw [← hWw]; exact_mod_cast this
    rw [div_lt_iff₀ hw]; linarith
  rw [Real.cos_two_mul]
  set c := Real.cos α
  have hc : |c| ≤ 1 := Real.abs_cos_le_one α
  have k : (q : ℝ) / w - (2 * c ^ 2 - 1 + 1) = (q - 2 * x ^ 2 / w) / w + 2 * ((x : ℝ) / w - c) * (x / w + c) := by
    field_simp
    ring
  rw [k]
  have k1 : |((q : ℝ) - 2 * x ^ 2 / w) / w| ≤ 1 / w := by
    rw [abs_div, abs_of_pos hw]
    gcongr
    rw [abs_le]; constructor <;> linarith
  have k2 : |(x : ℝ) / w + c| ≤ 2 + E / w := by
    calc |(x : ℝ) / w + c| = |((x : ℝ) / w - c) + 2 * c| := by ring_nf
      _ ≤ |(x : ℝ) / w - c| + |2 * c| := abs_add_le _ _
      _ ≤ E / w + 2 := by
        rw [abs_mul]
        have : |(2 : ℝ)| = 2 := by norm_num
        rw [this]; linarith
      _ = _ := by ring
  have k3 : |2 * ((x : ℝ) / w - c) * (x / w + c)| ≤ 2 * (E / w) * (2 + E / w) := by
    rw [abs_mul, abs_mul]
    have : |(2 : ℝ)| = 2 := by norm_num
    rw [this]
    gcongr
  have k4 : 2 * (E / w) * (E / w) ≤ 1 / w := by
    have : 2 * (E / w) * (E / w) = (2 * E * E / w) / w := by ring
    rw [this]
    gcongr
    rw [div_le_one hw]
    have : E * E ≤ 1000 * 1000 := by gcongr
    norm_num [w]; linarith
  calc _ ≤ _ := abs_add_le _ _
    _ ≤ 1 / w + 2 * (E / w) * (2 + E / w) := add_le_add k1 k3
    _ = 1 / w + 4 * E / w + 2 * (E / w) * (E / w) := by ring
    _ ≤ 1 / w + 4 * E / w + 1 / w := by linarith
    _ = _ := by ring

/-- doubling with a cosine that is not negative -/
theorem dbl_sub_err {x : ℕ} {α E : ℝ} (h : |(dbl x : ℝ) / w - (Real.cos (2 * α) + 1)| ≤ E / w) (h0 : -(E / w) ≤ Real.cos (2 * α)) :
    |((dbl x - W : ℕ) : ℝ) / w - Real.cos (2 * α)| ≤ E / w := by
  have hw := w_pos
  have hWw : ((W : ℕ) : ℝ) = w := by norm_num [W, w]
  rcases le_total W (dbl x) with hle | hle
  · rw [Nat.cast_sub hle, hWw, sub_div, div_self hw.ne']
    rwa [show (dbl x : ℝ) / w - 1 - Real.cos (2 * α) = (dbl x : ℝ) / w - (Real.cos (2 * α) + 1) by ring]
  · rw [Nat.sub_eq_zero_of_le hle]
    have : (dbl x : ℝ) / w ≤ 1 := by
      rw [div_le_one hw, ← hWw]; exact_mod_cast hle
    rw [abs_le] at h ⊢
    constructor <;> simp <;> linarith

theorem cosC_err {z : ℕ} (hz : (z : ℝ) / w ≤ 3.14159265358979324) :
    |(cosC (z ^ 2) : ℝ) / w - (1 + Real.cos (z / w))| ≤ 200 / w := by
  have hw := w_pos
  set x : ℝ := (z : ℝ) / (8 * w) with hx
  have hx8 : x = (z : ℝ) / w / 8 := by rw [hx]; field_simp
  have hx0 : 0 ≤ x := by positivity
  have hx1 : x ≤ 2 / 5 := by rw [hx8]; linarith
  have hWw : ((W : ℕ) : ℝ) = w := by norm_num [W, w]
  have s0 : |((W : ℕ) : ℝ) / w - 1| ≤ 0 := by rw [hWw, div_self hw.ne']; simp
  have s1 := horner_err (n := 182) (by norm_num) hx1 le_rfl s0
  have s2 := horner_err (n := 132) (by norm_num) hx1 s1.2 s1.1
  have s3 := horner_err (n := 90) (by norm_num) hx1 s2.2 s2.1
  have s4 := horner_err (n := 56) (by norm_num) hx1 s3.2 s3.1
  have s5 := horner_err (n := 30) (by norm_num) hx1 s4.2 s4.1
  have s6 := horner_err (n := 12) (by norm_num) hx1 s5.2 s5.1
  have s7 := (horner_err (n := 2) (by norm_num) hx1 s6.2 s6.1).1
  rw [← hx] at s7
  set P := horner (z ^ 2) 2 (horner (z ^ 2) 12 (horner (z ^ 2) 30 (horner (z ^ 2) 56 (horner (z ^ 2) 90 (horner (z ^ 2) 132 (horner (z ^ 2) 182 W)))))) with hP
  have s8 : |(P : ℝ) / w - p14 (x ^ 2)| ≤ 3 / 2 / w := by
    refine le_trans (le_of_eq ?_) (s7.trans ?_)
    · unfold p14; push_cast; ring_nf
    · have : 0 < 1 / w := by positivity
      have : 3 / 2 / w = 3 / 2 * (1 / w) := by ring
      rw [this]; linarith
  have s9 := cos_taylor (x := x) (by rw [abs_of_nonneg hx0]; linarith)
  have s10 : |x| ^ 16 * (17 / (20922789888000 * 16)) ≤ 1 / 2 / w := by
    rw [abs_of_nonneg hx0]
    have : x ^ 16 ≤ (2 / 5) ^ 16 := by gcongr
    calc x ^ 16 * (17 / (20922789888000 * 16)) ≤ (2 / 5) ^ 16 * (17 / (20922789888000 * 16)) := by gcongr
      _ ≤ _ := by norm_num [w]
  have t1 : |(P : ℝ) / w - Real.cos x| ≤ 2 / w := by
    calc |(P : ℝ) / w - Real.cos x| = |((P : ℝ) / w - p14 (x ^ 2)) - (Real.cos x - p14 (x ^ 2))| := by ring_nf
      _ ≤ _ := abs_sub _ _
      _ ≤ 3 / 2 / w + 1 / 2 / w := add_le_add s8 (s9.trans s10)
      _ = _ := by ring
  have pi1 := Real.pi_gt_d20
  have t2 := dbl_err t1 (by norm_num) (by norm_num)
  have c2 : 0 ≤ Real.cos (2 * x) := by
    apply Real.cos_nonneg_of_neg_pi_div_two_le_of_le <;> linarith
  have t3 := dbl_sub_err t2 (by have : 0 < (4 * 2 + 2) / w := by positivity
                                linarith)
  have t4 := dbl_err t3 (by norm_num) (by norm_num)
  have c4 : -(20 / w) ≤ Real.cos (2 * (2 * x)) := by
    by_cases hle : 2 * (2 * x) ≤ Real.pi / 2
    · have : 0 ≤ Real.cos (2 * (2 * x)) := by
        apply Real.cos_nonneg_of_neg_pi_div_two_le_of_le <;> linarith
      have : 0 < 20 / w := by positivity
      linarith
    · have : |Real.cos (2 * (2 * x)) - Real.cos (Real.pi / 2)| ≤ |2 * (2 * x) - Real.pi / 2| := by
        exact Real.abs_cos_sub_cos_le _ _
      rw [Real.cos_pi_div_two, sub_zero, abs_of_pos (by linarith : 0 < 2 * (2 * x) - Real.pi / 2)] at this
      have h3 := (abs_le.mp this).1
      have : 2 * (2 * x) - Real.pi / 2 ≤ 20 / w := by
        have : x * 8 = z / w := by rw [hx8]; ring
        have h4 : (20 : ℝ) / w ≥ 9e-19 := by norm_num [w]
        linarith
      linarith
  have t5 := dbl_sub_err t4 (by
    have : 20 / w ≤ (4 * (4 * 2 + 2) + 2) / w := by gcongr; norm_num
    linarith)
  have t6 := dbl_err t5 (by norm_num) (by norm_num)
  have e : cosC (z ^ 2) = dbl (dbl (dbl P - W) - W) := rfl
  rw [e]
  have hang : 2 * (2 * (2 * x)) = z / w := by rw [hx8]; ring
  rw [hang] at t6
  rw [add_comm 1]
  refine t6.trans ?_
  gcongr
  norm_num

/-- the reduced angle -/
theorem cosY_err {y : ℕ} (hy : y ≤ TP) :
    |(w - cosY y) / w - Real.cos (y / (1000000000 * w))| ≤ 300 / w := by
  have hw := w_pos
  have e : cosY y = cosC ((((y - HP) + (HP - y)) / 1000000000) ^ 2) := by
    unfold cosY
    rw [forceN_eq, forceN_eq]
    rfl
  rw [e]
  set d : ℕ := (y - HP) + (HP - y) with hd
  set z : ℕ := d / 1000000000 with hz
  have pi1 := Real.pi_gt_d20
  have pi2 := Real.pi_lt_d20
  have hHP : ((HP : ℕ) : ℝ) = 31415926535897932544847659165 := by norm_num [HP]
  have hdR : (d : ℝ) = |(y : ℝ) - HP| := by
    rcases le_total y HP with h | h
    · rw [hd, Nat.sub_eq_zero_of_le h, zero_add, Nat.cast_sub h, abs_of_nonpos (by
        have : (y : ℝ) ≤ HP := by exact_mod_cast h
        linarith)]
      ring
    · rw [hd, Nat.sub_eq_zero_of_le h, add_zero, Nat.cast_sub h, abs_of_nonneg (by
        have : (HP : ℝ) ≤ y := by exact_mod_cast h
        linarith)]
  have hdHP : d ≤ HP + 1 := by
    have : TP = 2 * HP + 1 := by decide
    omega
  have z1 : (z : ℝ) * 1000000000 ≤ d := by exact_mod_cast Nat.div_mul_le_self d 1000000000
  have z2 : (d : ℝ) < 1000000000 * (z + 1) := by exact_mod_cast Nat.lt_mul_div_succ d (by norm_num)
  have hzw : (z : ℝ) / w ≤ 3.14159265358979324 := by
    have : z ≤ (HP + 1) / 1000000000 := Nat.div_le_div_right hdHP
    have h2 : (HP + 1) / 1000000000 = 31415926535897932544 := by decide
    rw [h2] at this
    have : (z : ℝ) ≤ 31415926535897932544 := by exact_mod_cast this
    rw [div_le_iff₀ hw]
    norm_num [w]; linarith
  have k1 := cosC_err hzw
  set ψ : ℝ := y / (1000000000 * w) - Real.pi with hψ
  have k2 : Real.cos (y / (1000000000 * w)) = -Real.cos |ψ| := by
    rw [Real.cos_abs, hψ, Real.cos_sub_pi, neg_neg]
  have hpiHP : |(HP : ℝ) / (1000000000 * w) - Real.pi| ≤ 1 / w := by
    rw [hHP, abs_le]
    have : (31415926535897932544847659165 : ℝ) / (1000000000 * w) = 31415926535897932544847659165 / 10000000000000000051000000000 := by
      norm_num [w]
    rw [this]
    norm_num [w]
    constructor <;> linarith
  have k3 : |(z : ℝ) / w - (|ψ|)| ≤ 2 / w := by
    have a1 : |(d : ℝ) / (1000000000 * w) - (|ψ|)| ≤ 1 / w := by
      have : (d : ℝ) / (1000000000 * w) = |(y : ℝ) / (1000000000 * w) - HP / (1000000000 * w)| := by
        rw [hdR, ← sub_div, abs_div, abs_of_pos (by positivity : 0 < 1000000000 * w)]
      rw [this]
      refine (abs_abs_sub_abs_le_abs_sub _ _).trans ?_
      rw [hψ]
      rw [show (y : ℝ) / (1000000000 * w) - HP / (1000000000 * w) - (y / (1000000000 * w) - Real.pi) =
        -(HP / (1000000000 * w) - Real.pi) by ring, abs_neg]
      exact hpiHP
    have a2 : |(z : ℝ) / w - d / (1000000000 * w)| ≤ 1 / w := by
      have : (z : ℝ) / w - d / (1000000000 * w) = ((z : ℝ) - d / 1000000000) / w := by field_simp
      rw [this, abs_div, abs_of_pos hw]
      gcongr
      rw [abs_le]
      constructor
      · have : (d : ℝ) / 1000000000 < z + 1 := by rw [div_lt_iff₀ (by norm_num)]; linarith
        linarith
      · have : (z : ℝ) ≤ d / 1000000000 := by rw [le_div_iff₀ (by norm_num)]; linarith
        linarith
    calc |(z : ℝ) / w - (|ψ|)| = |((z : ℝ) / w - d / (1000000000 * w)) + (d / (1000000000 * w) - |ψ|)| := by ring_nf
      _ ≤ _ := abs_add_le _ _
      _ ≤ 1 / w + 1 / w := add_le_add a2 a1
      _ = _ := by ring
  have k4 : |Real.cos (z / w) - Real.cos (|ψ|)| ≤ 2 / w := (Real.abs_cos_sub_cos_le _ _).trans k3
  rw [k2]
  set C : ℝ := (cosC (z ^ 2) : ℝ)
  have : (w - C) / w - -Real.cos |ψ| = -(C / w - (1 + Real.cos (z / w))) - (Real.cos (z / w) - Real.cos |ψ|) := by
    field_simp
    ring
  rw [this]
  calc _ ≤ _ := abs_sub _ _
    _ ≤ 200 / w + 2 / w := by rw [abs_neg]; exact add_le_add k1 k4
    _ = 202 / w := by ring
    _ ≤ _ := by gcongr; norm_num

end CosSound
