import Verif.Proof.Lunation.Sun
import Mathlib.Analysis.SpecialFunctions.Trigonometric.Bounds

/-! # How the elongation changes from one time to another -/

open ShouXing

namespace Lunation
open Near (ampl R R_eq)

theorem R_lo : (206264.80 : ℝ) ≤ R := by rw [R_eq]; norm_num
theorem R_hi : R ≤ (206264.81 : ℝ) := by rw [R_eq]; norm_num
theorem R_pos : (0 : ℝ) < R := by linarith [R_lo]

/-! ## The rows -/

/-- the frequency of a row -/
noncomputable def fr (r : Row) : ℝ := (r.2.2.1 : ℝ) / 10 ^ 9

/-- the angle of the row is nearly linear -/
def small (r : Row) : Bool := 60200 * |r.2.2.2.1| + 271804 * |r.2.2.2.2.1| + 109085 * |r.2.2.2.2.2| ≤ 3100000000000

theorem small_rows : small r0 ∧ small r1 ∧ small r2 ∧ ∀ r ∈ rest, small r := by decide +kernel

theorem ph_lin {r : Row} (hr : small r) {t t' : ℝ} (ht : |t| ≤ 30.1) (ht' : |t'| ≤ 30.1) :
    |ph r t' - ph r t - fr r * (t' - t)| ≤ 0.031 * |t' - t| := by
  obtain ⟨a, b, c, d, e, f⟩ := r
  simp only [small, decide_eq_true_eq] at hr
  have hr' : 60200 * |(d : ℝ)| + 271804 * |(e : ℝ)| + 109085 * |(f : ℝ)| ≤ 3100000000000 := by exact_mod_cast hr
  have e1 : ph (a, b, c, d, e, f) t' - ph (a, b, c, d, e, f) t - fr (a, b, c, d, e, f) * (t' - t) =
      (d / 10 ^ 11 * (t + t') + e / 10 ^ 12 * (t * t + t * t' + t' * t') +
        f / 10 ^ 14 * (t * t * t + t * t * t' + t * t' * t' + t' * t' * t')) * (t' - t) := by
    simp only [ph, fr, angleM]; ring
  rw [e1, abs_mul]
  refine mul_le_mul_of_nonneg_right ?_ (abs_nonneg _)
  have s1 : |t + t'| ≤ 60.2 := (abs_add_le _ _).trans (by linarith)
  have q1 := mul_le ht ht
  have q2 := mul_le ht ht'
  have q3 := mul_le ht' ht'
  have s2 : |t * t + t * t' + t' * t'| ≤ 2718.04 := by
    refine (abs_add_le _ _).trans ?_
    have := abs_add_le (t * t) (t * t')
    linarith
  have s3 : |t * t * t + t * t * t' + t * t' * t' + t' * t' * t'| ≤ 109085 := by
    have c1 := mul_le q1 ht
    have c2 := mul_le q1 ht'
    have c3 := mul_le q2 ht'
    have c4 := mul_le q3 ht'
    have := abs_add_le (t * t * t + t * t * t' + t * t' * t') (t' * t' * t')
    have := abs_add_le (t * t * t + t * t * t') (t * t' * t')
    have := abs_add_le (t * t * t) (t * t * t')
    linarith
  have k1 : |(d : ℝ) / 10 ^ 11| ≤ |(d : ℝ)| / 10 ^ 11 := by rw [abs_div, abs_of_pos (by norm_num : (0 : ℝ) < 10 ^ 11)]
  have k2 : |(e : ℝ) / 10 ^ 12| ≤ |(e : ℝ)| / 10 ^ 12 := by rw [abs_div, abs_of_pos (by norm_num : (0 : ℝ) < 10 ^ 12)]
  have k3 : |(f : ℝ) / 10 ^ 14| ≤ |(f : ℝ)| / 10 ^ 14 := by rw [abs_div, abs_of_pos (by norm_num : (0 : ℝ) < 10 ^ 14)]
  have m1 := mul_le k1 s1
  have m2 := mul_le k2 s2
  have m3 := mul_le k3 s3
  have := abs_add_le (d / 10 ^ 11 * (t + t') + e / 10 ^ 12 * (t * t + t * t' + t' * t'))
    (f / 10 ^ 14 * (t * t * t + t * t * t' + t * t' * t' + t' * t' * t'))
  have := abs_add_le (d / 10 ^ 11 * (t + t')) (e / 10 ^ 12 * (t * t + t * t' + t' * t'))
  linarith

/-- sum of the amplitudes times the frequencies -/
def wsum (l : List Row) : ℤ := (l.map (fun r => |r.1| * (|r.2.2.1| + 31000000))).sum

theorem S_lip {l : List Row} (hl : ∀ r ∈ l, small r) {t t' : ℝ} (ht : |t| ≤ 30.1) (ht' : |t'| ≤ 30.1) :
    |S l t' - S l t| ≤ (wsum l : ℝ) / 10 ^ 16 * |t' - t| := by
  induction l with
  | nil => simp [S, wsum]
  | cons r l ih =>
    have ih := ih (fun y hy => hl y (List.mem_cons_of_mem _ hy))
    have hr := ph_lin (hl r List.mem_cons_self) ht ht'
    rw [S_cons, S_cons]
    have e2 : (wsum (r :: l) : ℝ) / 10 ^ 16 * |t' - t| = |(r.1 : ℝ)| / 10 ^ 7 * ((|(r.2.2.1 : ℝ)| / 10 ^ 9 + 0.031) * |t' - t|) + (wsum l : ℝ) / 10 ^ 16 * |t' - t| := by
      simp [wsum]; ring
    rw [e2]
    have e3 : (r.1 : ℝ) / 10 ^ 7 * Real.cos (ph r t') + S l t' - ((r.1 : ℝ) / 10 ^ 7 * Real.cos (ph r t) + S l t) =
      (r.1 : ℝ) / 10 ^ 7 * (Real.cos (ph r t') - Real.cos (ph r t)) + (S l t' - S l t) := by ring
    rw [e3]
    refine (abs_add_le _ _).trans (add_le_add ?_ ih)
    have k1 : |(r.1 : ℝ) / 10 ^ 7| ≤ |(r.1 : ℝ)| / 10 ^ 7 := by rw [abs_div, abs_of_pos (by norm_num : (0 : ℝ) < 10 ^ 7)]
    refine mul_le k1 ((Real.abs_cos_sub_cos_le _ _).trans ?_)
    have k2 : |fr r * (t' - t)| = |(r.2.2.1 : ℝ)| / 10 ^ 9 * |t' - t| := by
      rw [abs_mul, fr, abs_div, abs_of_pos (by norm_num : (0 : ℝ) < 10 ^ 9)]
    have := abs_add_le (ph r t' - ph r t - fr r * (t' - t)) (fr r * (t' - t))
    rw [sub_add_cancel] at this
    linarith

theorem rest_lip {t t' : ℝ} (ht : |t| ≤ 30.1) (ht' : |t'| ≤ 30.1) : |S rest t' / R - S rest t / R| ≤ 174 * |t' - t| := by
  have h := S_lip small_rows.2.2.2 ht ht'
  have hw : wsum rest ≤ 358770000000000000000000 := by decide +kernel
  have hw' : (wsum rest : ℝ) ≤ (358770000000000000000000 : ℤ) := by exact_mod_cast hw
  push_cast at hw'
  rw [← sub_div, abs_div, abs_of_pos R_pos, div_le_iff₀ R_pos]
  refine h.trans ?_
  have : (wsum rest : ℝ) / 10 ^ 16 ≤ 174 * R := by
    have := R_lo
    rw [div_le_iff₀ (by norm_num)]
    linarith
  calc _ ≤ 174 * R * |t' - t| := mul_le_mul_of_nonneg_right this (abs_nonneg _)
    _ = _ := by ring

/-! ## The mean elongation -/

/-- seconds of arc in radians -/
noncomputable def ι : ℝ := 1 / R

theorem ι_lo : (0.00000484813681 : ℝ) ≤ ι := by unfold ι; rw [R_eq]; norm_num
theorem ι_hi : ι ≤ (0.00000484813682 : ℝ) := by unfold ι; rw [R_eq]; norm_num

/-- the term from the year 3000 on -/
noncomputable def X (t : ℝ) : ℝ := if 10 < t then (-0.866 + 1.43 * (t - 10) + 0.054 * ((t - 10) * (t - 10))) * ι else 0

theorem Dm_eq (t : ℝ) : Dm t = -1.08471911 + (7771.3527647402 + 5028.792262 * ι) * t + (-0.000038487 + 1.1124406 * ι) * (t * t) +
    (0.0000000311 + 0.00007699 * ι) * (t * t * t) - (0.0000000002033 + 0.000023479 * ι) * (t * t * t * t) -
    0.0000000178 * ι * (t * t * t * t * t) + X t := by
  have hR : R ≠ 0 := R_pos.ne'
  have i0 : (int 0 : ℝ) = 0 := by show ((0 : ℤ) : ℝ) / 10 ^ 0 = _; norm_num
  have i10 : (int 10 : ℝ) = 10 := by show ((10 : ℤ) : ℝ) / 10 ^ 0 = _; norm_num
  have e : Near.mPoly t = if 10 < t then Near.mPoly1 t + Near.mPoly2 t + Near.mPoly3 (t - 10) else Near.mPoly1 t + Near.mPoly2 t := by
    show (if int 0 < t - int 10 then Near.mPoly1 t + Near.mPoly2 t + Near.mPoly3 (t - int 10) else Near.mPoly1 t + Near.mPoly2 t) = _
    rw [i0, i10]
    simp only [sub_pos]
  have e1 : Near.mPoly1 t = (3.81034409 + 8399.684730072 * t - 0.00003319 * (t * t) + 0.0000000311 * (t * t * t) - 0.0000000002033 * (t * t * t * t)) * R := by
    unfold Near.mPoly1
    simp only [lit_real, i0]
    show 0 + (_ + _ * t - _ * (t * t) + _ * (t * t * t) - _ * (t * t * t * t)) * R = _
    push_cast
    norm_num
  have e2 : Near.mPoly2 t = 5028.792262 * t + 1.1124406 * (t * t) + 0.00007699 * (t * t * t) - 0.000023479 * (t * t * t * t) - 0.0000000178 * (t * t * t * t * t) := by
    unfold Near.mPoly2
    simp only [lit_real]
    push_cast
    norm_num
  have e3 : Near.mPoly3 (t - 10) = -0.866 + 1.43 * (t - 10) + 0.054 * ((t - 10) * (t - 10)) := by
    unfold Near.mPoly3
    simp only [lit_real]
    show _ + _ * (t - 10) + _ * (t - 10) * (t - 10) = _
    push_cast
    norm_num
    ring
  unfold Dm X ι
  rw [e, e1, e2, e3]
  split_ifs with h
  · field_simp; ring
  · field_simp; ring

/-- the mean motion of the elongation in a century -/
noncomputable def v0 : ℝ := 7771.37714500204

theorem X_le {t : ℝ} (ht : |t| ≤ 30.1) : |X t| ≤ 0.00025 := by
  have a := abs_le.1 ht
  have l := ι_lo
  have h := ι_hi
  unfold X
  split_ifs with c
  · have : |(-0.866 + 1.43 * (t - 10) + 0.054 * ((t - 10) * (t - 10)))| ≤ 50 := by
      rw [abs_le]; constructor <;> nlinarith
    have k := mul_le this (le_of_eq_of_le (abs_of_pos (by linarith)) h)
    linarith
  · norm_num

theorem X_lip {t t' : ℝ} (ht : |t| ≤ 30.1) (ht' : |t'| ≤ 30.1) : |X t' - X t| ≤ 0.00002 * |t' - t| + 0.0000043 := by
  have l := ι_lo
  have h := ι_hi
  have key : ∀ s s' : ℝ, |s| ≤ 30.1 → |s'| ≤ 30.1 → s ≤ s' → |X s' - X s| ≤ 0.00002 * (s' - s) + 0.0000043 := by
    intro s s' hs hs' hle
    have a := abs_le.1 hs
    have a' := abs_le.1 hs'
    unfold X
    by_cases c : 10 < s
    · rw [if_pos c, if_pos (by linarith)]
      have e : (-0.866 + 1.43 * (s' - 10) + 0.054 * ((s' - 10) * (s' - 10))) * ι - (-0.866 + 1.43 * (s - 10) + 0.054 * ((s - 10) * (s - 10))) * ι =
        (1.43 + 0.054 * (s' + s - 20)) * (s' - s) * ι := by ring
      rw [e]
      have k1 : |(1.43 + 0.054 * (s' + s - 20)) * (s' - s)| ≤ 3.61 * (s' - s) := by
        refine mul_le ?_ (abs_of_nonneg (by linarith)).le
        rw [abs_le]; constructor <;> linarith
      have k := mul_le k1 (le_of_eq_of_le (abs_of_pos (by linarith)) h)
      linarith
    · rw [if_neg c]
      by_cases c' : 10 < s'
      · rw [if_pos c']
        have k1 : |(-0.866 + 1.43 * (s' - 10) + 0.054 * ((s' - 10) * (s' - 10)))| ≤ 0.866 + 3.61 * (s' - s) := by
          rw [abs_le]; constructor <;> nlinarith
        have k := mul_le k1 (le_of_eq_of_le (abs_of_pos (by linarith)) h)
        rw [sub_zero]
        linarith
      · rw [if_neg c']
        simp only [sub_self, abs_zero]
        linarith
  rcases le_total t t' with c | c
  · rw [abs_of_nonneg (by linarith : 0 ≤ t' - t)]
    exact key t t' ht ht' c
  · rw [abs_of_nonpos (by linarith : t' - t ≤ 0), abs_sub_comm]
    have := key t' t ht' ht c
    linarith

theorem Dm_near {t : ℝ} (ht : |t| ≤ 30.1) : |Dm t - (-1.08472 + v0 * t - 0.00003309 * (t * t))| ≤ 0.0014 := by
  have l := ι_lo
  have h := ι_hi
  have x := abs_le.1 (X_le ht)
  have t2 := mul_le ht ht
  have t3 := mul_le t2 ht
  have t4 := mul_le t3 ht
  have t5 := mul_le t4 ht
  have c1 : |7771.3527647402 + 5028.792262 * ι - v0| ≤ 0.0000001 := by
    unfold v0; rw [abs_le]; constructor <;> linarith
  have c2 : |-0.000005397 + 1.1124406 * ι| ≤ 0.000000005 := by rw [abs_le]; constructor <;> linarith
  have c3 : |0.0000000311 + 0.00007699 * ι| ≤ 0.0000000315 := by rw [abs_le]; constructor <;> linarith
  have c4 : |0.0000000002033 + 0.000023479 * ι| ≤ 0.00000000032 := by rw [abs_le]; constructor <;> linarith
  have c5 : |0.0000000178 * ι| ≤ 0.0000000000001 := by rw [abs_le]; constructor <;> linarith
  have k1 := abs_le.1 (mul_le c1 ht)
  have k2 := abs_le.1 (mul_le c2 t2)
  have k3 := abs_le.1 (mul_le c3 t3)
  have k4 := abs_le.1 (mul_le c4 t4)
  have k5 := abs_le.1 (mul_le c5 t5)
  have e : Dm t - (-1.08472 + v0 * t - 0.00003309 * (t * t)) = 0.00000089 + (7771.3527647402 + 5028.792262 * ι - v0) * t +
      (-0.000005397 + 1.1124406 * ι) * (t * t) + (0.0000000311 + 0.00007699 * ι) * (t * t * t) - (0.0000000002033 + 0.000023479 * ι) * (t * t * t * t) -
      0.0000000178 * ι * (t * t * t * t * t) + X t := by rw [Dm_eq]; ring
  rw [e, abs_le]
  constructor <;> linarith

theorem Dm_lip {t t' : ℝ} (ht : |t| ≤ 30.1) (ht' : |t'| ≤ 30.1) : |Dm t' - Dm t - v0 * (t' - t)| ≤ 0.0023 * |t' - t| + 0.0000043 := by
  have l := ι_lo
  have h := ι_hi
  have x := X_lip ht ht'
  have s1 : |t + t'| ≤ 60.2 := (abs_add_le _ _).trans (by linarith)
  have q1 := mul_le ht ht
  have q2 := mul_le ht ht'
  have q3 := mul_le ht' ht'
  have s2 : |t * t + t * t' + t' * t'| ≤ 2718.04 := by
    refine (abs_add_le _ _).trans ?_
    have := abs_add_le (t * t) (t * t')
    linarith
  have z1 := mul_le q1 ht
  have z2 := mul_le q1 ht'
  have z3 := mul_le q2 ht'
  have z4 := mul_le q3 ht'
  have s3 : |t * t * t + t * t * t' + t * t' * t' + t' * t' * t'| ≤ 109085 := by
    have := abs_add_le (t * t * t + t * t * t' + t * t' * t') (t' * t' * t')
    have := abs_add_le (t * t * t + t * t * t') (t * t' * t')
    have := abs_add_le (t * t * t) (t * t * t')
    linarith
  have s4 : |t * t * t * t + t * t * t * t' + t * t * t' * t' + t * t' * t' * t' + t' * t' * t' * t'| ≤ 4110000 := by
    have y1 := mul_le z1 ht
    have y2 := mul_le z1 ht'
    have y3 := mul_le z2 ht'
    have y4 := mul_le z3 ht'
    have y5 := mul_le z4 ht'
    have := abs_add_le (t * t * t * t + t * t * t * t' + t * t * t' * t' + t * t' * t' * t') (t' * t' * t' * t')
    have := abs_add_le (t * t * t * t + t * t * t * t' + t * t * t' * t') (t * t' * t' * t')
    have := abs_add_le (t * t * t * t + t * t * t * t') (t * t * t' * t')
    have := abs_add_le (t * t * t * t) (t * t * t * t')
    linarith
  have c1 : |7771.3527647402 + 5028.792262 * ι - v0| ≤ 0.0000001 := by
    unfold v0; rw [abs_le]; constructor <;> linarith
  have c2 : |-0.000038487 + 1.1124406 * ι| ≤ 0.0000332 := by rw [abs_le]; constructor <;> linarith
  have c3 : |0.0000000311 + 0.00007699 * ι| ≤ 0.0000000315 := by rw [abs_le]; constructor <;> linarith
  have c4 : |0.0000000002033 + 0.000023479 * ι| ≤ 0.00000000032 := by rw [abs_le]; constructor <;> linarith
  have c5 : |0.0000000178 * ι| ≤ 0.0000000000001 := by rw [abs_le]; constructor <;> linarith
  have k2 := mul_le c2 s1
  have k3 := mul_le c3 s2
  have k4 := mul_le c4 s3
  have k5 := mul_le c5 s4
  have e : Dm t' - Dm t - v0 * (t' - t) = ((7771.3527647402 + 5028.792262 * ι - v0) + (-0.000038487 + 1.1124406 * ι) * (t + t') +
      (0.0000000311 + 0.00007699 * ι) * (t * t + t * t' + t' * t') - (0.0000000002033 + 0.000023479 * ι) * (t * t * t + t * t * t' + t * t' * t' + t' * t' * t') -
      0.0000000178 * ι * (t * t * t * t + t * t * t * t' + t * t * t' * t' + t * t' * t' * t' + t' * t' * t' * t')) * (t' - t) + (X t' - X t) := by
    rw [Dm_eq, Dm_eq]; ring
  rw [e]
  refine (abs_add_le _ _).trans ?_
  have m : |(7771.3527647402 + 5028.792262 * ι - v0) + (-0.000038487 + 1.1124406 * ι) * (t + t') +
      (0.0000000311 + 0.00007699 * ι) * (t * t + t * t' + t' * t') - (0.0000000002033 + 0.000023479 * ι) * (t * t * t + t * t * t' + t * t' * t' + t' * t' * t') -
      0.0000000178 * ι * (t * t * t * t + t * t * t * t' + t * t * t' * t' + t * t' * t' * t' + t' * t' * t' * t')| ≤ 0.00228 := by
    have := abs_le.1 c1
    have := abs_le.1 k2
    have := abs_le.1 k3
    have := abs_le.1 k4
    have := abs_le.1 k5
    rw [abs_le]
    constructor <;> linarith
  have := mul_le m (le_refl |t' - t|)
  linarith

theorem Su_lip {t t' : ℝ} (ht : |t| ≤ 30.1) : |Su t' - Su t| ≤ 24.9 * |t' - t| := by
  have h1 := Real.abs_cos_sub_cos_le (4.669257 + 628.307585 * t') (4.669257 + 628.307585 * t)
  have h2 := Real.abs_cos_sub_cos_le (2.67823 + 628.307585 * t') (2.67823 + 628.307585 * t)
  have e : ∀ a : ℝ, |a + 628.307585 * t' - (a + 628.307585 * t)| = 628.307585 * |t' - t| := by
    intro a
    rw [show a + 628.307585 * t' - (a + 628.307585 * t) = 628.307585 * (t' - t) by ring, abs_mul, abs_of_pos (by norm_num)]
  rw [e] at h1 h2
  have e2 : Su t' - Su t = 0.0334166 * (Real.cos (4.669257 + 628.307585 * t') - Real.cos (4.669257 + 628.307585 * t)) +
      (0.0002061 * ((Real.cos (2.67823 + 628.307585 * t') - Real.cos (2.67823 + 628.307585 * t)) * t) +
      0.0002061 * (Real.cos (2.67823 + 628.307585 * t') * (t' - t))) := by unfold Su; ring
  rw [e2]
  have k1 := mul_le (abs_of_pos (by norm_num : (0 : ℝ) < 0.0334166)).le h1
  have k2 := mul_le (abs_of_pos (by norm_num : (0 : ℝ) < 0.0002061)).le (mul_le h2 ht)
  have k3 := mul_le (abs_of_pos (by norm_num : (0 : ℝ) < 0.0002061)).le (mul_le (Real.abs_cos_le_one (2.67823 + 628.307585 * t')) (le_refl |t' - t|))
  refine (abs_add_le _ _).trans ?_
  have := abs_add_le (0.0002061 * ((Real.cos (2.67823 + 628.307585 * t') - Real.cos (2.67823 + 628.307585 * t)) * t))
    (0.0002061 * (Real.cos (2.67823 + 628.307585 * t') * (t' - t)))
  have := abs_nonneg (t' - t)
  linarith

end Lunation
