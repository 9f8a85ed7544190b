import Verif.Proof.Lunation.Roots
import Mathlib.Analysis.Real.Pi.Bounds

/-! # From one new moon to the next -/

open ShouXing

namespace Lunation
open Near (ampl R R_eq)

/-- two waves of the same frequency -/
theorem two_waves {α β c m K : ℝ} (hK : 0 ≤ K) (h : α ^ 2 + β ^ 2 + 2 * α * β * Real.cos c ≤ K ^ 2) : |α * Real.sin m + β * Real.sin (m + c)| ≤ K := by
  refine abs_le_of_sq_le_sq ?_ hK
  rw [Real.sin_add]
  have h1 := Real.sin_sq_add_cos_sq m
  have h2 := Real.sin_sq_add_cos_sq c
  have e : (α * Real.sin m + β * (Real.sin m * Real.cos c + Real.cos m * Real.sin c)) ^ 2 +
      ((α + β * Real.cos c) * Real.cos m - β * Real.sin c * Real.sin m) ^ 2 =
      (Real.sin m ^ 2 + Real.cos m ^ 2) * (α ^ 2 + 2 * α * β * Real.cos c + β ^ 2 * (Real.sin c ^ 2 + Real.cos c ^ 2)) := by ring
  rw [h1, h2] at e
  have := sq_nonneg ((α + β * Real.cos c) * Real.cos m - β * Real.sin c * Real.sin m)
  linarith

/-! ## The sun -/

theorem cos_c : Real.cos (-1.991027) ≤ -0.35 ∧ -0.43 ≤ Real.cos (-1.991027) := by
  have e : Real.cos (-1.991027) = -Real.sin (1.991027 - Real.pi / 2) := by
    rw [Real.sin_sub_pi_div_two, Real.cos_neg, neg_neg]
  have p1 := Real.pi_gt_d4
  have p2 := Real.pi_lt_d4
  have h0 : 0 < 1.991027 - Real.pi / 2 := by linarith
  have h1 := Real.sin_lt h0
  have h2 := Real.sin_gt_sub_cube h0
  have h3 : (1.991027 - Real.pi / 2) ^ 3 ≤ 0.421 ^ 3 := by gcongr; linarith
  rw [e]
  constructor <;> linarith

theorem sun_amp {t : ℝ} (h0 : -0.5 ≤ t) (h1 : t ≤ 30.1) (m : ℝ) :
    |0.0334166 * Real.sin m + 0.0002061 * t * Real.sin (m + -1.991027)| ≤ 0.0335 := by
  refine two_waves (by norm_num) ?_
  have c := cos_c
  rcases le_total 0 t with h | h
  · have k : t * Real.cos (-1.991027) ≤ t * -0.35 := mul_le_mul_of_nonneg_left c.1 h
    have q : t * t ≤ 30.1 * t := mul_le_mul_of_nonneg_right h1 h
    linarith
  · have k : t * Real.cos (-1.991027) ≤ t * -0.43 := mul_le_mul_of_nonpos_left c.2 h
    have q : t * t ≤ -0.5 * t := mul_le_mul_of_nonpos_right h0 h
    linarith

theorem Su_month {t t' : ℝ} (h0 : -0.5 ≤ t) (h1 : t ≤ 30.1) (ht : t ≤ t') : |Su t' - Su t| ≤ 21.05 * (t' - t) := by
  have e : Su t' - Su t = -2 * (Real.sin (628.307585 * (t' - t) / 2) *
      (0.0334166 * Real.sin ((4.669257 + 628.307585 * t' + (4.669257 + 628.307585 * t)) / 2) +
        0.0002061 * t * Real.sin ((4.669257 + 628.307585 * t' + (4.669257 + 628.307585 * t)) / 2 + -1.991027))) +
      0.0002061 * (Real.cos (2.67823 + 628.307585 * t') * (t' - t)) := by
    have e1 := Real.cos_sub_cos (4.669257 + 628.307585 * t') (4.669257 + 628.307585 * t)
    have e2 := Real.cos_sub_cos (2.67823 + 628.307585 * t') (2.67823 + 628.307585 * t)
    rw [show (4.669257 + 628.307585 * t' - (4.669257 + 628.307585 * t)) / 2 = 628.307585 * (t' - t) / 2 by ring] at e1
    rw [show (2.67823 + 628.307585 * t' - (2.67823 + 628.307585 * t)) / 2 = 628.307585 * (t' - t) / 2 by ring,
      show (2.67823 + 628.307585 * t' + (2.67823 + 628.307585 * t)) / 2 = (4.669257 + 628.307585 * t' + (4.669257 + 628.307585 * t)) / 2 + -1.991027 by ring] at e2
    unfold Su
    linear_combination 0.0334166 * e1 + 0.0002061 * t * e2
  rw [e]
  have d0 : 0 ≤ t' - t := by linarith
  have a := sun_amp h0 h1 ((4.669257 + 628.307585 * t' + (4.669257 + 628.307585 * t)) / 2)
  have s : |Real.sin (628.307585 * (t' - t) / 2)| ≤ 628.307585 * (t' - t) / 2 := by
    refine Real.abs_sin_le_abs.trans (le_of_eq (abs_of_nonneg (by linarith)))
  have k1 := mul_le (show |(-2 : ℝ)| ≤ 2 by norm_num) (mul_le s a)
  have k2 := mul_le (show |(0.0002061 : ℝ)| ≤ 0.0002061 by rw [abs_of_pos (by norm_num)])
    (mul_le (Real.abs_cos_le_one (2.67823 + 628.307585 * t')) (abs_of_nonneg d0).le)
  refine (abs_add_le _ _).trans ?_
  linarith

/-! ## The rows -/

/-- how many turns a row makes in a month -/
def turns (r : Row) : ℤ := (200 * r.2.2.1 + 777137714500204) / (2 * 777137714500204)

/-- what remains of the turns of the rows in a month -/
def msum (l : List Row) : ℤ := (l.map (fun r => |r.1| * |100 * r.2.2.1 - turns r * 777137714500204|)).sum

/-- amplitudes -/
def asum (l : List Row) : ℤ := (l.map (fun r => |r.1|)).sum
/-- amplitudes times frequencies -/
def fsum (l : List Row) : ℤ := (l.map (fun r => |r.1| * |r.2.2.1|)).sum

theorem row_month {r : Row} (hr : small r) {t t' Δ : ℝ} (ht : |t| ≤ 30.1) (ht' : |t'| ≤ 30.1) (hΔ : v0 * (t' - t) = 2 * Real.pi + Δ) (hT : |t' - t| ≤ 0.001) :
    |ph r t' - ph r t - turns r * (2 * Real.pi)| ≤
      |(100 * r.2.2.1 - turns r * 777137714500204 : ℤ)| / 10 ^ 11 / v0 * (2 * Real.pi) + |(r.2.2.1 : ℝ)| / 10 ^ 9 / v0 * |Δ| + 0.000031 := by
  have v0' : (0 : ℝ) < v0 := by linarith [v0_pos]
  have lin := ph_lin hr ht ht'
  have eT : t' - t = (2 * Real.pi + Δ) / v0 := by rw [← hΔ]; field_simp
  have e : ph r t' - ph r t - turns r * (2 * Real.pi) = (ph r t' - ph r t - fr r * (t' - t)) +
      ((((100 * r.2.2.1 - turns r * 777137714500204 : ℤ) : ℝ) / 10 ^ 11 / v0 * (2 * Real.pi)) + (r.2.2.1 : ℝ) / 10 ^ 9 / v0 * Δ) := by
    rw [eT, fr]
    have : v0 = 777137714500204 / 10 ^ 11 := by unfold v0; norm_num
    have h2 : (turns r : ℝ) * (2 * Real.pi) = turns r * (777137714500204 / 10 ^ 11) / v0 * (2 * Real.pi) := by
      rw [← this]; field_simp
    rw [h2]
    push_cast
    ring
  rw [e]
  have p : (0 : ℝ) < 2 * Real.pi := by positivity
  have k1 : |((100 * r.2.2.1 - turns r * 777137714500204 : ℤ) : ℝ) / 10 ^ 11 / v0 * (2 * Real.pi)| =
      |(100 * r.2.2.1 - turns r * 777137714500204 : ℤ)| / 10 ^ 11 / v0 * (2 * Real.pi) := by
    rw [abs_mul, abs_of_pos p, abs_div, abs_of_pos v0', abs_div, abs_of_pos (by norm_num : (0 : ℝ) < 10 ^ 11)]
    push_cast
    rfl
  have k2 : |(r.2.2.1 : ℝ) / 10 ^ 9 / v0 * Δ| = |(r.2.2.1 : ℝ)| / 10 ^ 9 / v0 * |Δ| := by
    rw [abs_mul, abs_div, abs_of_pos v0', abs_div, abs_of_pos (by norm_num : (0 : ℝ) < 10 ^ 9)]
  have := abs_add_le (ph r t' - ph r t - fr r * (t' - t)) ((((100 * r.2.2.1 - turns r * 777137714500204 : ℤ) : ℝ) / 10 ^ 11 / v0 * (2 * Real.pi)) + (r.2.2.1 : ℝ) / 10 ^ 9 / v0 * Δ)
  have := abs_add_le (((100 * r.2.2.1 - turns r * 777137714500204 : ℤ) : ℝ) / 10 ^ 11 / v0 * (2 * Real.pi)) ((r.2.2.1 : ℝ) / 10 ^ 9 / v0 * Δ)
  linarith

theorem cos_turns (x : ℝ) (n : ℤ) : Real.cos (x - n * (2 * Real.pi)) = Real.cos x := Real.cos_sub_int_mul_two_pi x n

theorem S_month {l : List Row} (hl : ∀ r ∈ l, small r) {t t' Δ : ℝ} (ht : |t| ≤ 30.1) (ht' : |t'| ≤ 30.1) (hΔ : v0 * (t' - t) = 2 * Real.pi + Δ)
    (hT : |t' - t| ≤ 0.001) :
    |S l t' - S l t| ≤ (msum l : ℝ) / 10 ^ 18 / v0 * (2 * Real.pi) + (fsum l : ℝ) / 10 ^ 16 / v0 * |Δ| + (asum l : ℝ) / 10 ^ 7 * 0.000031 := by
  induction l with
  | nil => simp [S, msum, fsum, asum]
  | cons r l ih =>
    have ih := ih (fun y hy => hl y (List.mem_cons_of_mem _ hy))
    have hr := row_month (hl r List.mem_cons_self) ht ht' hΔ hT
    rw [S_cons, S_cons]
    have e2 : (msum (r :: l) : ℝ) / 10 ^ 18 / v0 * (2 * Real.pi) + (fsum (r :: l) : ℝ) / 10 ^ 16 / v0 * |Δ| + (asum (r :: l) : ℝ) / 10 ^ 7 * 0.000031 =
      |(r.1 : ℝ)| / 10 ^ 7 * (|(100 * r.2.2.1 - turns r * 777137714500204 : ℤ)| / 10 ^ 11 / v0 * (2 * Real.pi) + |(r.2.2.1 : ℝ)| / 10 ^ 9 / v0 * |Δ| + 0.000031) +
      ((msum l : ℝ) / 10 ^ 18 / v0 * (2 * Real.pi) + (fsum l : ℝ) / 10 ^ 16 / v0 * |Δ| + (asum l : ℝ) / 10 ^ 7 * 0.000031) := by
      simp only [msum, fsum, asum, List.map_cons, List.sum_cons]
      push_cast
      ring
    rw [e2]
    have e3 : (r.1 : ℝ) / 10 ^ 7 * Real.cos (ph r t') + S l t' - ((r.1 : ℝ) / 10 ^ 7 * Real.cos (ph r t) + S l t) =
      (r.1 : ℝ) / 10 ^ 7 * (Real.cos (ph r t' - turns r * (2 * Real.pi)) - Real.cos (ph r t)) + (S l t' - S l t) := by rw [cos_turns]; ring
    rw [e3]
    refine (abs_add_le _ _).trans (add_le_add ?_ ih)
    have k1 : |(r.1 : ℝ) / 10 ^ 7| ≤ |(r.1 : ℝ)| / 10 ^ 7 := by rw [abs_div, abs_of_pos (by norm_num : (0 : ℝ) < 10 ^ 7)]
    refine mul_le k1 ((Real.abs_cos_sub_cos_le _ _).trans ?_)
    rw [show ph r t' - turns r * (2 * Real.pi) - ph r t = ph r t' - ph r t - turns r * (2 * Real.pi) by ring]
    exact hr

theorem sums : msum rest ≤ 2957500000000000000000000 ∧ fsum rest ≤ 358770000000000000000000 ∧ asum rest ≤ 32761000000 := by decide +kernel

theorem rest_month {t t' Δ : ℝ} (ht : |t| ≤ 30.1) (ht' : |t'| ≤ 30.1) (hΔ : v0 * (t' - t) = 2 * Real.pi + Δ) (hT : |t' - t| ≤ 0.001) :
    |S rest t' / R - S rest t / R| ≤ 0.0116 + 0.0224 * |Δ| := by
  have v0' : (0 : ℝ) < v0 := by linarith [v0_pos]
  have h := S_month small_rows.2.2.2 ht ht' hΔ hT
  obtain ⟨s1, s2, s3⟩ := sums
  have s1' : (msum rest : ℝ) ≤ (2957500000000000000000000 : ℤ) := by exact_mod_cast s1
  have s2' : (fsum rest : ℝ) ≤ (358770000000000000000000 : ℤ) := by exact_mod_cast s2
  have s3' : (asum rest : ℝ) ≤ (32761000000 : ℤ) := by exact_mod_cast s3
  push_cast at s1' s2' s3'
  have p2 := Real.pi_lt_d4
  have p1 := Real.pi_gt_d4
  have r := R_lo
  have a1 : (msum rest : ℝ) / 10 ^ 18 / v0 ≤ 380.57 := by
    rw [div_le_iff₀ v0', div_le_iff₀ (by norm_num)]
    unfold v0; linarith
  have a2 : (fsum rest : ℝ) / 10 ^ 16 / v0 ≤ 4617 := by
    rw [div_le_iff₀ v0', div_le_iff₀ (by norm_num)]
    unfold v0; linarith
  have b1 : (msum rest : ℝ) / 10 ^ 18 / v0 * (2 * Real.pi) ≤ 380.57 * (2 * 3.1416) :=
    mul_le_mul a1 (by linarith) (by positivity) (by norm_num)
  have b2 : (fsum rest : ℝ) / 10 ^ 16 / v0 * |Δ| ≤ 4617 * |Δ| := mul_le_mul_of_nonneg_right a2 (abs_nonneg _)
  rw [← sub_div, abs_div, abs_of_pos R_pos, div_le_iff₀ R_pos]
  have b3 : 206264.80 * (0.0116 + 0.0224 * |Δ|) ≤ (0.0116 + 0.0224 * |Δ|) * R := by
    rw [mul_comm]
    exact mul_le_mul_of_nonneg_left r (by positivity)
  have := abs_nonneg Δ
  linarith

/-! ## The month -/

theorem crude {s u : ℝ} (hs : |s| ≤ 30.1) (hu : |G s - u| ≤ 0.0055) : |Dm s - u| ≤ 0.2046 := by
  have d0 := abs_le.1 (mul_le amp0 (Real.abs_cos_le_one (ph r0 s)))
  have d1 := abs_le.1 (mul_le amp1 (Real.abs_cos_le_one (ph r1 s)))
  have d2 := abs_le.1 (mul_le amp2 (Real.abs_cos_le_one (ph r2 s)))
  have d3 := abs_le.1 (rest_rad s)
  have d5 := abs_le.1 (mul_le (Real.abs_cos_le_one (2.67823 + 628.307585 * s)) hs)
  have k0 := abs_le.1 (Real.abs_cos_le_one (ph r0 s))
  have k1 := abs_le.1 (Real.abs_cos_le_one (ph r1 s))
  have k2 := abs_le.1 (Real.abs_cos_le_one (ph r2 s))
  have k3 := abs_le.1 (Real.abs_cos_le_one (4.669257 + 628.307585 * s))
  have hu := abs_le.1 hu
  unfold G Su at hu
  rw [S20_eq] at hu
  rw [sub_mul] at d0 d1 d2
  rw [abs_le]; constructor <;> linarith

section
variable {t t' Δ : ℝ}

/-- the time of a month -/
theorem month_start {w w' : ℝ} (ht : |t| ≤ 30.1) (ht' : |t'| ≤ 30.1) (hw' : |w' - w - 2 * Real.pi| ≤ 0.000001) (hG : |G t - w| ≤ 0.0055)
    (hG' : |G t' - w'| ≤ 0.0055) (hΔ : v0 * (t' - t) = 2 * Real.pi + Δ) :
    |t' - t| ≤ 0.001 ∧ 0 ≤ t' - t ∧ |Δ| ≤ 0.4093 ∧ |Δ - ((Dm t' - w') - (Dm t - w))| ≤ 0.00001 := by
  have v0' : (0 : ℝ) < v0 := by linarith [v0_pos]
  have p2 := Real.pi_lt_d6
  have p1 := Real.pi_gt_d6
  have P := abs_le.1 (crude ht hG)
  have P' := abs_le.1 (crude ht' hG')
  have hw' := abs_le.1 hw'
  have lip := abs_le.1 (Dm_lip ht ht')
  have T1 : |t' - t| ≤ 0.001 := by
    by_contra hc
    push Not at hc
    have : 7771 * |t' - t| ≤ |v0 * (t' - t)| := by
      rw [abs_mul, abs_of_pos v0']
      exact mul_le_mul_of_nonneg_right v0_pos (abs_nonneg _)
    have : |v0 * (t' - t)| ≤ 6.7 + 0.0023 * |t' - t| := by rw [abs_le]; constructor <;> linarith
    linarith
  have T0 : 0 ≤ t' - t := by
    by_contra hc
    push Not at hc
    have : v0 * (t' - t) < 0 := mul_neg_of_pos_of_neg v0' hc
    linarith
  have Δ1 : |Δ - ((Dm t' - w') - (Dm t - w))| ≤ 0.00001 := by rw [abs_le]; constructor <;> linarith
  refine ⟨T1, T0, ?_, Δ1⟩
  have Δ1 := abs_le.1 Δ1
  rw [abs_le]; constructor <;> linarith

theorem sun_month (h0 : -0.5 ≤ t) (h1 : t ≤ 30.1) (hΔ : v0 * (t' - t) = 2 * Real.pi + Δ) (T0 : 0 ≤ t' - t) : |Su t' - Su t| ≤ 0.01703 + 0.00271 * |Δ| := by
  have v0' : (0 : ℝ) < v0 := by linarith [v0_pos]
  have p2 := Real.pi_lt_d6
  have eT : t' - t = (2 * Real.pi + Δ) / v0 := by rw [← hΔ]; field_simp
  refine (Su_month h0 h1 (by linarith)).trans ?_
  rw [eT, mul_div_assoc', div_le_iff₀ v0']
  have a := le_abs_self Δ
  have b := abs_nonneg Δ
  unfold v0
  linarith

theorem row2_month (ht : |t| ≤ 30.1) (ht' : |t'| ≤ 30.1) (hΔ : v0 * (t' - t) = 2 * Real.pi + Δ) (T1 : |t' - t| ≤ 0.001) :
    |(r2.1 : ℝ) / 10 ^ 7 / R * (Real.cos (ph r2 t') - Real.cos (ph r2 t))| ≤ 0.01149 * (2.00001 * |Δ| + 0.00004) := by
  have v0' : (0 : ℝ) < v0 := by linarith [v0_pos]
  have p2 := Real.pi_lt_d6
  have h := row_month small_rows.2.2.1 ht ht' hΔ T1
  have ha : |(r2.1 : ℝ) / 10 ^ 7 / R| ≤ 0.01149 := by have := abs_le.1 amp2; rw [abs_le]; constructor <;> linarith
  rw [← cos_turns (ph r2 t') (turns r2)]
  refine mul_le ha ((Real.abs_cos_sub_cos_le _ _).trans ?_)
  rw [show ph r2 t' - turns r2 * (2 * Real.pi) - ph r2 t = ph r2 t' - ph r2 t - turns r2 * (2 * Real.pi) by ring]
  refine h.trans ?_
  have e1 : turns r2 = 2 := by decide +kernel
  rw [e1]
  have c1 : ((|(100 * r2.2.2.1 - 2 * 777137714500204 : ℤ)| : ℤ) : ℝ) / 10 ^ 11 / v0 ≤ 0.000000001 := by
    rw [div_le_iff₀ v0', div_le_iff₀ (by norm_num)]
    unfold v0 r2
    norm_num
  have c2 : |(r2.2.2.1 : ℝ)| / 10 ^ 9 / v0 ≤ 2.00001 := by
    rw [div_le_iff₀ v0', div_le_iff₀ (by norm_num)]
    unfold v0 r2
    norm_num
  have c3 := mul_le_mul_of_nonneg_right c1 (by positivity : 0 ≤ 2 * Real.pi)
  have c4 := mul_le_mul_of_nonneg_right c2 (abs_nonneg Δ)
  linarith

theorem main_month {w w' : ℝ} (h0 : -0.5 ≤ t) (ht : |t| ≤ 30.1) (ht' : |t'| ≤ 30.1) (hw' : |w' - w - 2 * Real.pi| ≤ 0.000001) (hG : |G t - w| ≤ 0.0055)
    (hG' : |G t' - w'| ≤ 0.0055) (hΔ : v0 * (t' - t) = 2 * Real.pi + Δ) :
    |Δ + ((r0.1 : ℝ) / 10 ^ 7 / R * (Real.cos (ph r0 t') - Real.cos (ph r0 t)) +
      (r1.1 : ℝ) / 10 ^ 7 / R * (Real.cos (ph r1 t') - Real.cos (ph r1 t)))| ≤ 0.04 + 0.0482 * |Δ| := by
  obtain ⟨T1, T0, -, Δ1⟩ := month_start ht ht' hw' hG hG' hΔ
  have sun := abs_le.1 (sun_month h0 (abs_le.1 ht).2 hΔ T0)
  have rs := abs_le.1 (rest_month ht ht' hΔ T1)
  have row2 := abs_le.1 (row2_month ht ht' hΔ T1)
  have e : G t' - G t = (Dm t' - Dm t) - (Su t' - Su t) + (S rest t' / R - S rest t / R) +
    ((r0.1 : ℝ) / 10 ^ 7 / R * (Real.cos (ph r0 t') - Real.cos (ph r0 t)) +
    (r1.1 : ℝ) / 10 ^ 7 / R * (Real.cos (ph r1 t') - Real.cos (ph r1 t))) +
    (r2.1 : ℝ) / 10 ^ 7 / R * (Real.cos (ph r2 t') - Real.cos (ph r2 t)) := by
    unfold G
    rw [S20_eq, S20_eq]
    ring
  have Δ1 := abs_le.1 Δ1
  have hG := abs_le.1 hG
  have hG' := abs_le.1 hG'
  have := abs_nonneg Δ
  rw [abs_le]; constructor <;> linarith

/-! ## Rows 0 and 1 -/

theorem x1_near (ht : |t| ≤ 30.1) (ht' : |t'| ≤ 30.1) (hΔ : v0 * (t' - t) = 2 * Real.pi + Δ) (T1 : |t' - t| ≤ 0.001) (Δ2 : |Δ| ≤ 0.4093) :
    |ph r0 t' - ph r0 t - 2 * Real.pi - (0.45059052 + 1.07171371 * Δ)| ≤ 0.000035 := by
  have v0' : (0 : ℝ) < v0 := by linarith [v0_pos]
  have p2 := Real.pi_lt_d20
  have p1 := Real.pi_gt_d20
  have Δ3 := abs_le.1 Δ2
  have eT : t' - t = (2 * Real.pi + Δ) / v0 := by rw [← hΔ]; field_simp
  have h := abs_le.1 (ph_lin small_rows.1 ht ht')
  have e : fr r0 * (t' - t) = 8328.691424623 / v0 * (2 * Real.pi + Δ) := by
    rw [eT]; simp only [fr, r0]; push_cast; ring
  have c : |8328.691424623 / v0 - 1.07171370907| ≤ 0.0000000001 := by
    unfold v0; rw [abs_le]; constructor <;> norm_num
  have c' := abs_le.1 (mul_le c (show |2 * Real.pi + Δ| ≤ 7 by rw [abs_le]; constructor <;> linarith))
  rw [sub_mul] at c'
  rw [e] at h
  rw [abs_le]; constructor <;> linarith

theorem x2_near (ht : |t| ≤ 30.1) (ht' : |t'| ≤ 30.1) (hΔ : v0 * (t' - t) = 2 * Real.pi + Δ) (T1 : |t' - t| ≤ 0.001) (Δ2 : |Δ| ≤ 0.4093) :
    |2 * Real.pi - (ph r1 t' - ph r1 t) - (0.45059052 - 0.92828629 * Δ)| ≤ 0.000035 := by
  have v0' : (0 : ℝ) < v0 := by linarith [v0_pos]
  have p2 := Real.pi_lt_d20
  have p1 := Real.pi_gt_d20
  have Δ3 := abs_le.1 Δ2
  have eT : t' - t = (2 * Real.pi + Δ) / v0 := by rw [← hΔ]; field_simp
  have h := abs_le.1 (ph_lin small_rows.2.1 ht ht')
  have e : fr r1 * (t' - t) = 7214.06286536 / v0 * (2 * Real.pi + Δ) := by
    rw [eT]; simp only [fr, r1]; push_cast; ring
  have c : |7214.06286536 / v0 - 0.92828629093| ≤ 0.0000000001 := by
    unfold v0; rw [abs_le]; constructor <;> norm_num
  have c' := abs_le.1 (mul_le c (show |2 * Real.pi + Δ| ≤ 7 by rw [abs_le]; constructor <;> linarith))
  rw [sub_mul] at c'
  rw [e] at h
  rw [abs_le]; constructor <;> linarith

theorem row0_month (x : ℝ) (hx : x = ph r0 t' - ph r0 t - 2 * Real.pi) :
    Real.cos (ph r0 t') - Real.cos (ph r0 t) = -2 * (Real.sin (x / 2) * Real.sin (ph r0 t + x / 2)) := by
  have : Real.cos (ph r0 t') = Real.cos (ph r0 t + x) := by
    rw [hx, show ph r0 t + (ph r0 t' - ph r0 t - 2 * Real.pi) = ph r0 t' - 2 * Real.pi by ring, Real.cos_sub_two_pi]
  rw [this, Real.cos_sub_cos, show (ph r0 t + x - ph r0 t) / 2 = x / 2 by ring, show (ph r0 t + x + ph r0 t) / 2 = ph r0 t + x / 2 by ring]
  ring

theorem row1_month (x : ℝ) (hx : x = 2 * Real.pi - (ph r1 t' - ph r1 t)) :
    Real.cos (ph r1 t') - Real.cos (ph r1 t) = 2 * (Real.sin (x / 2) * Real.sin (ph r1 t - x / 2)) := by
  have : Real.cos (ph r1 t') = Real.cos (ph r1 t - x) := by
    rw [hx, show ph r1 t - (2 * Real.pi - (ph r1 t' - ph r1 t)) = ph r1 t' - 2 * Real.pi by ring, Real.cos_sub_two_pi]
  rw [this, Real.cos_sub_cos, show (ph r1 t - x - ph r1 t) / 2 = -(x / 2) by ring, Real.sin_neg,
    show (ph r1 t - x + ph r1 t) / 2 = ph r1 t - x / 2 by ring]
  ring

theorem abs_sin_half (x : ℝ) : |Real.sin (x / 2)| ≤ |x| / 2 := by
  refine Real.abs_sin_le_abs.trans (le_of_eq ?_)
  rw [abs_div, abs_of_pos (by norm_num : (0 : ℝ) < 2)]

/-- the angles of rows 0 and 1 together -/
theorem phases (ht : |t| ≤ 30.1) : |ph r0 t + ph r1 t - Real.pi - 2 * Dm t| ≤ 0.0056 := by
  have t2 := mul_le ht ht
  have t3 := mul_le t2 ht
  have t4 := mul_le t3 ht
  have h := abs_le.1 (Dm_near ht)
  have p2 := Real.pi_lt_d6
  have p1 := Real.pi_gt_d6
  have := abs_le.1 ht
  have := abs_le.1 t2
  have := abs_le.1 t3
  have := abs_le.1 t4
  unfold v0 at h
  simp only [ph, r0, r1, angleM]
  push_cast
  rw [abs_le]; constructor <;> linarith

end

/-- rows 0 and 1 in a long month -/
theorem pair {a b x y p z D : ℝ} (ha : |a - 0.10975981| ≤ 0.00000001) (hb : |b - 0.02223568| ≤ 0.00000001) (hD : 0.0993 ≤ D) (hD' : D ≤ 0.41)
    (hx : |x - (0.45059052 + 1.07171371 * D)| ≤ 0.000035) (hy : |y - (0.45059052 - 0.92828629 * D)| ≤ 0.000035) (hz : |z| ≤ 0.416) :
    |a * (-2 * (Real.sin (x / 2) * Real.sin p)) + b * (2 * (Real.sin (y / 2) * Real.sin (p + z)))| ≤ 0.0534 + 0.14 * (D - 0.0993) := by
  have cz : 0.913 ≤ Real.cos z := by
    have := Real.one_sub_sq_div_two_le_cos (x := z)
    have h2 : z ^ 2 ≤ 0.416 ^ 2 := by
      rw [← sq_abs]; gcongr
    linarith
  have w : |0.0603503 * Real.sin p + -0.0079268 * Real.sin (p + z)| ≤ 0.0533 := by
    refine two_waves (by norm_num) ?_
    linarith
  have s1 : |Real.sin 0.278506 - 0.274921| ≤ 0.00004 := by
    have := Real.sin_bound (x := 0.278506) (by rw [abs_of_pos (by norm_num)]; norm_num)
    rw [abs_of_pos (by norm_num : (0 : ℝ) < 0.278506)] at this
    have := abs_le.1 this
    rw [abs_le]; constructor <;> norm_num at * <;> linarith
  have s2 : |Real.sin 0.179206 - 0.178248| ≤ 0.00003 := by
    have := Real.sin_bound (x := 0.179206) (by rw [abs_of_pos (by norm_num)]; norm_num)
    rw [abs_of_pos (by norm_num : (0 : ℝ) < 0.179206)] at this
    have := abs_le.1 this
    rw [abs_le]; constructor <;> norm_num at * <;> linarith
  have hx' := abs_le.1 hx
  have hy' := abs_le.1 hy
  have d1 : |Real.sin (x / 2) - Real.sin 0.278506| ≤ 0.5359 * (D - 0.0993) + 0.00002 := by
    refine (Real.abs_sin_sub_sin_le _ _).trans ?_
    rw [abs_le]; constructor <;> linarith
  have d2 : |Real.sin (y / 2) - Real.sin 0.179206| ≤ 0.4642 * (D - 0.0993) + 0.00002 := by
    refine (Real.abs_sin_sub_sin_le _ _).trans ?_
    rw [abs_le]; constructor <;> linarith
  have f1 : |a * (2 * Real.sin (x / 2)) - 0.0603503| ≤ 0.1177 * (D - 0.0993) + 0.00003 := by
    have g1 := abs_le.1 (mul_le ha (Real.abs_sin_le_one (x / 2)))
    have := abs_le.1 s1
    have := abs_le.1 d1
    rw [sub_mul] at g1
    rw [abs_le]; constructor <;> linarith
  have f2 : |b * (2 * Real.sin (y / 2)) - 0.0079268| ≤ 0.0207 * (D - 0.0993) + 0.00003 := by
    have g1 := abs_le.1 (mul_le hb (Real.abs_sin_le_one (y / 2)))
    have := abs_le.1 s2
    have := abs_le.1 d2
    rw [sub_mul] at g1
    rw [abs_le]; constructor <;> linarith
  have k1 := abs_le.1 (mul_le f1 (Real.abs_sin_le_one p))
  have k2 := abs_le.1 (mul_le f2 (Real.abs_sin_le_one (p + z)))
  have w := abs_le.1 w
  rw [sub_mul] at k1 k2
  rw [abs_le]; constructor <;> linarith

/-- from one new moon to the next the mean elongation changes by little more or less than a turn -/
theorem month {t t' w w' : ℝ} {k : ℤ} (h0 : -0.5 ≤ t) (h1 : t ≤ 30.1) (h0' : -0.5 ≤ t') (h1' : t' ≤ 30.1) (hw : |w - k * (2 * Real.pi)| ≤ 0.000001)
    (hw' : |w' - w - 2 * Real.pi| ≤ 0.000001) (hG : |G t - w| ≤ 0.0055) (hG' : |G t' - w'| ≤ 0.0055) :
    -0.11 ≤ v0 * (t' - t) - 2 * Real.pi ∧ v0 * (t' - t) - 2 * Real.pi ≤ 0.0993 := by
  have ht : |t| ≤ 30.1 := by rw [abs_le]; constructor <;> linarith
  have ht' : |t'| ≤ 30.1 := by rw [abs_le]; constructor <;> linarith
  obtain ⟨Δ, hΔ⟩ : ∃ Δ, Δ = v0 * (t' - t) - 2 * Real.pi := ⟨_, rfl⟩
  rw [← hΔ]
  have hΔ : v0 * (t' - t) = 2 * Real.pi + Δ := by rw [hΔ]; ring
  obtain ⟨T1, T0, Δ2, Δ1⟩ := month_start ht ht' hw' hG hG' hΔ
  have main := abs_le.1 (main_month h0 ht ht' hw' hG hG' hΔ)
  have Δ3 := abs_le.1 Δ2
  obtain ⟨x, hx⟩ : ∃ x, x = ph r0 t' - ph r0 t - 2 * Real.pi := ⟨_, rfl⟩
  obtain ⟨y, hy⟩ : ∃ x, x = 2 * Real.pi - (ph r1 t' - ph r1 t) := ⟨_, rfl⟩
  have bx := x1_near ht ht' hΔ T1 Δ2
  have bY := x2_near ht ht' hΔ T1 Δ2
  rw [← hx] at bx
  rw [← hy] at bY
  have bx' := abs_le.1 bx
  have bY' := abs_le.1 bY
  rw [row0_month x hx, row1_month y hy] at main
  constructor
  · by_contra hc
    push Not at hc
    have am0 := abs_le.1 amp0
    have am1 := abs_le.1 amp1
    have ax : |x| ≤ 0.3328 := by rw [abs_le]; constructor <;> linarith
    have ay : |y| ≤ 0.4507 + 0.9283 * -Δ := by rw [abs_le]; constructor <;> linarith
    have m1 := mul_le (show |(r0.1 : ℝ) / 10 ^ 7 / R| ≤ 0.1098 by rw [abs_le]; constructor <;> linarith)
      (mul_le (show |(-2 : ℝ)| ≤ 2 by norm_num) (mul_le ((abs_sin_half x).trans (div_le_div_of_nonneg_right ax (by norm_num))) (Real.abs_sin_le_one (ph r0 t + x / 2))))
    have m2 := mul_le (show |(r1.1 : ℝ) / 10 ^ 7 / R| ≤ 0.02224 by rw [abs_le]; constructor <;> linarith)
      (mul_le (show |(2 : ℝ)| ≤ 2 by norm_num) (mul_le ((abs_sin_half y).trans (div_le_div_of_nonneg_right ay (by norm_num))) (Real.abs_sin_le_one (ph r1 t - y / 2))))
    have m1 := abs_le.1 m1
    have m2 := abs_le.1 m2
    rw [abs_of_neg (by linarith : Δ < 0)] at main
    linarith
  · by_contra hc
    push Not at hc
    rw [abs_of_pos (by linarith : 0 < Δ)] at main
    have hz : |ph r0 t + x / 2 - y / 2 + ph r1 t - Real.pi - 2 * (k * (2 * Real.pi))| ≤ 0.416 := by
      have f := abs_le.1 (phases ht)
      have P := abs_le.1 (crude ht hG)
      have P' := abs_le.1 (crude ht' hG')
      have Δ1 := abs_le.1 Δ1
      have hw := abs_le.1 hw
      rw [abs_le]; constructor <;> linarith
    obtain ⟨z, hz'⟩ : ∃ z, z = ph r0 t + x / 2 - y / 2 + ph r1 t - Real.pi - 2 * (k * (2 * Real.pi)) := ⟨_, rfl⟩
    rw [← hz'] at hz
    have e : Real.sin (ph r1 t - y / 2) = Real.sin (ph r0 t + x / 2 + -z) := by
      rw [show ph r1 t - y / 2 = Real.pi - (ph r0 t + x / 2 + -z) + (2 * k : ℤ) * (2 * Real.pi) by rw [hz']; push_cast; ring,
        Real.sin_add_int_mul_two_pi, Real.sin_pi_sub]
    have q := abs_le.1 (pair (p := ph r0 t + x / 2) (z := -z) amp0 amp1 (by linarith) (by linarith) bx bY (by rw [abs_neg]; exact hz))
    rw [e] at main
    linarith

end Lunation
