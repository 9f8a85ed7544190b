import Verif.Proof.SunDay.Table
import Verif.Proof.SunDay.DeltaEarly
import Verif.Spec.SunPlace
import Mathlib.Topology.Order.IntermediateValue

/-! # The instant at which the sun is at a given place -/

open ShouXing F64 Spec

namespace SunDay
open Near (R R_eq)

theorem saLon_cont : ContinuousOn (fun t : ℝ => saLon t (-1)) {t | |t| ≤ 10.02} := by
  refine Metric.continuousOn_iff.2 fun t ht e he => ⟨e / 700, by positivity, fun t' ht' h => ?_⟩
  have f := L_first ht ht'
  rw [Real.dist_eq] at h ⊢
  have a := abs_add_le (saLon t' (-1) - saLon t (-1) - v * (t' - t)) (v * (t' - t))
  rw [sub_add_cancel, abs_mul, abs_of_pos (by linarith [v_pos] : (0 : ℝ) < v)] at a
  have e : (v : ℝ) ≤ 629 := by unfold v; norm_num
  have := mul_le_mul_of_nonneg_right e (abs_nonneg (t' - t))
  have := abs_nonneg (t' - t)
  have h' : 700 * |t' - t| < 700 * (_ / 700) := mul_lt_mul_of_pos_left h (by norm_num)
  linarith

/-- the longitude grows -/
theorem grows {t t' : ℝ} (ht : |t| ≤ 10.02) (ht' : |t'| ≤ 10.02) (h : t ≤ t') : 605 * (t' - t) ≤ saLon t' (-1) - saLon t (-1) := by
  have f := L_first ht ht'
  rw [abs_of_nonneg (by linarith : (0 : ℝ) ≤ t' - t)] at f
  have f := abs_le.1 f
  have e : (605 : ℝ) + 23.32 ≤ v := by unfold v; norm_num
  have := mul_le_mul_of_nonneg_right e (by linarith : (0 : ℝ) ≤ t' - t)
  rw [add_mul] at this
  linarith

theorem sunAt_unique {W t t' : ℝ} (h : SunAt W t) (h' : SunAt W t') : t = t' := by
  have := close h.1 h'.1 (d := 0) (by rw [h.2, h'.2]; simp)
  have := abs_nonneg (t' - t)
  have h0 : |t' - t| = 0 := by linarith
  have := abs_eq_zero.1 h0
  linarith

theorem sunAt_exists {W T d : ℝ} (hd : 0 ≤ d) (hd' : d ≤ 0.00001) (hT : |T| ≤ 10.011) (h : |saLon T (-1) - W| ≤ 605 * d) : ∃ t, SunAt W t ∧ |T - t| ≤ d := by
  have a := abs_le.1 hT
  have m1 : |T - d| ≤ 10.02 := by rw [abs_le]; constructor <;> linarith
  have m2 : |T + d| ≤ 10.02 := by rw [abs_le]; constructor <;> linarith
  have m0 : |T| ≤ 10.02 := by linarith
  have g1 := grows m1 m0 (by linarith)
  have g2 := grows m0 m2 (by linarith)
  have h := abs_le.1 h
  have sub : Set.Icc (T - d) (T + d) ⊆ {t | |t| ≤ 10.02} := by
    intro x hx
    have p1 := (abs_le.1 m1).1; have p2 := (abs_le.1 m2).2
    obtain ⟨x1, x2⟩ := hx
    show |x| ≤ 10.02
    rw [abs_le]
    constructor <;> linarith
  obtain ⟨t, ht, e⟩ := intermediate_value_Icc (by linarith) (saLon_cont.mono sub) (show W ∈ Set.Icc (saLon (T - d) (-1)) (saLon (T + d) (-1)) from ⟨by linarith, by linarith⟩)
  exact ⟨t, ⟨sub ht, e⟩, abs_le.2 ⟨by linarith [ht.2], by linarith [ht.1]⟩⟩

theorem long_bound {M : Libm} (hM : M.Good) {w : Fl M} (hw : |(w.v : ℝ)| ≤ 6284) : |((saLonT w : Fl M).v : ℝ)| ≤ 10.011 := by
  have a := (long hM hw).2.2
  have b := (t0_near hw).2
  have := abs_add_le (((saLonT w : Fl M).v : ℝ) - (t0 w).v) (t0 w).v
  rw [sub_add_cancel] at this
  linarith

theorem short_bound {M : Libm} (hM : M.Good) {w : Fl M} (hw : |(w.v : ℝ)| ≤ 6284) : |((saLonT2 w : Fl M).v : ℝ)| ≤ 10.011 := by
  have a := (short hM hw).2.2
  have b := (t0_near hw).2
  have := abs_add_le (((saLonT2 w : Fl M).v : ℝ) - (t0 w).v) (t0 w).v
  rw [sub_add_cancel] at this
  linarith

/-- the instant of a solar term in the table -/
theorem term_place {M : Libm} (hM : M.Good) {n : ℤ} (h1 : 24 * (1585 - 2000) ≤ n) (h2 : n ≤ 24000) :
    ∃ t, SunAt (n * Real.pi / 12) t ∧ ∃ x : Fl M, |(x.v : ℝ) - 36525 * t| ≤ 4.2 / 86400 ∧
      |(termAt M n : ℝ) - (36525 * t - (dtT x : Fl M).v + 1 / 3)| ≤ 4.2 / 86400 ∧ |t| ≤ 10.0111 ∧ -151900 ≤ (x.v : ℝ) ∧ (x.v : ℝ) ≤ 366000 := by
  have hn : |n| ≤ 24000 := by rw [abs_le]; constructor <;> omega
  have nr : |(n : ℝ)| ≤ 24000 := by exact_mod_cast hn
  obtain ⟨-, q⟩ := arg_near (M := M) hn
  obtain ⟨w, hw⟩ : ∃ w : Fl M, w = int n * (PI / int 12) := ⟨_, rfl⟩
  rw [← hw] at q
  have p : (PI : ℝ) = 3.141592653589793 := by show ((3141592653589793 : ℤ) : ℝ) / 10 ^ 15 = _; norm_num
  have p2 := Real.pi_gt_d20
  have p1 := Real.pi_lt_d20
  have pp : |(n : ℝ) * PI / 12 - n * Real.pi / 12| ≤ 1 / 10 ^ 11 := by
    have : |(n : ℝ) * ((PI - Real.pi) / 12)| ≤ 24000 * (1 / 10 ^ 16) := Lunation.mul_le nr (by rw [p, abs_le]; constructor <;> linarith)
    rw [show (n : ℝ) * PI / 12 - n * Real.pi / 12 = n * ((PI - Real.pi) / 12) by ring]
    exact this.trans (by norm_num)
  have nw : |(w.v : ℝ)| ≤ 6284 := by
    have a := abs_le.1 (Lunation.mul_le nr (show |(PI : ℝ) / 12| ≤ 0.2618 by rw [p, abs_le]; constructor <;> norm_num))
    have q := abs_le.1 q
    rw [show (n : ℝ) * PI / 12 = n * (PI / 12) by ring] at q
    rw [abs_le]; constructor <;> linarith
  obtain ⟨l1, l2, l3⟩ := long hM nw
  have lb := long_bound hM nw
  obtain ⟨z1, -⟩ := t0_near nw
  obtain ⟨T, hT⟩ : ∃ T : Fl M, T = saLonT w := ⟨_, rfl⟩
  rw [← hT] at l1 l2 l3 lb
  have l2 := abs_le.1 l2
  have l3 := abs_le.1 l3
  have z1 := abs_le.1 z1
  have q := abs_le.1 q
  have pp := abs_le.1 pp
  obtain ⟨t, ht, k⟩ := sunAt_exists (W := n * Real.pi / 12) (T := T.v) (d := 0.000000001328) (by norm_num) (by norm_num) lb (by rw [abs_le]; constructor <;> linarith)
  have k := abs_le.1 k
  have n1 : (24 * (1585 - 2000) : ℝ) ≤ n := by exact_mod_cast h1
  have T0 : -4.1583 ≤ (T.v : ℝ) := by
    have a : (24 * (1585 - 2000) : ℝ) * (PI / 12) ≤ n * (PI / 12) := mul_le_mul_of_nonneg_right n1 (by rw [p]; norm_num)
    rw [show (n : ℝ) * (PI / 12) = n * PI / 12 by ring] at a
    rw [p] at a q z1
    unfold v at z1
    linarith
  have c0 : |((0 : ℚ) : ℝ)| ≤ 0.38 := by norm_num
  obtain ⟨x, hx⟩ : ∃ x : Fl M, x = T * int 36525 := ⟨_, rfl⟩
  have d0 := abs_le.1 (to_days (d := ⟨0⟩) l1 c0).1
  rw [← hx] at d0
  have lb := abs_le.1 lb
  have e1 : |((dtT x : Fl M).v : ℝ)| ≤ 0.38 := dtT_le (by linarith) (by linarith)
  have d1 := abs_le.1 (to_days l1 e1).2
  rw [← hx] at d1
  have eA : (termAt M n : ℝ) = ((x - dtT x + ONE_THIRD : Fl M).v : ℝ) := by rw [hx, hT, hw]; rfl
  refine ⟨t, ht, x, ?_, ?_, ?_, by linarith, by linarith⟩
  · rw [abs_le]; constructor <;> linarith
  · rw [eA, abs_le]; constructor <;> linarith
  · rw [abs_le]; constructor <;> linarith

end SunDay
