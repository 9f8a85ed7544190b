import Verif.Proof.SunDay.Root

/-! # The place of the sun between two entries of the table -/

open ShouXing F64 Spec

namespace SunDay

theorem slow {t t' : ℝ} (ht : |t| ≤ 10.02) (ht' : |t'| ≤ 10.02) (h : t ≤ t') : saLon t' (-1) - saLon t (-1) ≤ 652 * (t' - t) := by
  have f := L_first ht ht'
  rw [abs_of_nonneg (by linarith : (0 : ℝ) ≤ t' - t)] at f
  have f := abs_le.1 f
  have e : v + 23.32 ≤ (652 : ℝ) := by unfold v; norm_num
  have := mul_le_mul_of_nonneg_right e (by linarith : (0 : ℝ) ≤ t' - t)
  rw [add_mul] at this
  linarith

/-- a time at most `e` before another is at a place at most `652 e` before -/
theorem after_place {a t e : ℝ} (ha : |a| ≤ 10.02) (ht : |t| ≤ 10.02) (h0 : 0 ≤ e) (h : a - e ≤ t) : saLon a (-1) - 652 * e ≤ saLon t (-1) := by
  rcases le_total a t with h' | h'
  · have := grows ha ht h'
    linarith
  · have := slow ht ha h'
    linarith

theorem between {M : Libm} (hM : M.Good) {n n' : ℤ} (h1 : 24 * (1585 - 2000) ≤ n) (h2 : n < n') (h3 : n' ≤ n + 24) (h4 : n' ≤ 24000) :
    ∃ x : Fl M, ∀ δ t : ℝ, |δ - (dtT x : Fl M).v| ≤ 0.01 → (termAt M n : ℝ) - 1 / 86400 ≤ 36525 * t - δ + 1 / 3 →
      36525 * t - δ + 1 / 3 ≤ (termAt M n' : ℝ) + 1 / 86400 →
      |(x.v : ℝ) - 36525 * t| ≤ 380 ∧ n * Real.pi / 12 - 0.00025 ≤ saLon t (-1) ∧ saLon t (-1) ≤ n' * Real.pi / 12 + 0.00025 := by
  obtain ⟨a, ⟨a0, ea⟩, x, x1, x2, a1, x3, x4⟩ := term_place hM (n := n) h1 (by omega)
  obtain ⟨b, ⟨b0, eb⟩, y, y1, y2, b1, y3, y4⟩ := term_place hM (n := n') (by omega) h4
  have p1 := Real.pi_gt_d4
  have p2 := Real.pi_lt_d4
  have d1 : (1 : ℝ) ≤ (n' : ℝ) - n := by
    have : ((n + 1 : ℤ) : ℝ) ≤ n' := by exact_mod_cast h2
    push_cast at this
    linarith
  have d2 : (n' : ℝ) - n ≤ 24 := by
    have : (n' : ℝ) ≤ ((n + 24 : ℤ) : ℝ) := by exact_mod_cast h3
    push_cast at this
    linarith
  have w1 : 0.26 ≤ ((n' : ℝ) - n) * (Real.pi / 12) := by
    have := mul_le_mul_of_nonneg_right d1 (by linarith : (0 : ℝ) ≤ Real.pi / 12)
    linarith
  have w2 : ((n' : ℝ) - n) * (Real.pi / 12) ≤ 6.2834 := by
    have := mul_le_mul_of_nonneg_right d2 (by linarith : (0 : ℝ) ≤ Real.pi / 12)
    linarith
  have ew : saLon b (-1) - saLon a (-1) = ((n' : ℝ) - n) * (Real.pi / 12) := by rw [ea, eb]; ring
  rw [← ew] at w1 w2
  have ab : a ≤ b := by
    by_contra h
    have := grows b0 a0 (by linarith)
    linarith
  have g := grows a0 b0 ab
  have sl := slow a0 b0 ab
  have x1 := abs_le.1 x1
  have y1 := abs_le.1 y1
  have c := abs_le.1 (dtT_change (x := x) (x' := y) x3 (by linarith) (by linarith) (by linarith))
  have x2 := abs_le.1 x2
  have y2 := abs_le.1 y2
  have a1 := abs_le.1 a1
  have b1 := abs_le.1 b1
  refine ⟨x, fun δ t hδ ht ht' => ?_⟩
  have hδ := abs_le.1 hδ
  have l1 : a - 0.0102 / 36525 ≤ t := by linarith
  have l2 : t - 0.0128 / 36525 ≤ b := by linarith
  have tb : |t| ≤ 10.02 := by rw [abs_le]; constructor <;> linarith
  have r1 := after_place a0 tb (by norm_num) l1
  have r2 := after_place tb b0 (by norm_num) l2
  rw [← ea, ← eb]
  refine ⟨?_, by linarith, by linarith⟩
  rw [abs_le]; constructor <;> linarith

/-- the place of the sun some days before or after an entry -/
theorem around {M : Libm} (hM : M.Good) {n : ℤ} (h1 : 24 * (1585 - 2000) ≤ n) (h2 : n ≤ 24000) :
    ∃ x : Fl M, ∀ δ t e e' : ℝ, |δ - (dtT x : Fl M).v| ≤ 0.01 → 0 ≤ e → e ≤ 30 → 0 ≤ e' → e' ≤ 30 →
      (termAt M n : ℝ) - e ≤ 36525 * t - δ + 1 / 3 → 36525 * t - δ + 1 / 3 ≤ (termAt M n : ℝ) + e' →
      |(x.v : ℝ) - 36525 * t| ≤ 31 ∧ n * Real.pi / 12 - 0.017851 * (e + 0.0102) ≤ saLon t (-1) ∧
      saLon t (-1) ≤ n * Real.pi / 12 + 0.017851 * (e' + 0.0102) := by
  obtain ⟨a, ⟨a0, ea⟩, x, x1, x2, a1, -⟩ := term_place hM (n := n) h1 h2
  have x1 := abs_le.1 x1
  have x2 := abs_le.1 x2
  have a1 := abs_le.1 a1
  refine ⟨x, fun δ t e e' hδ e0 e30 e0' e30' ht ht' => ?_⟩
  have hδ := abs_le.1 hδ
  have l1 : a - (e + 0.0102) / 36525 ≤ t := by linarith
  have l2 : t - (e' + 0.0102) / 36525 ≤ a := by linarith
  have tb : |t| ≤ 10.02 := by rw [abs_le]; constructor <;> linarith
  have r1 := after_place a0 tb (by positivity) l1
  have r2 := after_place tb a0 (by positivity) l2
  rw [← ea]
  refine ⟨?_, by linarith, by linarith⟩
  rw [abs_le]; constructor <;> linarith

/-- the place of the sun within a month of an entry, by the time before or after it and before the next -/
theorem span {M : Libm} (hM : M.Good) {n : ℤ} (h1 : 24 * (1585 - 2000) ≤ n) (h2 : n + 1 ≤ 24000) :
    ∃ x : Fl M, ∀ δ t : ℝ, |δ - (dtT x : Fl M).v| ≤ 0.01 → |36525 * t - δ + 1 / 3 - (termAt M n : ℝ)| ≤ 30 →
      |(x.v : ℝ) - 36525 * t| ≤ 31 ∧
      (∀ e : ℝ, 0 ≤ e → (termAt M n : ℝ) - e ≤ 36525 * t - δ + 1 / 3 → n * Real.pi / 12 - 0.017851 * (e + 0.0102) ≤ saLon t (-1)) ∧
      (∀ e : ℝ, 1 ≤ e → (termAt M n : ℝ) + e ≤ 36525 * t - δ + 1 / 3 → n * Real.pi / 12 + 0.016564 * (e - 0.0102) ≤ saLon t (-1)) ∧
      (∀ e : ℝ, 0 ≤ e → 36525 * t - δ + 1 / 3 ≤ (termAt M n : ℝ) + e → saLon t (-1) ≤ n * Real.pi / 12 + 0.017851 * (e + 0.0102)) ∧
      (36525 * t - δ + 1 / 3 ≤ (termAt M (n + 1) : ℝ) + 1 / 86400 → saLon t (-1) ≤ (n + 1) * Real.pi / 12 + 0.00025) := by
  obtain ⟨a, ⟨a0, ea⟩, x, x1, x2, a1, x3, x4⟩ := term_place hM (n := n) h1 (by omega)
  obtain ⟨b, ⟨b0, eb⟩, y, y1, y2, b1, y3, y4⟩ := term_place hM (n := n + 1) (by omega) h2
  have p1 := Real.pi_gt_d4
  have p2 := Real.pi_lt_d4
  push_cast at eb
  have ew : saLon b (-1) - saLon a (-1) = Real.pi / 12 := by rw [ea, eb]; ring
  have ab : a ≤ b := by
    by_contra h
    have := grows b0 a0 (by linarith)
    linarith
  have g := grows a0 b0 ab
  have sl := slow a0 b0 ab
  have x1 := abs_le.1 x1
  have y1 := abs_le.1 y1
  have c := abs_le.1 (dtT_change (x := x) (x' := y) x3 (by linarith) (by linarith) (by linarith))
  have x2 := abs_le.1 x2
  have y2 := abs_le.1 y2
  have a1 := abs_le.1 a1
  refine ⟨x, fun δ t hδ ht => ?_⟩
  have hδ := abs_le.1 hδ
  have ht := abs_le.1 ht
  have tb : |t| ≤ 10.02 := by rw [abs_le]; constructor <;> linarith
  rw [← ea, ← eb]
  refine ⟨?_, fun e e0 h => ?_, fun e e0 h => ?_, fun e e0 h => ?_, fun h => ?_⟩
  · rw [abs_le]; constructor <;> linarith
  · have := after_place a0 tb (e := (e + 0.0102) / 36525) (by positivity) (by linarith)
    linarith
  · have l : a + (e - 0.0102) / 36525 ≤ t := by linarith
    have := grows a0 tb (by linarith)
    linarith
  · have := after_place tb a0 (e := (e + 0.0102) / 36525) (by positivity) (by linarith)
    linarith
  · have := after_place tb b0 (e := 0.0128 / 36525) (by positivity) (by linarith)
    linarith

end SunDay
