import Verif.Proof.Lunation.Delta
import Verif.Proof.High.Lines

/-! # The days of successive new moons -/

open ShouXing F64

namespace Lunation
variable {M : Libm}

/-- the argument of new moon `k` -/
theorem arg_near {k : ℤ} (h : |k| ≤ 37200) : |((shuoArg (int k) : Fl M).v : ℝ) - k * (2 * Real.pi)| ≤ 0.0000001 := by
  have hk : |(k : ℝ)| ≤ 37200 := by exact_mod_cast h
  have p : Near (PI : Fl M) Real.pi 4 (1 / 10 ^ 14) := by
    have n := (Near.pi (M := M)).1
    have e : (PI : ℝ) = 3.141592653589793 := by show ((_ : ℤ) : ℝ) / 10 ^ _ = _; norm_num
    rw [e] at n
    have h1 := Real.pi_gt_d20
    have h2 := Real.pi_lt_d20
    have n := abs_le.1 n
    refine ⟨?_, ?_⟩
    · rw [abs_le]; constructor <;> linarith
    · rw [abs_le]; constructor <;> linarith
  have n := (((int_near (M := M) k hk (h.trans (by norm_num))).mul p).mul (int_near (M := M) 2 (m := 2) (by norm_num) (by norm_num))).1
  rw [show (k : ℝ) * (2 * Real.pi) = k * Real.pi * (2 : ℤ) by push_cast; ring]
  exact n.trans (by norm_num)

/-- `x - d + 1/3` and a half more -/
theorem sum_near {x d : Fl M} {X : ℝ} (hx : Near x X 1100000 (1 / 10 ^ 8)) (hd : |(d.v : ℝ)| ≤ 0.38) :
    |((x - d + ONE_THIRD : Fl M).v : ℝ) - (X - d.v + 1 / 3)| ≤ 1 / 10 ^ 7 ∧ |((x - d + ONE_THIRD + FloatLike.lit 5 1 : Fl M).v : ℝ) - (X - d.v + 5 / 6)| ≤ 1 / 10 ^ 7 := by
  have t : Near (ONE_THIRD : Fl M) (1 / 3) 1 (1 / 10 ^ 10) := by
    have n := (int_near (M := M) 1 (m := 1) (by norm_num) (by norm_num)).div (int_near (M := M) 3 (m := 3) (by norm_num) (by norm_num)) (l := 3) (by norm_num) (by norm_num)
    push_cast at n
    exact n.mono (by norm_num) (by norm_num)
  have l : Near (FloatLike.lit 5 1 : Fl M) (1 / 2) 1 (1 / 10 ^ 10) := by
    have n := Near.lit (M := M) 5 1
    have e : (FloatLike.lit 5 1 : ℝ) = 1 / 2 := by show ((5 : ℤ) : ℝ) / 10 ^ 1 = _; norm_num
    rw [e] at n
    exact n.mono (by norm_num) (by norm_num)
  have a := (hx.sub (Near.self d hd)).add t
  have b := (a.add l).1
  refine ⟨a.1.trans (by norm_num), ?_⟩
  rw [show X - (d.v : ℝ) + 5 / 6 = X - d.v + 1 / 3 + 1 / 2 by ring]
  exact b.trans (by norm_num)

theorem day_near {t : Fl M} (h : |(t.v : ℝ)| ≤ 30.09) : Near (t * int 36525) (36525 * t.v) 1100000 (1 / 10 ^ 8) := by
  have n := (Near.self t h).mul (int_near (M := M) 36525 (m := 36525) (by norm_num) (by norm_num))
  rw [mul_comm (36525 : ℝ)]
  push_cast at n
  exact n.mono (by norm_num) (by norm_num)

section
variable (hM : M.Good)
include hM

/-- the time of new moon `k` and the correction -/
theorem moon_form {k : ℤ} (h0 : -490 ≤ k) (h1 : k ≤ 37150) : ∃ (T : ℝ) (x : Fl M), -0.5 ≤ T ∧ T ≤ 30.1 ∧
    |G T - ((shuoArg (int k) : Fl M).v : ℝ)| ≤ 0.0055 ∧ |(x.v : ℝ) - 36525 * T| ≤ 1 ∧ -14540 ≤ (x.v : ℝ) ∧ (x.v : ℝ) ≤ 1100000 ∧
    |((moonU M k : ℚ) : ℝ) - (36525 * T - (dtT x : Fl M).v + 5 / 6)| ≤ 1 / 10 ^ 6 := by
  have a := abs_le.1 (arg_near (M := M) (k := k) (by rw [abs_le]; constructor <;> linarith))
  have k0 : (-490 : ℝ) ≤ k := by exact_mod_cast h0
  have k1 : (k : ℝ) ≤ 37150 := by exact_mod_cast h1
  obtain ⟨w, hw⟩ : ∃ w, w = (shuoArg (int k) : Fl M) := ⟨_, rfl⟩
  have p1 := Real.pi_gt_d4
  have p2 := Real.pi_lt_d4
  rw [← hw] at a ⊢
  have w0 : -3079 ≤ (w.v : ℝ) := by
    have := mul_le_mul_of_nonneg_right k0 (by linarith : 0 ≤ 2 * Real.pi)
    linarith
  have w1 : (w.v : ℝ) ≤ 233500 := by
    have := mul_le_mul_of_nonneg_right k1 (by linarith : 0 ≤ 2 * Real.pi)
    linarith
  obtain ⟨s1, s2, s3⟩ := short hM (w := w) (by linarith) w1
  obtain ⟨l1, l2, l3⟩ := long hM (w := w) (by linarith) w1
  have v0' : (0 : ℝ) < v0 := by linarith [v0_pos]
  have low : ∀ T : ℝ, (w.v : ℝ) ≤ v0 * T → -0.3963 ≤ T := by
    intro T h
    by_contra hc
    push Not at hc
    have := mul_lt_mul_of_pos_left hc v0'
    have e : v0 * -0.3963 ≤ -3079.5 := by unfold v0; norm_num
    linarith
  have s4 := low _ s2
  have l4 := low _ l2
  obtain ⟨S, hS⟩ : ∃ S, S = (msaLonT2 w : Fl M) := ⟨_, rfl⟩
  obtain ⟨L, hL⟩ : ∃ L, L = (msaLonT w : Fl M) := ⟨_, rfl⟩
  rw [← hS] at s1 s3 s4
  rw [← hL] at l1 l3 l4
  have S1 := abs_le.1 s1
  have L1 := abs_le.1 l1
  have dS := day_near (M := M) s1
  have dL := day_near (M := M) l1
  have dS1 := abs_le.1 dS.1
  obtain ⟨X, hX⟩ : ∃ X, X = (S * int 36525 : Fl M) := ⟨_, rfl⟩
  rw [← hX] at dS dS1
  have c1 := dtT_le (M := M) (x := X) (by linarith) (by linarith)
  have q1 := sum_near dS c1
  obtain ⟨Z, hZ⟩ : ∃ Z, Z = (X - dtT X + ONE_THIRD : Fl M) := ⟨_, rfl⟩
  rw [← hZ] at q1
  have q11 := abs_le.1 q1.1
  have c1' := abs_le.1 c1
  have c2 := dtT_le (M := M) (x := Z) (by linarith) (by linarith)
  have q2 := sum_near dL c2
  have e : moonU M k = (FloatLike.sel (FloatLike.frac (Z + FloatLike.lit 5 1) * SECOND_PER_DAY) (int 1800) (L * int 36525 - dtT Z + ONE_THIRD)
      (FloatLike.sel (int (86400 - 1800)) (FloatLike.frac (Z + FloatLike.lit 5 1) * SECOND_PER_DAY) (L * int 36525 - dtT Z + ONE_THIRD) Z) + FloatLike.lit 5 1 : Fl M).v := by
    rw [hZ, hX, hS, hL, hw]; rfl
  have near : |(L.v : ℝ) - S.v| ≤ 0.000002 := by
    have g := abs_le.1 (G_first (t := S.v) (t' := L.v) (by linarith) (by linarith))
    have s3 := abs_le.1 s3
    have l3 := abs_le.1 l3
    have n := abs_nonneg ((L.v : ℝ) - S.v)
    have d : |v0 * ((L.v : ℝ) - S.v)| ≤ 1453 * |(L.v : ℝ) - S.v| + 0.0111 := by rw [abs_le]; constructor <;> linarith
    rw [abs_mul, abs_of_pos v0'] at d
    have := mul_le_mul_of_nonneg_right v0_pos n
    linarith
  have near := abs_le.1 near
  have high : ∃ (T : ℝ) (x : Fl M), -0.5 ≤ T ∧ T ≤ 30.1 ∧
      |G T - (w.v : ℝ)| ≤ 0.0055 ∧ |(x.v : ℝ) - 36525 * T| ≤ 1 ∧ -14540 ≤ (x.v : ℝ) ∧ (x.v : ℝ) ≤ 1100000 ∧
      |((L * int 36525 - dtT Z + ONE_THIRD + FloatLike.lit 5 1 : Fl M).v : ℝ) - (36525 * T - (dtT x : Fl M).v + 5 / 6)| ≤ 1 / 10 ^ 6 :=
    ⟨L.v, Z, by linarith, by linarith, l3, by rw [abs_le]; constructor <;> linarith, by linarith, by linarith, q2.2.trans (by norm_num)⟩
  rw [e, sel_fl, sel_fl]
  by_cases h1 : (FloatLike.frac (Z + FloatLike.lit 5 1) * SECOND_PER_DAY : Fl M).v < (int 1800 : Fl M).v
  · rw [if_pos h1]; exact high
  rw [if_neg h1]
  by_cases h2 : (int (86400 - 1800) : Fl M).v < (FloatLike.frac (Z + FloatLike.lit 5 1) * SECOND_PER_DAY : Fl M).v
  · rw [if_pos h2]; exact high
  rw [if_neg h2]
  exact ⟨S.v, X, by linarith, by linarith, s3, by rw [abs_le]; constructor <;> linarith, by linarith, by linarith, q1.2.trans (by norm_num)⟩

/-- from one new moon to the next it is between 29 and 30 days -/
theorem moon_step {k : ℤ} (h0 : -490 ≤ k) (h1 : k + 1 ≤ 37150) : (29 : ℚ) ≤ moonU M (k + 1) - moonU M k ∧ moonU M (k + 1) - moonU M k < 30 := by
  obtain ⟨T, x, a1, a2, a3, a4, a5, a6, a7⟩ := moon_form hM h0 (by linarith : k ≤ 37150)
  obtain ⟨T', x', b1, b2, b3, b4, b5, b6, b7⟩ := moon_form hM (by linarith : -490 ≤ k + 1) h1
  have w := abs_le.1 (arg_near (M := M) (k := k) (by rw [abs_le]; constructor <;> linarith))
  have w' := abs_le.1 (arg_near (M := M) (k := k + 1) (by rw [abs_le]; constructor <;> linarith))
  push_cast at w'
  obtain ⟨m1, m2⟩ := month (k := k) a1 a2 b1 b2 (w := ((shuoArg (int k) : Fl M).v : ℝ)) (w' := ((shuoArg (int (k + 1)) : Fl M).v : ℝ))
    (by rw [abs_le]; constructor <;> linarith) (by rw [abs_le]; constructor <;> linarith) a3 b3
  have p1 := Real.pi_gt_d6
  have p2 := Real.pi_lt_d6
  unfold v0 at m1 m2
  have d1 : 29.01 ≤ 36525 * (T' - T) := by linarith
  have d2 : 36525 * (T' - T) ≤ 29.9974 := by linarith
  have a4 := abs_le.1 a4
  have b4 := abs_le.1 b4
  have c := abs_le.1 (dtT_change (x := x) (x' := x') a5 (by linarith) (by linarith) b6)
  have a7 := abs_le.1 a7
  have b7 := abs_le.1 b7
  have r1 : (29 : ℝ) ≤ (moonU M (k + 1) : ℝ) - (moonU M k : ℝ) := by linarith
  have r2 : (moonU M (k + 1) : ℝ) - (moonU M k : ℝ) < 30 := by linarith
  exact ⟨by exact_mod_cast r1, by exact_mod_cast r2⟩

/-- so the months have 29 or 30 days -/
theorem moonDay_step {k : ℤ} (h0 : -490 ≤ k) (h1 : k + 1 ≤ 37150) : moonDay M (k + 1) - moonDay M k = 29 ∨ moonDay M (k + 1) - moonDay M k = 30 := by
  obtain ⟨a, b⟩ := moon_step hM h0 h1
  rw [moonDay_eq, moonDay_eq]
  have f1 := Int.floor_le (moonU M k)
  have f2 := Int.lt_floor_add_one (moonU M k)
  have g1 := Int.floor_le (moonU M (k + 1))
  have g2 := Int.lt_floor_add_one (moonU M (k + 1))
  have c1 : ((28 : ℤ) : ℚ) < ((⌊moonU M (k + 1)⌋ - ⌊moonU M k⌋ : ℤ) : ℚ) := by push_cast; linarith
  have c2 : ((⌊moonU M (k + 1)⌋ - ⌊moonU M k⌋ : ℤ) : ℚ) < ((31 : ℤ) : ℚ) := by push_cast; linarith
  have c1 := Int.cast_lt.1 c1
  have c2 := Int.cast_lt.1 c2
  omega

end

end Lunation
