import Verif.Proof.Closure

/-! # The program on real numbers

The functions of `util/ShouXingUtil.py`, evaluated on real numbers without rounding, and how far the doubles are from
that. -/

open ShouXing F64

/-- a row of `__XL0` (`lunar_python/util/ShouXingUtil.py` 400), on real numbers -/
noncomputable def realE (t : ℝ) (x : ℤ × ℤ × ℤ) : ℝ := x.1 * Real.cos (x.2.1 / 10 ^ 9 + t * (x.2.2 / 10 ^ 9))

/-- the angle of a row of `__XL1[i]` (`lunar_python/util/ShouXingUtil.py` 443), on real numbers -/
noncomputable def angleM (t t2 t3 t4 : ℝ) (x : ℤ × ℤ × ℤ × ℤ × ℤ × ℤ) : ℝ :=
  x.2.1 / 10 ^ 8 + t * (x.2.2.1 / 10 ^ 9) + t2 * (x.2.2.2.1 / 10 ^ 7) + t3 * (x.2.2.2.2.1 / 10 ^ 4) + t4 * (x.2.2.2.2.2 / 10 ^ 6)

/-- a row of `__XL1[i]` (`lunar_python/util/ShouXingUtil.py` 443), on real numbers -/
noncomputable def realM (t t2 t3 t4 : ℝ) (x : ℤ × ℤ × ℤ × ℤ × ℤ × ℤ) : ℝ := x.1 / 10 ^ 7 * Real.cos (angleM t t2 t3 t4 x)

/-- the operations of the program on real numbers -/
noncomputable instance : FloatLike ℝ where
  add x y := x + y
  sub x y := x - y
  mul x y := x * y
  div x y := x / y
  lit m e := m / 10 ^ e
  sin := Real.sin
  cos := Real.cos
  sel a b x y := if a < b then x else y
  frac x := x - ⌊x⌋
  eGroup n i t := (((XL0 i).take (eCount n i (XL0 i).length)).map (realE t)).sum
  mGroup n i t t2 t3 t4 := (((XL1 i).take (mCount n i (XL1 i).length)).map (realM t t2 t3 t4)).sum

/-- the double `x` is at most `e` away from the real number `X`, which is at most `m` -/
def Near {M : Libm} (x : Fl M) (X m e : ℝ) : Prop := |(x.v : ℝ) - X| ≤ e ∧ |X| ≤ m

namespace Near
variable {M : Libm} {x y : Fl M} {X Y m n d e : ℝ}

theorem mono (h : Near x X m e) {m' e' : ℝ} (hm : m ≤ m') (he : e ≤ e') : Near x X m' e' := ⟨h.1.trans he, h.2.trans hm⟩

theorem v_le (h : Near x X m e) : |(x.v : ℝ)| ≤ m + e := by
  have := abs_add_le ((x.v : ℝ) - X) X
  rw [sub_add_cancel] at this
  linarith [h.1, h.2]

theorem e_nonneg (h : Near x X m e) : 0 ≤ e := (abs_nonneg _).trans h.1
theorem m_nonneg (h : Near x X m e) : 0 ≤ m := (abs_nonneg _).trans h.2

/-- a rounded result -/
theorem of_rnd {z : ℚ} {Z a b : ℝ} (h : |(z : ℝ) - Z| ≤ a) (hZ : |Z| ≤ b) : |((rnd z : ℚ) : ℝ) - Z| ≤ a + (b + a) / 2 ^ 53 := by
  have h1 : |((rnd z : ℚ) : ℝ) - z| ≤ |(z : ℝ)| / 2 ^ 53 := by
    have := abs_rnd_sub_le_rel z
    have h2 := (Rat.cast_le (K := ℝ)).2 this
    push_cast at h2
    exact h2
  have h2 : |(z : ℝ)| ≤ b + a := by
    have := abs_add_le ((z : ℝ) - Z) Z
    rw [sub_add_cancel] at this
    linarith
  have e : ((rnd z : ℚ) : ℝ) - Z = (((rnd z : ℚ) : ℝ) - z) + (z - Z) := by ring
  rw [e]
  refine (abs_add_le _ _).trans ?_
  have : |(z : ℝ)| / 2 ^ 53 ≤ (b + a) / 2 ^ 53 := by gcongr
  linarith

theorem add (h : Near x X m d) (k : Near y Y n e) : Near (x + y) (X + Y) (m + n) (d + e + (m + n + (d + e)) / 2 ^ 53) := by
  have h2 : |X + Y| ≤ m + n := (abs_add_le _ _).trans (add_le_add h.2 k.2)
  refine ⟨of_rnd (z := x.v + y.v) ?_ h2, h2⟩
  push_cast
  rw [show (x.v : ℝ) + y.v - (X + Y) = (x.v - X) + (y.v - Y) by ring]
  exact (abs_add_le _ _).trans (add_le_add h.1 k.1)

theorem sub (h : Near x X m d) (k : Near y Y n e) : Near (x - y) (X - Y) (m + n) (d + e + (m + n + (d + e)) / 2 ^ 53) := by
  have h2 : |X - Y| ≤ m + n := (abs_sub _ _).trans (add_le_add h.2 k.2)
  refine ⟨of_rnd (z := x.v - y.v) ?_ h2, h2⟩
  push_cast
  rw [show (x.v : ℝ) - y.v - (X - Y) = (x.v - X) - (y.v - Y) by ring]
  exact (abs_sub _ _).trans (add_le_add h.1 k.1)

theorem mul (h : Near x X m d) (k : Near y Y n e) :
    Near (x * y) (X * Y) (m * n) (m * e + d * (n + e) + (m * n + (m * e + d * (n + e))) / 2 ^ 53) := by
  have h2 : |X * Y| ≤ m * n := by
    rw [abs_mul]; exact mul_le_mul h.2 k.2 (abs_nonneg _) h.m_nonneg
  refine ⟨of_rnd (z := x.v * y.v) ?_ h2, h2⟩
  push_cast
  rw [show (x.v : ℝ) * y.v - X * Y = X * (y.v - Y) + (x.v - X) * y.v by ring]
  refine (abs_add_le _ _).trans (add_le_add ?_ ?_)
  · rw [abs_mul]; exact mul_le_mul h.2 k.1 (abs_nonneg _) h.m_nonneg
  · rw [abs_mul]; exact mul_le_mul h.1 k.v_le (abs_nonneg _) h.e_nonneg

/-- division by a number not less than `l` -/
theorem div {l : ℝ} (h : Near x X m d) (k : Near y Y n e) (hl : e < l) (hY : l ≤ Y) :
    Near (x / y) (X / Y) (m / l) ((d + m / l * e) / (l - e) + (m / l + (d + m / l * e) / (l - e)) / 2 ^ 53) := by
  have e0 := k.e_nonneg
  have l0 : 0 < l := by linarith
  have Y0 : 0 < Y := by linarith
  have h2 : |X / Y| ≤ m / l := by
    rw [abs_div, abs_of_pos Y0]
    exact div_le_div₀ h.m_nonneg h.2 l0 hY
  refine ⟨of_rnd (z := x.v / y.v) ?_ h2, h2⟩
  have y1 : l - e ≤ y.v := by linarith [(abs_le.1 k.1).1]
  have y0 : (0 : ℝ) < y.v := by linarith
  push_cast
  have e1 : (x.v : ℝ) / y.v - X / Y = ((x.v - X) + X / Y * (Y - y.v)) / y.v := by field_simp; ring
  rw [e1, abs_div, abs_of_pos y0]
  have a1 : |((x.v : ℝ) - X) + X / Y * (Y - y.v)| ≤ d + m / l * e := by
    refine (abs_add_le _ _).trans (add_le_add h.1 ?_)
    rw [abs_mul, abs_sub_comm Y]
    exact mul_le_mul h2 k.1 (abs_nonneg _) ((abs_nonneg _).trans h2)
  exact div_le_div₀ ((abs_nonneg _).trans a1) a1 (by linarith) y1

theorem lit (k : ℤ) (j : ℕ) : Near (FloatLike.lit k j : Fl M) (FloatLike.lit k j : ℝ) (|(k : ℝ)| / 10 ^ j) (|(k : ℝ)| / 10 ^ j / 2 ^ 53) := by
  have h2 : |((k : ℝ) / 10 ^ j)| = |(k : ℝ)| / 10 ^ j := by rw [abs_div, abs_of_pos (by positivity : (0 : ℝ) < 10 ^ j)]
  refine ⟨?_, h2.le⟩
  have := of_rnd (z := (k : ℚ) / 10 ^ j) (Z := (k : ℝ) / 10 ^ j) (a := 0) (by push_cast; simp) h2.le
  simp only [zero_add, add_zero] at this
  exact this

theorem cos (hM : M.Good) (h : Near x X m e) : Near (FloatLike.cos x) (FloatLike.cos X) 1 (e + 1 / 2 ^ 50) := by
  refine ⟨?_, Real.abs_cos_le_one X⟩
  have e1 : ((M.cos x.v : ℚ) : ℝ) - Real.cos X = (M.cos x.v - Real.cos x.v) + (Real.cos x.v - Real.cos X) := by ring
  show |((M.cos x.v : ℚ) : ℝ) - Real.cos X| ≤ _
  rw [e1]
  have := hM.cos_err x.v
  have := Real.abs_cos_sub_cos_le x.v X
  refine (abs_add_le _ _).trans ?_
  linarith [h.1]

theorem sin (hM : M.Good) (h : Near x X m e) : Near (FloatLike.sin x) (FloatLike.sin X) 1 (e + 1 / 2 ^ 50) := by
  refine ⟨?_, Real.abs_sin_le_one X⟩
  have e1 : ((M.sin x.v : ℚ) : ℝ) - Real.sin X = (M.sin x.v - Real.sin x.v) + (Real.sin x.v - Real.sin X) := by ring
  show |((M.sin x.v : ℚ) : ℝ) - Real.sin X| ≤ _
  rw [e1]
  have := hM.sin_err x.v
  have := Real.abs_sin_sub_sin_le x.v X
  refine (abs_add_le _ _).trans ?_
  linarith [h.1]

/-- a double is near itself -/
theorem self (x : Fl M) (h : |(x.v : ℝ)| ≤ m) : Near x x.v m 0 := ⟨by simp, h⟩

theorem sel {u v : Fl M} {U V : ℝ} (h : Near x X m e) (k : Near y Y m e) (c : u.v < v.v ↔ U < V) :
    Near (FloatLike.sel u v x y) (FloatLike.sel U V X Y) m e := by
  show Near (if u.v < v.v then x else y) (if U < V then X else Y) m e
  by_cases hc : U < V
  · rw [if_pos hc, if_pos (c.2 hc)]; exact h
  · rw [if_neg hc, if_neg (fun h' => hc (c.1 h'))]; exact k

end Near

/-- closes goals `Near` by the rules above -/
macro "near" : tactic => `(tactic| with_reducible repeat' first
  | assumption
  | apply Near.add | apply Near.sub | apply Near.mul
  | exact Near.lit _ _
  | apply Near.sin ‹_› | apply Near.cos ‹_›)
