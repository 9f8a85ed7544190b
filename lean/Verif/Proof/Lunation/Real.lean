import Verif.Proof.Lunation.Steps

/-! # The elongation of the moon

`G t` is the elongation of the moon from the sun at the time `t` in centuries, with the terms that matter for the length
of a month; the functions in the steps of `msaLonT` and `msaLonT2` are near it. -/

open ShouXing

namespace Lunation
open Near (ampl R R_eq)

theorem lit_real (m : ℤ) (e : ℕ) : (FloatLike.lit m e : ℝ) = (m : ℝ) / 10 ^ e := rfl
theorem sin_real (x : ℝ) : FloatLike.sin x = Real.sin x := rfl
theorem cos_real (x : ℝ) : FloatLike.cos x = Real.cos x := rfl

theorem mul_le {a b A B : ℝ} (ha : |a| ≤ A) (hb : |b| ≤ B) : |a * b| ≤ A * B := by
  rw [abs_mul]; exact mul_le_mul ha hb (abs_nonneg _) ((abs_nonneg _).trans ha)

/-- a row of `__XL1` -/
abbrev Row := ℤ × ℤ × ℤ × ℤ × ℤ × ℤ

/-- the angle of a row at a time -/
noncomputable def ph (r : Row) (t : ℝ) : ℝ := angleM t (t * t / 10000) (t * t * t / 100000000) (t * t * t * t / 100000000) r

/-- the sum of some rows at a time, in seconds -/
noncomputable def S (l : List Row) (t : ℝ) : ℝ := (l.map (fun r => (r.1 : ℝ) / 10 ^ 7 * Real.cos (ph r t))).sum

/-- row 0 of `__XL1[0]`: the equation of the centre -/
def r0 : Row := (226395860000, 78475822, 8328691424623, 15229241, 250719, -123598)
/-- row 1 of `__XL1[0]`: the evection -/
def r1 : Row := (45864380000, 18739740, 7214062865360, -21847560, -188600, 82800)
/-- row 2 of `__XL1[0]`: the variation -/
def r2 : Row := (23699140000, 254295200, 15542754289980, -6618320, 62120, -40800)
/-- rows 3 to 19 of `__XL1[0]` -/
def rest : List Row := (XL1_0.drop 3).take 17
/-- the rows of `__XL1[0]` from 20 on -/
def tail : List Row := XL1_0.drop 20

theorem XL1_0_eq : XL1_0 = r0 :: r1 :: r2 :: (rest ++ tail) := by decide +kernel

theorem S_cons (r : Row) (l : List Row) (t : ℝ) : S (r :: l) t = (r.1 : ℝ) / 10 ^ 7 * Real.cos (ph r t) + S l t := by simp [S]
theorem S_append (l l' : List Row) (t : ℝ) : S (l ++ l') t = S l t + S l' t := by simp [S]

theorem S_abs (l : List Row) (t : ℝ) : |S l t| ≤ (ampl (fun x => x.1) l : ℝ) / 10 ^ 7 := by
  induction l with
  | nil => simp [S, ampl]
  | cons r l ih =>
    rw [S_cons]
    refine (abs_add_le _ _).trans ?_
    have h1 : |(r.1 : ℝ) / 10 ^ 7 * Real.cos (ph r t)| ≤ |(r.1 : ℝ)| / 10 ^ 7 * 1 := by
      rw [abs_mul, abs_div, abs_of_pos (by positivity : (0 : ℝ) < 10 ^ 7)]
      exact mul_le_mul_of_nonneg_left (Real.abs_cos_le_one _) (by positivity)
    have h2 : (ampl (fun x => x.1) (r :: l) : ℝ) = |(r.1 : ℝ)| + ampl (fun x => x.1) l := by
      simp [ampl]
    rw [h2]
    linarith

/-- the sum of the first 20 rows -/
noncomputable def S20 (t : ℝ) : ℝ := S (r0 :: r1 :: r2 :: rest) t

/-- the sun's equation of the centre -/
noncomputable def Su (t : ℝ) : ℝ :=
  0.0334166 * Real.cos (4.669257 + 628.307585 * t) + 0.0002061 * Real.cos (2.67823 + 628.307585 * t) * t

/-- the mean elongation -/
noncomputable def Dm (t : ℝ) : ℝ := Near.mPoly t / R - (4.8950632 + 628.3319653318 * t + 0.000005297 * (t * t))

/-- the elongation of the moon from the sun -/
noncomputable def G (t : ℝ) : ℝ := Dm t + S20 t / R - Su t

/-! ## The rows -/

theorem mAt0 (n : ℤ) (t : ℝ) : Near.mAt n 0 t = S (XL1_0.take (mCount n 0 442)) t := by
  show ((XL1_0.take (mCount n 0 XL1_0.length)).map (realM t (t * t / int 10000) (t * t * t / int 100000000) (t * t * t * t / int 100000000))).sum = _
  have e : XL1_0.length = 442 := by decide +kernel
  have i1 : (int 10000 : ℝ) = 10000 := by show ((10000 : ℤ) : ℝ) / 10 ^ 0 = _; norm_num
  have i2 : (int 100000000 : ℝ) = 100000000 := by show ((100000000 : ℤ) : ℝ) / 10 ^ 0 = _; norm_num
  rw [e, i1, i2]
  rfl

theorem mAt_le (n : ℤ) (i : ℕ) (t : ℝ) : |Near.mAt n i t| ≤ (ampl (fun x => x.1) (XL1 i) : ℝ) / 10 ^ 7 := by
  have h : ∀ l : List Row, ∀ k, (ampl (fun x => x.1) (l.take k) : ℤ) ≤ ampl (fun x => x.1) l := fun l k => Near.ampl_take _ l k
  have i1 : (int 10000 : ℝ) = 10000 := by show ((10000 : ℤ) : ℝ) / 10 ^ 0 = _; norm_num
  have i2 : (int 100000000 : ℝ) = 100000000 := by show ((100000000 : ℤ) : ℝ) / 10 ^ 0 = _; norm_num
  have e : Near.mAt n i t = S ((XL1 i).take (mCount n i (XL1 i).length)) t := by
    show (((XL1 i).take (mCount n i (XL1 i).length)).map (realM t (t * t / int 10000) (t * t * t / int 100000000) (t * t * t * t / int 100000000))).sum = _
    rw [i1, i2]
    rfl
  rw [e]
  refine (S_abs _ _).trans ?_
  have := h (XL1 i) (mCount n i (XL1 i).length)
  have : (ampl (fun x => x.1) ((XL1 i).take (mCount n i (XL1 i).length)) : ℝ) ≤ ampl (fun x => x.1) (XL1 i) := by exact_mod_cast this
  gcongr

theorem counts : mCount 20 0 442 = 20 ∧ mCount (-1) 0 442 = 442 ∧ mCount 3 0 442 = 3 := by decide +kernel

theorem mAt20 (t : ℝ) : Near.mAt 20 0 t = S20 t := by
  rw [mAt0, counts.1, show XL1_0.take 20 = r0 :: r1 :: r2 :: rest by decide +kernel]; rfl

theorem mAtAll (t : ℝ) : Near.mAt (-1) 0 t = S20 t + S tail t := by
  rw [mAt0, counts.2.1, show XL1_0.take 442 = (r0 :: r1 :: r2 :: rest) ++ tail by decide +kernel, S_append]; rfl

theorem mAt3 (t : ℝ) : Near.mAt 3 0 t = S20 t - S rest t := by
  rw [mAt0, counts.2.2, show XL1_0.take 3 = [r0, r1, r2] by decide +kernel]
  have : S20 t = S ([r0, r1, r2] ++ rest) t := rfl
  rw [this, S_append]; ring

theorem tail_le (t : ℝ) : |S tail t| ≤ 306.71 := by
  refine (S_abs _ _).trans ?_
  have h : ampl (fun x => x.1) tail ≤ 3067100000 := by decide +kernel
  have : (ampl (fun x => x.1) tail : ℝ) ≤ (3067100000 : ℤ) := by exact_mod_cast h
  push_cast at this
  rw [div_le_iff₀ (by norm_num)]
  linarith

theorem rest_le (t : ℝ) : |S rest t| ≤ 3276.1 := by
  refine (S_abs _ _).trans ?_
  have h : ampl (fun x => x.1) rest ≤ 32761000000 := by decide +kernel
  have : (ampl (fun x => x.1) rest : ℝ) ≤ (32761000000 : ℤ) := by exact_mod_cast h
  push_cast at this
  rw [div_le_iff₀ (by norm_num)]
  linarith

/-- the longitude of the moon -/
theorem mLon_near {t : ℝ} (ht : |t| ≤ 30.1) (n : ℤ) : |mLon t n - (Near.mPoly t / R + Near.mAt n 0 t / R)| ≤ 0.00068 := by
  have a := Near.amplM
  have g : ∀ i (b : ℤ) (c : ℝ), ampl (fun x => x.1) (XL1 i) ≤ b → (b : ℝ) / 10 ^ 7 ≤ c → |Near.mAt n i t| ≤ c := by
    intro i b c h h'
    refine (mAt_le n i t).trans (le_trans ?_ h')
    have : (ampl (fun x => x.1) (XL1 i) : ℝ) ≤ b := by exact_mod_cast h
    gcongr
  have g1 := g 1 _ 4.2 a.2.1 (by norm_num)
  have g2 := g 2 _ 0.0141 a.2.2.1 (by norm_num)
  have g3 := g 3 _ 0.0000138 a.2.2.2 (by norm_num)
  have e1 : (int 1 : ℝ) = 1 := by show ((1 : ℤ) : ℝ) / 10 ^ 0 = _; norm_num
  rw [Near.mLon_eq]
  show |(Near.mPoly t + Near.mAt n 0 t * int 1 + Near.mAt n 1 t * (int 1 * t) + Near.mAt n 2 t * (int 1 * t * t) +
    Near.mAt n 3 t * (int 1 * t * t * t)) / R - (Near.mPoly t / R + Near.mAt n 0 t / R)| ≤ _
  rw [e1]
  have h1 := mul_le g1 ht
  have h2 := mul_le (mul_le g2 ht) ht
  have h3 := mul_le (mul_le (mul_le g3 ht) ht) ht
  have e : (Near.mPoly t + Near.mAt n 0 t * 1 + Near.mAt n 1 t * (1 * t) + Near.mAt n 2 t * (1 * t * t) +
    Near.mAt n 3 t * (1 * t * t * t)) / R - (Near.mPoly t / R + Near.mAt n 0 t / R) =
    (Near.mAt n 1 t * t + Near.mAt n 2 t * t * t + Near.mAt n 3 t * t * t * t) / R := by ring
  have hR : (206264 : ℝ) ≤ R := by rw [R_eq]; norm_num
  rw [e, abs_div, abs_of_pos (by linarith : 0 < R), div_le_iff₀ (by linarith)]
  have h4 := abs_add_le (Near.mAt n 1 t * t + Near.mAt n 2 t * t * t) (Near.mAt n 3 t * t * t * t)
  have h5 := abs_add_le (Near.mAt n 1 t * t) (Near.mAt n 2 t * t * t)
  linarith

end Lunation
