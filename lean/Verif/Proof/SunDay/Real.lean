import Verif.Proof.Lunation.Sun

/-! # The longitude of the sun from 1000 to 3000, on real numbers

How `saLon` changes with time: apart from a uniform motion and the equation of the centre it changes by no more than 1.02
radians in a century. -/

open ShouXing

namespace SunDay
open Near (ampl R R_eq)
open Lunation (E E_le E_cons er eGroup_real lit_real sin_real cos_real mul_le)

/-- `f` is bounded by `A` and changes by no more than `K` in a unit, for times up to 10.02 -/
structure LB (f : ℝ → ℝ) (A K : ℝ) : Prop where
  bd : ∀ x, |x| ≤ 10.02 → |f x| ≤ A
  lip : ∀ x y, |x| ≤ 10.02 → |y| ≤ 10.02 → |f x - f y| ≤ K * |x - y|

namespace LB
variable {f g : ℝ → ℝ} {A K B L : ℝ}

theorem mono (h : LB f A K) {A' K' : ℝ} (hA : A ≤ A') (hK : K ≤ K') : LB f A' K' :=
  ⟨fun x hx => (h.bd x hx).trans hA, fun x y hx hy => (h.lip x y hx hy).trans (mul_le_mul_of_nonneg_right hK (abs_nonneg _))⟩

theorem pos (h : LB f A K) : 0 ≤ A := (abs_nonneg _).trans (h.bd 0 (by norm_num))

theorem const (c : ℝ) : LB (fun _ => c) |c| 0 := ⟨fun _ _ => le_rfl, fun _ _ _ _ => by simp⟩

theorem id : LB (fun x => x) 10.02 1 := ⟨fun _ h => h, fun _ _ _ _ => by simp⟩

theorem add (h : LB f A K) (k : LB g B L) : LB (fun x => f x + g x) (A + B) (K + L) := by
  refine ⟨fun x hx => (abs_add_le _ _).trans (add_le_add (h.bd x hx) (k.bd x hx)), fun x y hx hy => ?_⟩
  have e : f x + g x - (f y + g y) = (f x - f y) + (g x - g y) := by ring
  rw [e, add_mul]
  exact (abs_add_le _ _).trans (add_le_add (h.lip x y hx hy) (k.lip x y hx hy))

theorem mul (h : LB f A K) (k : LB g B L) : LB (fun x => f x * g x) (A * B) (A * L + B * K) := by
  refine ⟨fun x hx => mul_le (h.bd x hx) (k.bd x hx), fun x y hx hy => ?_⟩
  have e : f x * g x - f y * g y = f x * (g x - g y) + g y * (f x - f y) := by ring
  rw [e]
  refine (abs_add_le _ _).trans ?_
  have h1 := mul_le (h.bd x hx) (k.lip x y hx hy)
  have h2 := mul_le (k.bd y hy) (h.lip x y hx hy)
  linarith

theorem smul (c : ℝ) (h : LB f A K) : LB (fun x => c * f x) (|c| * A) (|c| * K) :=
  ((const c).mul h).mono le_rfl (by rw [mul_zero, add_zero])

theorem cos (h : LB f A K) : LB (fun x => Real.cos (f x)) 1 K :=
  ⟨fun _ _ => Real.abs_cos_le_one _, fun x y hx hy => (Real.abs_cos_sub_cos_le _ _).trans (h.lip x y hx hy)⟩

theorem sin (h : LB f A K) : LB (fun x => Real.sin (f x)) 1 K :=
  ⟨fun _ _ => Real.abs_sin_le_one _, fun x y hx hy => (Real.abs_sin_sub_sin_le _ _).trans (h.lip x y hx hy)⟩

theorem congr (h : LB f A K) (e : ∀ x, g x = f x) : LB g A K := by
  have : g = f := funext e
  rw [this]; exact h

/-- a linear function -/
theorem lin (a b : ℝ) : LB (fun x => a + b * x) (|a| + |b| * 10.02) |b| :=
  ((const a).add (smul b id)).mono le_rfl (by simp)

end LB

/-! ## The rows -/

/-- the sum of the amplitudes times the frequencies -/
def freq (l : List (ℤ × ℤ × ℤ)) : ℤ := (l.map (fun r => |r.1 * r.2.2|)).sum

theorem LB_E (l : List (ℤ × ℤ × ℤ)) : LB (fun t => E l (t / 10)) (ampl (fun x => x.1) l) (freq l / 10 ^ 10) := by
  induction l with
  | nil =>
    refine ((LB.const 0).congr (fun x => by simp [E])).mono ?_ ?_ <;> simp [ampl, freq]
  | cons r l ih =>
    have h1 : LB (fun t : ℝ => (r.1 : ℝ) * Real.cos ((r.2.1 : ℝ) / 10 ^ 9 + (r.2.2 : ℝ) / 10 ^ 10 * t)) |(r.1 : ℝ)| (|(r.1 : ℝ) * r.2.2| / 10 ^ 10) := by
      refine (LB.smul _ (LB.cos (LB.lin ((r.2.1 : ℝ) / 10 ^ 9) ((r.2.2 : ℝ) / 10 ^ 10)))).mono (by rw [mul_one]) ?_
      rw [abs_div, abs_of_pos (by norm_num : (0 : ℝ) < 10 ^ 10), abs_mul]
      exact le_of_eq (by ring)
    refine ((h1.add ih).congr (fun t => ?_)).mono ?_ ?_
    · rw [E_cons]
      unfold realE
      rw [show t / 10 * ((r.2.2 : ℝ) / 10 ^ 9) = (r.2.2 : ℝ) / 10 ^ 10 * t by ring]
    · simp [ampl]
    · have : (freq (r :: l) : ℝ) = |(r.1 : ℝ) * r.2.2| + freq l := by simp [freq, abs_mul]
      rw [this]
      exact le_of_eq (by ring)

theorem LB_E' {l : List (ℤ × ℤ × ℤ)} {a k : ℤ} (ha : ampl (fun x => x.1) l ≤ a) (hk : freq l ≤ k) : LB (fun t => E l (t / 10)) a (k / 10 ^ 10) := by
  have h1 : ((ampl (fun x => x.1) l : ℤ) : ℝ) ≤ a := by exact_mod_cast ha
  have h2 : (freq l : ℝ) ≤ k := by exact_mod_cast hk
  exact (LB_E l).mono h1 (by gcongr)

/-- what is read of the table of the sun with all rows -/
theorem all_ok : er (-1) 0 = (17534704567, 0, 0) :: (334165646, 4669256804, 6283075849991) :: (XL0 0).drop 2 ∧
    er (-1) 1 = (62833196674749, 0, 0) :: (20605886, 2678234560, 6283075849990) :: (XL0 1).drop 2 ∧
    er (-1) 2 = (5291887, 0, 0) :: (XL0 2).drop 1 ∧ er (-1) 3 = XL0 3 ∧ er (-1) 4 = XL0 4 ∧ er (-1) 5 = XL0 5 := by decide +kernel

theorem ampl_ok : ampl (fun x => x.1) ((XL0 0).drop 2) ≤ 6463931 ∧ ampl (fun x => x.1) ((XL0 1).drop 2) ≤ 587474 ∧ ampl (fun x => x.1) ((XL0 2).drop 1) ≤ 917471 ∧
    ampl (fun x => x.1) (XL0 3) ≤ 34701 ∧ ampl (fun x => x.1) (XL0 4) ≤ 12299 ∧ ampl (fun x => x.1) (XL0 5) ≤ 113 := by decide +kernel

theorem freq_ok : freq ((XL0 0).drop 2) ≤ 83457538002228233000 ∧ freq ((XL0 1).drop 2) ≤ 5908543323544560000 ∧ freq ((XL0 2).drop 1) ≤ 5999602845709800000 ∧
    freq (XL0 3) ≤ 204284101605950000 ∧ freq (XL0 4) ≤ 5824655862000000 ∧ freq (XL0 5) ≤ 145287910000000 := by decide +kernel

theorem eLon_real (t : ℝ) (s : ℤ) : eLon t s = (E (er s 0) (t / 10) + E (er s 1) (t / 10) * (t / 10) + E (er s 2) (t / 10) * (t / 10) * (t / 10) +
      E (er s 3) (t / 10) * (t / 10) * (t / 10) * (t / 10) + E (er s 4) (t / 10) * (t / 10) * (t / 10) * (t / 10) * (t / 10) +
      E (er s 5) (t / 10) * (t / 10) * (t / 10) * (t / 10) * (t / 10) * (t / 10)) / 10 ^ 10 +
      (-0.0728 - 2.7702 * (t / 10) - 1.1019 * ((t / 10) * (t / 10)) - 0.0996 * ((t / 10) * (t / 10) * (t / 10))) * (1 / R) := by
  have i0 : (int 0 : ℝ) = 0 := by show ((0 : ℤ) : ℝ) / 10 ^ 0 = _; norm_num
  have i1 : (int 1 : ℝ) = 1 := by show ((1 : ℤ) : ℝ) / 10 ^ 0 = _; norm_num
  have i10 : (int 10 : ℝ) = 10 := by show ((10 : ℤ) : ℝ) / 10 ^ 0 = _; norm_num
  have i10' : (int 10000000000 : ℝ) = 10 ^ 10 := by show ((10000000000 : ℤ) : ℝ) / 10 ^ 0 = _; norm_num
  rw [Near.eLon_eq]
  show Near.eSeries s (t / int 10) + Near.ePoly (t / int 10) = _
  rw [i10]
  generalize t / 10 = u
  unfold Near.eSeries Near.ePoly
  simp only [eGroup_real, lit_real, i0, i1, i10']
  show (0 + E (er s 0) u * 1 + E (er s 1) u * (1 * u) + E (er s 2) u * (1 * u * u) + E (er s 3) u * (1 * u * u * u) +
    E (er s 4) u * (1 * u * u * u * u) + E (er s 5) u * (1 * u * u * u * u * u)) / 10 ^ 10 + (_ - _ - _ - _) / R = _
  push_cast
  ring

theorem gxc_real (t : ℝ) : gxcSunLon t = -20.49552 * (1 + (0.016708634 - 0.000042037 * t - 0.0000001267 * (t * t)) *
    Real.cos (-0.043126 + 628.301955 * t - 0.000002732 * (t * t))) * (1 / R) := by
  have i1 : (int 1 : ℝ) = 1 := by show ((1 : ℤ) : ℝ) / 10 ^ 0 = _; norm_num
  unfold gxcSunLon
  simp only [lit_real, cos_real, i1]
  show (_ * (1 + (_ - _ * t - _ * t * t) * Real.cos (_ + _ * t - _ * t * t))) / R = _
  have e : ((-43126 : ℤ) : ℝ) / 10 ^ 6 + ((628301955 : ℤ) : ℝ) / 10 ^ 6 * t - ((2732 : ℤ) : ℝ) / 10 ^ 9 * t * t = -0.043126 + 628.301955 * t - 0.000002732 * (t * t) := by
    push_cast; ring
  rw [e]
  push_cast
  ring

/-- the angle of a row of `__NUT_B` -/
noncomputable def nutAng (r : ℤ × ℤ × ℤ × ℤ) (t : ℝ) : ℝ := (r.1 : ℝ) / 10 ^ 4 + (r.2.1 : ℝ) / 10 ^ 5 * t + (r.2.2.1 : ℝ) / 10 ^ 6 * (t * t)

/-- the sum of rows of `__NUT_B` -/
noncomputable def nut (l : List (ℤ × ℤ × ℤ × ℤ)) (t : ℝ) : ℝ := (l.map (fun r => (r.2.2.2 : ℝ) * Real.sin (nutAng r t))).sum

theorem nutLoop_real (t : ℝ) (l : List (ℤ × ℤ × ℤ × ℤ)) : ∀ d : ℝ, nutLoop t (t * t) false l d = d + nut l t := by
  induction l with
  | nil => intro d; simp [nutLoop, nut]
  | cons r l ih =>
    intro d
    obtain ⟨p, q, r, s⟩ := r
    have i0 : (int 0 : ℝ) = 0 := by show ((0 : ℤ) : ℝ) / 10 ^ 0 = _; norm_num
    have is : (int s : ℝ) = s := by show (s : ℝ) / 10 ^ 0 = _; norm_num
    have e : nut ((p, q, r, s) :: l) t = (s : ℝ) * Real.sin ((p : ℝ) / 10 ^ 4 + (q : ℝ) / 10 ^ 5 * t + (r : ℝ) / 10 ^ 6 * (t * t)) + nut l t := by
      simp [nut, nutAng]
    rw [e]
    show nutLoop t (t * t) false l (d + (int s + int 0) * Real.sin _) = _
    rw [ih, i0, is]
    show d + ((s : ℝ) + 0) * Real.sin ((p : ℝ) / 10 ^ 4 + (q : ℝ) / 10 ^ 5 * t + (r : ℝ) / 10 ^ 6 * (t * t)) + _ = _
    ring

/-- the rows of `__NUT_B` after the first -/
def nutRest : List (ℤ × ℤ × ℤ × ℤ) := NUT_B.drop 1

theorem nut_real (t : ℝ) : nutationLon2 t = ((-1720 - 1.742 * t) * Real.sin (2.1824 - 33.75705 * t + 0.000036 * (t * t)) + nut nutRest t) / 100 * (1 / R) := by
  have i0 : (int 0 : ℝ) = 0 := by show ((0 : ℤ) : ℝ) / 10 ^ 0 = _; norm_num
  have i100 : (int 100 : ℝ) = 100 := by show ((100 : ℤ) : ℝ) / 10 ^ 0 = _; norm_num
  have is : (int (-1720) : ℝ) = -1720 := by show ((-1720 : ℤ) : ℝ) / 10 ^ 0 = _; norm_num
  have e : nutationLon2 t = nutLoop t (t * t) false nutRest (int 0 + (int (-1720) + FloatLike.lit (-1742) 3 * t) *
      FloatLike.sin (FloatLike.lit 21824 4 + FloatLike.lit (-3375705) 5 * t + FloatLike.lit 36 6 * (t * t))) / int 100 / R := rfl
  rw [e, nutLoop_real, i0, i100, is]
  simp only [lit_real, sin_real]
  show (0 + (-1720 + _ * t) * Real.sin (_ + _ * t + _ * (t * t)) + _) / 100 / R = _
  have e2 : ((21824 : ℤ) : ℝ) / 10 ^ 4 + ((-3375705 : ℤ) : ℝ) / 10 ^ 5 * t + ((36 : ℤ) : ℝ) / 10 ^ 6 * (t * t) = 2.1824 - 33.75705 * t + 0.000036 * (t * t) := by
    push_cast; ring
  rw [e2]
  push_cast
  ring

theorem nutRest_eq : nutRest = [⟨35069, 125666393, 11, -132⟩, ⟨13375, 1679941820, -51, -23⟩, ⟨43649, -6751410, 72, 21⟩,
   ⟨400, -62830200, 0, -14⟩, ⟨23600, 832869100, 0, 7⟩, ⟨34600, 188496600, 0, -5⟩, ⟨54400, 1683317500, 0, -4⟩,
   ⟨36900, 2512811000, 0, -3⟩, ⟨35500, 62836200, 0, 2⟩] := rfl

theorem LB_nutRow (r : ℤ × ℤ × ℤ × ℤ) : LB (fun t => (r.2.2.2 : ℝ) * Real.sin (nutAng r t)) |(r.2.2.2 : ℝ)|
    (|(r.2.2.2 : ℝ)| * (|(r.2.1 : ℝ)| / 10 ^ 5 + |(r.2.2.1 : ℝ)| / 10 ^ 6 * 20.04)) := by
  refine (LB.smul _ (LB.sin (((LB.lin ((r.1 : ℝ) / 10 ^ 4) ((r.2.1 : ℝ) / 10 ^ 5)).add (LB.smul ((r.2.2.1 : ℝ) / 10 ^ 6) (LB.id.mul LB.id)))))).mono (by rw [mul_one]) ?_
  rw [abs_div, abs_of_pos (by norm_num : (0 : ℝ) < 10 ^ 5), abs_div, abs_of_pos (by norm_num : (0 : ℝ) < 10 ^ 6)]
  refine mul_le_mul_of_nonneg_left (add_le_add le_rfl (le_of_eq ?_)) (abs_nonneg _)
  norm_num

theorem LB_nut : LB (nut nutRest) 211 774200 := by
  have e : ∀ t, nut nutRest t = ((-132 : ℤ) : ℝ) * Real.sin (nutAng (35069, 125666393, 11, -132) t) + (((-23 : ℤ) : ℝ) * Real.sin (nutAng (13375, 1679941820, -51, -23) t) +
      (((21 : ℤ) : ℝ) * Real.sin (nutAng (43649, -6751410, 72, 21) t) + (((-14 : ℤ) : ℝ) * Real.sin (nutAng (400, -62830200, 0, -14) t) +
      (((7 : ℤ) : ℝ) * Real.sin (nutAng (23600, 832869100, 0, 7) t) + (((-5 : ℤ) : ℝ) * Real.sin (nutAng (34600, 188496600, 0, -5) t) +
      (((-4 : ℤ) : ℝ) * Real.sin (nutAng (54400, 1683317500, 0, -4) t) + (((-3 : ℤ) : ℝ) * Real.sin (nutAng (36900, 2512811000, 0, -3) t) +
      ((2 : ℤ) : ℝ) * Real.sin (nutAng (35500, 62836200, 0, 2) t)))))))) := by
    intro t
    rw [nutRest_eq]
    simp only [nut, List.map_cons, List.map_nil, List.sum_cons, List.sum_nil, add_zero]
  refine (((LB_nutRow (35069, 125666393, 11, -132)).add ((LB_nutRow (13375, 1679941820, -51, -23)).add ((LB_nutRow (43649, -6751410, 72, 21)).add
    ((LB_nutRow (400, -62830200, 0, -14)).add ((LB_nutRow (23600, 832869100, 0, 7)).add ((LB_nutRow (34600, 188496600, 0, -5)).add ((LB_nutRow (54400, 1683317500, 0, -4)).add
    ((LB_nutRow (36900, 2512811000, 0, -3)).add (LB_nutRow (35500, 62836200, 0, 2)))))))))).congr e).mono ?_ ?_
  · norm_num
  · norm_num

/-! ## The longitude -/

/-- the sun's equation of the centre, with the numbers of the table -/
noncomputable def Su0 (t : ℝ) : ℝ :=
  0.0334165646 * Real.cos (4.669256804 + 628.3075849991 * t) + 0.00020605886 * (t * Real.cos (2.67823456 + 628.307584999 * t))

/-- the rest of the longitude -/
noncomputable def rest (t : ℝ) : ℝ :=
  (E ((XL0 0).drop 2) (t / 10) / 10 ^ 10 + E ((XL0 1).drop 2) (t / 10) * (t / 10) / 10 ^ 10 + (5291887 + E ((XL0 2).drop 1) (t / 10)) * (t / 10) * (t / 10) / 10 ^ 10 +
    E (XL0 3) (t / 10) * (t / 10) * (t / 10) * (t / 10) / 10 ^ 10 + E (XL0 4) (t / 10) * (t / 10) * (t / 10) * (t / 10) * (t / 10) / 10 ^ 10 +
    E (XL0 5) (t / 10) * (t / 10) * (t / 10) * (t / 10) * (t / 10) * (t / 10) / 10 ^ 10) +
  (-0.0728 - 2.7702 * (t / 10) - 1.1019 * ((t / 10) * (t / 10)) - 0.0996 * ((t / 10) * (t / 10) * (t / 10))) * (1 / R) +
  ((-1720 - 1.742 * t) * Real.sin (2.1824 - 33.75705 * t + 0.000036 * (t * t)) + nut nutRest t) / 100 * (1 / R) +
  -20.49552 * (1 + (0.016708634 - 0.000042037 * t - 0.0000001267 * (t * t)) * Real.cos (-0.043126 + 628.301955 * t - 0.000002732 * (t * t))) * (1 / R)

theorem saLon_real (t : ℝ) : saLon t (-1) = PI + 1.7534704567 + 628.33196674749 * t + Su0 t + rest t := by
  have e : saLon t (-1) = eLon t (-1) + nutationLon2 t + gxcSunLon t + PI := rfl
  obtain ⟨q0, q1, q2, q3, q4, q5⟩ := all_ok
  have g0 : E (er (-1) 0) (t / 10) = 17534704567 + 334165646 * Real.cos (4.669256804 + 628.3075849991 * t) + E ((XL0 0).drop 2) (t / 10) := by
    rw [q0, E_cons, E_cons]; simp only [realE]
    rw [show ((4669256804 : ℤ) : ℝ) / 10 ^ 9 + t / 10 * (((6283075849991 : ℤ) : ℝ) / 10 ^ 9) = 4.669256804 + 628.3075849991 * t by push_cast; ring]
    push_cast; norm_num; ring
  have g1 : E (er (-1) 1) (t / 10) = 62833196674749 + 20605886 * Real.cos (2.67823456 + 628.307584999 * t) + E ((XL0 1).drop 2) (t / 10) := by
    rw [q1, E_cons, E_cons]; simp only [realE]
    rw [show ((2678234560 : ℤ) : ℝ) / 10 ^ 9 + t / 10 * (((6283075849990 : ℤ) : ℝ) / 10 ^ 9) = 2.67823456 + 628.307584999 * t by push_cast; ring]
    push_cast; norm_num; ring
  have g2 : E (er (-1) 2) (t / 10) = 5291887 + E ((XL0 2).drop 1) (t / 10) := by
    rw [q2, E_cons]; simp only [realE]; push_cast; norm_num
  rw [e, eLon_real, nut_real, gxc_real, g0, g1, g2, q3, q4, q5]
  unfold Su0 rest
  ring

theorem LB_u : LB (fun t => t / 10) 1.002 0.1 :=
  ((LB.smul 0.1 LB.id).congr (fun x => by ring)).mono (by norm_num) (by norm_num)

theorem inv_R : LB (fun _ => 1 / R) (1 / 206264) 0 := by
  have hR : (206264 : ℝ) ≤ R := by rw [R_eq]; norm_num
  refine (LB.const _).mono ?_ le_rfl
  rw [abs_of_nonneg (by positivity)]
  gcongr

theorem LB_rest : LB rest 0.0017 1.02 := by
  obtain ⟨a0, a1, a2, a3, a4, a5⟩ := ampl_ok
  obtain ⟨f0, f1, f2, f3, f4, f5⟩ := freq_ok
  have u := LB_u
  have t0 := LB.id
  have p0 := (LB.smul (1 / 10 ^ 10) (LB_E' a0 f0)).mono (A' := 0.0006464) (K' := 0.8346) (by norm_num) (by norm_num)
  have p1 := (LB.smul (1 / 10 ^ 10) ((LB_E' a1 f1).mul u)).mono (A' := 0.000059) (K' := 0.0593) (by norm_num) (by norm_num)
  have p2 := (LB.smul (1 / 10 ^ 10) ((((LB.const 5291887).add (LB_E' a2 f2)).mul u).mul u)).mono (A' := 0.000624) (K' := 0.0605) (by norm_num) (by norm_num)
  have p3 := (LB.smul (1 / 10 ^ 10) ((((LB_E' a3 f3).mul u).mul u).mul u)).mono (A' := 0.000004) (K' := 0.0021) (by norm_num) (by norm_num)
  have p4 := (LB.smul (1 / 10 ^ 10) (((((LB_E' a4 f4).mul u).mul u).mul u).mul u)).mono (A' := 0.000002) (K' := 0.0001) (by norm_num) (by norm_num)
  have p5 := (LB.smul (1 / 10 ^ 10) ((((((LB_E' a5 f5).mul u).mul u).mul u).mul u).mul u)).mono (A' := 0.000001) (K' := 0.0001) (by norm_num) (by norm_num)
  have q1 := (((((LB.const (-0.0728)).add (LB.smul (-2.7702) u)).add (LB.smul (-1.1019) (u.mul u))).add (LB.smul (-0.0996) ((u.mul u).mul u))).mul inv_R).mono
    (A' := 0.00002) (K' := 0.00001) (by norm_num) (by norm_num)
  have s1 := LB.sin ((LB.lin 2.1824 (-33.75705)).add (LB.smul 0.000036 (t0.mul t0)))
  have q2 := ((LB.smul (1 / 100) (((LB.lin (-1720) (-1.742)).mul s1).add LB_nut)).mul inv_R).mono (A' := 0.0001) (K' := 0.0405) (by norm_num) (by norm_num)
  have c1 := LB.cos ((LB.lin (-0.043126) 628.301955).add (LB.smul (-0.000002732) (t0.mul t0)))
  have q3 := ((LB.smul (-20.49552) ((LB.const 1).add (((LB.lin 0.016708634 (-0.000042037)).add (LB.smul (-0.0000001267) (t0.mul t0))).mul c1))).mul inv_R).mono
    (A' := 0.000103) (K' := 0.0012) (by norm_num) (by norm_num)
  refine ((((((((((p0.add p1).add p2).add p3).add p4).add p5).add q1).add q2).add q3)).congr (fun t => ?_)).mono (A' := 0.0017) ?_ ?_
  · unfold rest
    beta_reduce
    rw [show 2.1824 + -33.75705 * t + 0.000036 * (t * t) = 2.1824 - 33.75705 * t + 0.000036 * (t * t) by ring,
      show -0.043126 + 628.301955 * t + -0.000002732 * (t * t) = -0.043126 + 628.301955 * t - 0.000002732 * (t * t) by ring]
    push_cast
    ring
  · norm_num
  · norm_num

end SunDay
