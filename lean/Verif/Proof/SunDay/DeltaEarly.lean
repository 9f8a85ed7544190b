import Verif.Proof.SunDay.Delta

/-! # The correction `dtT` from 1584 on -/

open ShouXing F64

namespace SunDay
open Lunation (chained table_ok int_near sel_fl mul_le calc_near calc_le year_near)
variable {M : Libm}

/-- the values at the four points that enclose a row lie between -20 and 180 seconds; of the row up to 1600 only its end is used -/
def earlyOk (r : ℤ × ℤ × ℤ × ℤ × ℤ × ℤ) : Bool :=
  decide (r.2.2.2.2.2 ≤ 1584) || decide (1960 ≤ r.1) || (decide (1300 ≤ r.1 ∧ r.1 + 20 ≤ r.2.2.2.2.2 ∧ r.2.2.2.2.2 ≤ r.1 + 300 ∧ r.2.2.2.2.2 ≤ 1960) &&
    decide (|r.2.1| ≤ 49010 ∧ |r.2.2.1| ≤ 5735 ∧ |r.2.2.2.1| ≤ 2085 ∧ |r.2.2.2.2.1| ≤ 1403) &&
    (decide ((-6000 ≤ 3 * r.2.1 ∧ 3 * r.2.1 ≤ 54000) ∧ (-6000 ≤ 3 * r.2.1 + 10 * r.2.2.1 ∧ 3 * r.2.1 + 10 * r.2.2.1 ≤ 54000) ∧
      (-6000 ≤ 3 * r.2.1 + 20 * r.2.2.1 + 10 * r.2.2.2.1 ∧ 3 * r.2.1 + 20 * r.2.2.1 + 10 * r.2.2.2.1 ≤ 54000) ∧
      (-6000 ≤ 3 * r.2.1 + 30 * (r.2.2.1 + r.2.2.2.1 + r.2.2.2.2.1) ∧ 3 * r.2.1 + 30 * (r.2.2.1 + r.2.2.2.1 + r.2.2.2.2.1) ≤ 54000)) ||
     decide (r.1 = 1300 ∧ r.2.2.2.2.2 = 1600 ∧ 5000 ≤ r.2.1 + 10 * (r.2.2.1 + r.2.2.2.1 + r.2.2.2.2.1) ∧ r.2.1 + 10 * (r.2.2.1 + r.2.2.2.1 + r.2.2.2.2.1) ≤ 12000 ∧
      |r.2.2.1| + 2 * |r.2.2.2.1| + 3 * |r.2.2.2.2.1| ≤ 10500)))

theorem early_ok : DT_AT.all earlyOk = true := by decide +kernel

/-- a cubic lies between the least and the greatest of its four Bernstein values -/
theorem bern {a b c d u lo hi : ℝ} (u0 : 0 ≤ u) (u1 : u ≤ 1) (h0 : lo ≤ 3 * a ∧ 3 * a ≤ hi) (h1 : lo ≤ 3 * a + 10 * b ∧ 3 * a + 10 * b ≤ hi)
    (h2 : lo ≤ 3 * a + 20 * b + 10 * c ∧ 3 * a + 20 * b + 10 * c ≤ hi) (h3 : lo ≤ 3 * a + 30 * (b + c + d) ∧ 3 * a + 30 * (b + c + d) ≤ hi) :
    lo ≤ 3 * a + 30 * (b * u + c * (u * u) + d * (u * u * u)) ∧ 3 * a + 30 * (b * u + c * (u * u) + d * (u * u * u)) ≤ hi := by
  have w : 0 ≤ 1 - u := by linarith
  have w0 : 0 ≤ (1 - u) * (1 - u) * (1 - u) := by positivity
  have w1 : 0 ≤ 3 * (u * ((1 - u) * (1 - u))) := by positivity
  have w2 : 0 ≤ 3 * (u * u * (1 - u)) := by positivity
  have w3 : 0 ≤ u * u * u := by positivity
  have e : (1 - u) * (1 - u) * (1 - u) + 3 * (u * ((1 - u) * (1 - u))) + 3 * (u * u * (1 - u)) + u * u * u = 1 := by ring
  have p : 3 * a + 30 * (b * u + c * (u * u) + d * (u * u * u)) = (3 * a) * ((1 - u) * (1 - u) * (1 - u)) + (3 * a + 10 * b) * (3 * (u * ((1 - u) * (1 - u)))) +
    (3 * a + 20 * b + 10 * c) * (3 * (u * u * (1 - u))) + (3 * a + 30 * (b + c + d)) * (u * u * u) := by ring
  have l0 := mul_le_mul_of_nonneg_right h0.1 w0
  have l1 := mul_le_mul_of_nonneg_right h1.1 w1
  have l2 := mul_le_mul_of_nonneg_right h2.1 w2
  have l3 := mul_le_mul_of_nonneg_right h3.1 w3
  have k0 := mul_le_mul_of_nonneg_right h0.2 w0
  have k1 := mul_le_mul_of_nonneg_right h1.2 w1
  have k2 := mul_le_mul_of_nonneg_right h2.2 w2
  have k3 := mul_le_mul_of_nonneg_right h3.2 w3
  have s1 : lo = lo * ((1 - u) * (1 - u) * (1 - u)) + lo * (3 * (u * ((1 - u) * (1 - u)))) + lo * (3 * (u * u * (1 - u))) + lo * (u * u * u) := by ring
  have s2 : hi = hi * ((1 - u) * (1 - u) * (1 - u)) + hi * (3 * (u * ((1 - u) * (1 - u)))) + hi * (3 * (u * u * (1 - u))) + hi * (u * u * u) := by ring
  rw [p]
  constructor
  · rw [s1]; linarith
  · rw [s2]; linarith

theorem row_early {y : Fl M} {r : ℤ × ℤ × ℤ × ℤ × ℤ × ℤ} (hr : earlyOk r = true) (h0 : 1584 ≤ (y.v : ℝ)) (h9 : (y.v : ℝ) < 1960) (h1 : (r.1 : ℝ) ≤ y.v) (hy : (y.v : ℝ) < r.2.2.2.2.2) :
    -21 ≤ ((dtRow y r : Fl M).v : ℝ) ∧ ((dtRow y r : Fl M).v : ℝ) ≤ 181 := by
  obtain ⟨y0, a, b, c, d, y1⟩ := r
  simp only [earlyOk, Bool.or_eq_true, Bool.and_eq_true, decide_eq_true_eq] at hr
  simp only at h1 hy
  rcases hr with (hr | hr) | ⟨⟨⟨q1, q2, q3, q4⟩, q5, q6, q7, q8⟩, hv⟩
  · have : (y1 : ℝ) ≤ 1584 := by exact_mod_cast hr
    linarith
  · have : (1960 : ℝ) ≤ y0 := by exact_mod_cast hr
    linarith
  have q1' : (1300 : ℝ) ≤ y0 := by exact_mod_cast q1
  have q2' : (y0 : ℝ) + 20 ≤ y1 := by exact_mod_cast q2
  have q3' : (y1 : ℝ) ≤ y0 + 300 := by exact_mod_cast q3
  have q4' : (y1 : ℝ) ≤ 1960 := by exact_mod_cast q4
  have q5' : |(a : ℝ)| ≤ 49010 := by exact_mod_cast q5
  have q6' : |(b : ℝ)| ≤ 5735 := by exact_mod_cast q6
  have q7' : |(c : ℝ)| ≤ 2085 := by exact_mod_cast q7
  have q8' : |(d : ℝ)| ≤ 1403 := by exact_mod_cast q8
  obtain ⟨u, hu⟩ : ∃ u : ℝ, u = ((y.v : ℝ) - y0) / (y1 - y0) := ⟨_, rfl⟩
  have u0 : 0 ≤ u := by rw [hu]; exact div_nonneg (by linarith) (by linarith)
  have u1 : u ≤ 1 := by rw [hu]; exact div_le_one_of_le₀ (by linarith) (by linarith)
  have ua : |u| ≤ 1 := by rw [abs_le]; constructor <;> linarith
  have real : -20 ≤ (a : ℝ) / 100 + ((b : ℝ) * u + c * (u * u) + d * (u * u * u)) / 10 ∧ (a : ℝ) / 100 + ((b : ℝ) * u + c * (u * u) + d * (u * u * u)) / 10 ≤ 180 := by
    rcases hv with ⟨⟨p1, p2⟩, ⟨p3, p4⟩, ⟨p5, p6⟩, p7, p8⟩ | ⟨p1, p2, p3, p4, p5⟩
    · have k := bern (a := a) (b := b) (c := c) (d := d) (lo := -6000) (hi := 54000) u0 u1 ⟨by exact_mod_cast p1, by exact_mod_cast p2⟩ ⟨by exact_mod_cast p3, by exact_mod_cast p4⟩
        ⟨by exact_mod_cast p5, by exact_mod_cast p6⟩ ⟨by exact_mod_cast p7, by exact_mod_cast p8⟩
      constructor <;> linarith
    · have e0 : (y0 : ℝ) = 1300 := by exact_mod_cast p1
      have e1 : (y1 : ℝ) = 1600 := by exact_mod_cast p2
      have ul : 0.946 ≤ u := by rw [hu, e0, e1, le_div_iff₀ (by norm_num)]; linarith
      have p3 : (5000 : ℝ) ≤ a + 10 * (b + c + d) := by exact_mod_cast p3
      have p4 : (a : ℝ) + 10 * (b + c + d) ≤ 12000 := by exact_mod_cast p4
      have p5 : |(b : ℝ)| + 2 * |(c : ℝ)| + 3 * |(d : ℝ)| ≤ 10500 := by exact_mod_cast p5
      have k1 : |1 + u| ≤ 2 := by rw [abs_le]; constructor <;> linarith
      have uu := mul_le_mul u1 u1 u0 zero_le_one
      have uu0 := mul_nonneg u0 u0
      have k2 : |1 + u + u * u| ≤ 3 := by rw [abs_le]; constructor <;> linarith
      have m1 := abs_le.1 (mul_le (le_refl |(c : ℝ)|) k1)
      have m2 := abs_le.1 (mul_le (le_refl |(d : ℝ)|) k2)
      have m0 := abs_le.1 (le_refl |(b : ℝ)|)
      have s : |(b : ℝ) + c * (1 + u) + d * (1 + u + u * u)| ≤ 10500 := by rw [abs_le]; constructor <;> linarith
      have t := abs_le.1 (mul_le s (show |1 - u| ≤ 0.054 by rw [abs_le]; constructor <;> linarith))
      have e : (b : ℝ) * u + c * (u * u) + d * (u * u * u) = b + c + d - ((b : ℝ) + c * (1 + u) + d * (1 + u + u * u)) * (1 - u) := by ring
      rw [e]
      constructor <;> linarith
  have n0 := (Near.self y (m := 2028) (by rw [abs_le]; constructor <;> linarith)).sub
    (int_near (M := M) y0 (m := 2028) (by rw [abs_le]; constructor <;> linarith) (by rw [abs_le]; constructor <;> linarith))
  have n1 : Near (y - int y0) ((y.v : ℝ) - y0) 300 (1 / 10 ^ 11) := ⟨n0.1.trans (by norm_num), by rw [abs_le]; constructor <;> linarith⟩
  have n2 : Near (int (y1 - y0) : Fl M) ((y1 : ℝ) - y0) 300 0 := by
    have := int_near (M := M) (y1 - y0) (m := 300) (by push_cast; rw [abs_le]; constructor <;> linarith) (by rw [abs_le]; constructor <;> linarith)
    push_cast at this
    exact this
  have n3 := (n1.div n2 (l := 20) (by norm_num) (by linarith)).mono (m' := 20) (e' := 1 / 10 ^ 11) (by norm_num) (by norm_num)
  rw [← hu] at n3
  have n4 : Near ((y - int y0) / int (y1 - y0)) u 1 (1 / 10 ^ 11) := ⟨n3.1, ua⟩
  have n5 := (n4.mul (int_near (M := M) 10 (m := 10) (by norm_num) (by norm_num))).mono (m' := 10) (e' := 1 / 10 ^ 9) (by norm_num) (by norm_num)
  have n6 := (n5.mul n5).mono (m' := 100) (e' := 1 / 10 ^ 7) (by norm_num) (by norm_num)
  have n7 := (n6.mul n5).mono (m' := 1000) (e' := 1 / 10 ^ 5) (by norm_num) (by norm_num)
  have la := (Near.lit (M := M) a 2).mono (m' := 500) (e' := 1 / 10 ^ 10) (by linarith) (by linarith)
  have lb := (Near.lit (M := M) b 2).mono (m' := 60) (e' := 1 / 10 ^ 10) (by linarith) (by linarith)
  have lc := (Near.lit (M := M) c 3).mono (m' := 4) (e' := 1 / 10 ^ 10) (by linarith) (by linarith)
  have ld := (Near.lit (M := M) d 4).mono (m' := 4) (e' := 1 / 10 ^ 10) (by linarith) (by linarith)
  have f := ((((la.add (lb.mul n5)).mono (m' := 2000) (e' := 1 / 10 ^ 4) (by norm_num) (by norm_num)).add
    ((lc.mul n6).mono (m' := 1000) (e' := 1 / 10 ^ 4) (by norm_num) (by norm_num))).add
    ((ld.mul n7).mono (m' := 10000) (e' := 1 / 10 ^ 3) (by norm_num) (by norm_num))).1
  have hrow : dtRow y (y0, a, b, c, d, y1) = FloatLike.lit a 2 + FloatLike.lit b 2 * ((y - int y0) / int (y1 - y0) * int 10) +
      FloatLike.lit c 3 * ((y - int y0) / int (y1 - y0) * int 10 * ((y - int y0) / int (y1 - y0) * int 10)) +
      FloatLike.lit d 4 * ((y - int y0) / int (y1 - y0) * int 10 * ((y - int y0) / int (y1 - y0) * int 10) * ((y - int y0) / int (y1 - y0) * int 10)) := rfl
  have e1 : ∀ (k : ℤ) (j : ℕ), (FloatLike.lit k j : ℝ) = (k : ℝ) / 10 ^ j := fun _ _ => rfl
  rw [e1, e1, e1, e1] at f
  rw [hrow]
  have e2 : (a : ℝ) / 10 ^ 2 + (b : ℝ) / 10 ^ 2 * (u * ((10 : ℤ) : ℝ)) + (c : ℝ) / 10 ^ 3 * (u * ((10 : ℤ) : ℝ) * (u * ((10 : ℤ) : ℝ))) +
      (d : ℝ) / 10 ^ 4 * (u * ((10 : ℤ) : ℝ) * (u * ((10 : ℤ) : ℝ)) * (u * ((10 : ℤ) : ℝ))) = (a : ℝ) / 100 + ((b : ℝ) * u + c * (u * u) + d * (u * u * u)) / 10 := by
    push_cast
    ring
  rw [e2] at f
  have f := abs_le.1 f
  constructor <;> linarith

theorem rows_early {y : Fl M} (h0 : 1584 ≤ (y.v : ℝ)) (h2 : (y.v : ℝ) < 1960) : ∀ (l : List (ℤ × ℤ × ℤ × ℤ × ℤ × ℤ)) (r : ℤ × ℤ × ℤ × ℤ × ℤ × ℤ),
    (r :: l).all earlyOk = true → chained (r :: l) = true → (∀ s ∈ r :: l, |s.2.2.2.2.2| ≤ 10000) → (r.1 : ℝ) ≤ y.v → ((r :: l).getLast (by simp)).2.2.2.2.2 = 2028 →
    -21 ≤ ((dtRows y (r :: l) : Fl M).v : ℝ) ∧ ((dtRows y (r :: l) : Fl M).v : ℝ) ≤ 181
  | [], r, ha, _, _, h1, he => by
    simp only [List.getLast_singleton] at he
    simp only [List.all_cons, List.all_nil, Bool.and_true] at ha
    have : (r.2.2.2.2.2 : ℝ) = 2028 := by exact_mod_cast he
    exact row_early ha h0 h2 h1 (by linarith)
  | s :: l, r, ha, hc, hb, h1, he => by
    simp only [chained, Bool.and_eq_true, decide_eq_true_eq] at hc
    rw [List.all_cons, Bool.and_eq_true] at ha
    have e : dtRows y (r :: s :: l) = FloatLike.sel y (int r.2.2.2.2.2) (dtRow y r) (dtRows y (s :: l)) := rfl
    rw [e, sel_fl, Block.int_v M ((hb r (by simp)).trans (by norm_num))]
    by_cases c : y.v < (r.2.2.2.2.2 : ℚ)
    · have c' : (y.v : ℝ) < r.2.2.2.2.2 := by exact_mod_cast c
      rw [if_pos c]
      exact row_early ha.1 h0 h2 h1 c'
    · have c' : (r.2.2.2.2.2 : ℝ) ≤ y.v := by push Not at c; exact_mod_cast c
      rw [if_neg c]
      refine rows_early h0 h2 l s ha.2 hc.2 (fun x hx => hb x (by simp only [List.mem_cons] at hx ⊢; tauto)) (by rw [← hc.1]; exact c') ?_
      rw [List.getLast_cons (by simp)] at he
      exact he

/-- between 1584 and 1960 -/
theorem calc_early {y : Fl M} (h0 : 1584 ≤ (y.v : ℝ)) (h2 : (y.v : ℝ) < 1960) : -21 ≤ ((dtCalc y : Fl M).v : ℝ) ∧ ((dtCalc y : Fl M).v : ℝ) ≤ 181 := by
  have e : dtCalc y = FloatLike.sel y (int 2028) (dtRows y DT_AT) (FloatLike.sel (int 2128) y (dtExt y 31)
      (dtExt y 31 - (dtExt (int 2028) 31 - FloatLike.lit 986 1) * (int 2128 - y) / int 100)) := rfl
  rw [e, sel_fl, Block.int_v M (by norm_num), if_pos (by have : (y.v : ℝ) < 2028 := by linarith
                                                         exact_mod_cast this)]
  exact rows_early h0 h2 DT_AT.tail (-4000, 10837170, -1303680, 392000, 0, -500) early_ok table_ok.2 (by decide +kernel) (by push_cast; linarith) (by decide +kernel)

theorem dtT_le {x : Fl M} (h0 : -151900 ≤ (x.v : ℝ)) (h1 : (x.v : ℝ) ≤ 1100000) : |((dtT x : Fl M).v : ℝ)| ≤ 0.38 := by
  have y := abs_le.1 (year_near (x := x) (by rw [abs_le]; constructor <;> linarith))
  have c : |((dtCalc (x / FloatLike.lit 3652425 4 + int 2000 : Fl M) : Fl M).v : ℝ)| ≤ 32500 := by
    by_cases h : ((x / FloatLike.lit 3652425 4 + int 2000 : Fl M).v : ℝ) < 1960
    · have := calc_early (by linarith) h
      rw [abs_le]; constructor <;> linarith
    · exact calc_le (not_lt.1 h) (by linarith)
  have n := ((Near.self _ c).div (int_near (M := M) 86400 (m := 86400) (by norm_num) (by norm_num)) (l := 86400) (by norm_num) (by norm_num)).v_le
  exact n.trans (by norm_num)

theorem dtT_change {x x' : Fl M} (h0 : -151900 ≤ (x.v : ℝ)) (h : (x.v : ℝ) + 1 ≤ x'.v) (h' : (x'.v : ℝ) ≤ x.v + 400) (h1 : (x'.v : ℝ) ≤ 1100000) :
    |((dtT x' : Fl M).v : ℝ) - (dtT x : Fl M).v| ≤ 0.0024 := by
  by_cases k : -14540 ≤ (x.v : ℝ)
  · exact (Lunation.dtT_change k h h' h1).trans (by norm_num)
  have y := abs_le.1 (year_near (x := x) (by rw [abs_le]; constructor <;> linarith))
  have y' := abs_le.1 (year_near (x := x') (by rw [abs_le]; constructor <;> linarith))
  have key : ∀ z : Fl M, 1584 ≤ (z.v : ℝ) → (z.v : ℝ) < 2028 → -21 ≤ ((dtCalc z : Fl M).v : ℝ) ∧ ((dtCalc z : Fl M).v : ℝ) ≤ 181 := by
    intro z z0 z1
    by_cases c : (z.v : ℝ) < 1960
    · exact calc_early z0 c
    · have := (calc_near (not_lt.1 c) (by linarith)).1 z1
      constructor <;> linarith
  have c := key _ (show 1584 ≤ ((x / FloatLike.lit 3652425 4 + int 2000 : Fl M).v : ℝ) by linarith) (by linarith)
  have c' := key _ (show 1584 ≤ ((x' / FloatLike.lit 3652425 4 + int 2000 : Fl M).v : ℝ) by linarith) (by linarith)
  have n := abs_le.1 ((Near.self _ (show |((dtCalc (x / FloatLike.lit 3652425 4 + int 2000 : Fl M) : Fl M).v : ℝ)| ≤ (200 : ℝ) by rw [abs_le]; constructor <;> linarith)).div (int_near (M := M) 86400 (m := 86400) (by norm_num) (by norm_num)) (l := 86400) (by norm_num) (by norm_num)).1
  have n' := abs_le.1 ((Near.self _ (show |((dtCalc (x' / FloatLike.lit 3652425 4 + int 2000 : Fl M) : Fl M).v : ℝ)| ≤ (200 : ℝ) by rw [abs_le]; constructor <;> linarith)).div (int_near (M := M) 86400 (m := 86400) (by norm_num) (by norm_num)) (l := 86400) (by norm_num) (by norm_num)).1
  have e : (dtT x : Fl M) = dtCalc (x / FloatLike.lit 3652425 4 + int 2000) / int 86400 := rfl
  have e' : (dtT x' : Fl M) = dtCalc (x' / FloatLike.lit 3652425 4 + int 2000) / int 86400 := rfl
  rw [e, e']
  push_cast at n n'
  rw [abs_le]; constructor <;> linarith

end SunDay
