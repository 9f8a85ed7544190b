import Verif.Proof.Lunation.Times
import Verif.Proof.Blocks

/-! # The correction `dtT` between one new moon and the next -/

open ShouXing F64

namespace Lunation
variable {M : Libm}

theorem int_real (k : ℤ) : (int k : ℝ) = k := by show (k : ℝ) / 10 ^ 0 = k; simp

theorem int_near (k : ℤ) {m : ℝ} (h : |(k : ℝ)| ≤ m) (hk : |k| ≤ 2 ^ 53) : Near (int k : Fl M) (k : ℝ) m 0 := by
  refine ⟨?_, h⟩
  rw [Block.int_v M hk]
  simp

theorem sel_fl (a b x y : Fl M) : FloatLike.sel a b x y = if a.v < b.v then x else y := rfl

/-! ## The table up to 2028 -/

/-- a row whose values stay between -7 and 90 -/
def rowOk (r : ℤ × ℤ × ℤ × ℤ × ℤ × ℤ) : Bool :=
  decide (r.2.2.2.2.2 ≤ 1960) || (decide (1960 ≤ r.1) && decide (r.1 + 3 ≤ r.2.2.2.2.2) && decide (r.2.2.2.2.2 ≤ r.1 + 20) && decide (r.2.2.2.2.2 ≤ 2028) &&
    decide (-600 ≤ r.2.1 - 10 * (|r.2.2.1| + |r.2.2.2.1| + |r.2.2.2.2.1|)) && decide (r.2.1 + 10 * (|r.2.2.1| + |r.2.2.2.1| + |r.2.2.2.2.1|) ≤ 8900) &&
    decide (|r.2.2.1| + |r.2.2.2.1| + |r.2.2.2.2.1| ≤ 400) && decide (|r.2.1| ≤ 8400))

/-- each row begins where the one before ends -/
def chained : List (ℤ × ℤ × ℤ × ℤ × ℤ × ℤ) → Bool
  | r :: s :: l => decide (r.2.2.2.2.2 = s.1) && chained (s :: l)
  | _ => true

theorem table_ok : DT_AT.all rowOk = true ∧ chained DT_AT = true := by decide +kernel

theorem row_near {y : Fl M} {r : ℤ × ℤ × ℤ × ℤ × ℤ × ℤ} (hr : rowOk r = true) (h0 : 1960 ≤ (y.v : ℝ)) (h1 : (r.1 : ℝ) ≤ y.v) (h2 : (y.v : ℝ) ≤ r.2.2.2.2.2) (hy : (y.v : ℝ) < r.2.2.2.2.2) :
    -7 ≤ ((dtRow y r : Fl M).v : ℝ) ∧ ((dtRow y r : Fl M).v : ℝ) ≤ 90 := by
  obtain ⟨y0, a, b, c, d, y1⟩ := r
  simp only [rowOk, Bool.or_eq_true, Bool.and_eq_true, decide_eq_true_eq] at hr
  simp only at h1 h2 hy
  rcases hr with hr | ⟨⟨⟨⟨⟨⟨⟨q1, q2⟩, q3⟩, q4⟩, q5⟩, q6⟩, q7⟩, q8⟩
  · have : (y1 : ℝ) ≤ 1960 := by exact_mod_cast hr
    linarith
  have q1' : (1960 : ℝ) ≤ y0 := by exact_mod_cast q1
  have q2' : (y0 : ℝ) + 3 ≤ y1 := by exact_mod_cast q2
  have q3' : (y1 : ℝ) ≤ y0 + 20 := by exact_mod_cast q3
  have q4' : (y1 : ℝ) ≤ 2028 := by exact_mod_cast q4
  have q5' : (-600 : ℝ) ≤ a - 10 * (|(b : ℝ)| + |(c : ℝ)| + |(d : ℝ)|) := by exact_mod_cast q5
  have q6' : a + 10 * (|(b : ℝ)| + |(c : ℝ)| + |(d : ℝ)|) ≤ 8900 := by exact_mod_cast q6
  have q7' : |(b : ℝ)| + |(c : ℝ)| + |(d : ℝ)| ≤ 400 := by exact_mod_cast q7
  have q8' : |(a : ℝ)| ≤ 8400 := by exact_mod_cast q8
  have nb := abs_nonneg (b : ℝ)
  have nc := abs_nonneg (c : ℝ)
  have nd := abs_nonneg (d : ℝ)
  -- the double and the real number
  have n0 := (Near.self y (m := 2028) (by rw [abs_le]; constructor <;> linarith)).sub
    (int_near (M := M) y0 (m := 2028) (by rw [abs_le]; constructor <;> linarith) (by rw [abs_le]; constructor <;> linarith))
  have n1 : Near (y - int y0) ((y.v : ℝ) - y0) 20 (1 / 10 ^ 11) := ⟨n0.1.trans (by norm_num), by rw [abs_le]; constructor <;> linarith⟩
  have n2 : Near (int (y1 - y0) : Fl M) ((y1 : ℝ) - y0) 20 0 := by
    have := int_near (M := M) (y1 - y0) (m := 20) (by push_cast; rw [abs_le]; constructor <;> linarith) (by rw [abs_le]; constructor <;> linarith)
    push_cast at this
    exact this
  have n3 := (n1.div n2 (l := 3) (by norm_num) (by linarith)).mono (m' := 7) (e' := 1 / 10 ^ 11) (by norm_num) (by norm_num)
  obtain ⟨u, hu⟩ : ∃ u : ℝ, u = ((y.v : ℝ) - y0) / (y1 - y0) := ⟨_, rfl⟩
  have u0 : 0 ≤ u := by rw [hu]; exact div_nonneg (by linarith) (by linarith)
  have u1 : u ≤ 1 := by rw [hu]; exact div_le_one_of_le₀ (by linarith) (by linarith)
  rw [← hu] at n3
  have ua : |u| ≤ 1 := by rw [abs_le]; constructor <;> linarith
  have n4 : Near ((y - int y0) / int (y1 - y0)) u 1 (1 / 10 ^ 11) := ⟨n3.1, ua⟩
  have n5 := (n4.mul (int_near (M := M) 10 (m := 10) (by norm_num) (by norm_num))).mono (m' := 10) (e' := 1 / 10 ^ 9) (by norm_num) (by norm_num)
  have n6 := (n5.mul n5).mono (m' := 100) (e' := 1 / 10 ^ 7) (by norm_num) (by norm_num)
  have n7 := (n6.mul n5).mono (m' := 1000) (e' := 1 / 10 ^ 5) (by norm_num) (by norm_num)
  have la := (Near.lit (M := M) a 2).mono (m' := 84) (e' := 1 / 10 ^ 10) (by linarith) (by linarith)
  have lb := (Near.lit (M := M) b 2).mono (m' := 4) (e' := 1 / 10 ^ 10) (by linarith) (by linarith)
  have lc := (Near.lit (M := M) c 3).mono (m' := 4) (e' := 1 / 10 ^ 10) (by linarith) (by linarith)
  have ld := (Near.lit (M := M) d 4).mono (m' := 4) (e' := 1 / 10 ^ 10) (by linarith) (by linarith)
  have f := (((la.add (lb.mul n5)).mono (m' := 1000) (e' := 1 / 10 ^ 4) (by norm_num) (by norm_num)).add
    ((lc.mul n6).mono (m' := 1000) (e' := 1 / 10 ^ 4) (by norm_num) (by norm_num))).add
    ((ld.mul n7).mono (m' := 10000) (e' := 1 / 10 ^ 3) (by norm_num) (by norm_num))
  have f1 := abs_le.1 f.1
  have e1 : ∀ (k : ℤ) (j : ℕ), (FloatLike.lit k j : ℝ) = (k : ℝ) / 10 ^ j := fun _ _ => rfl
  rw [e1, e1, e1, e1] at f1
  have g1 := abs_le.1 (mul_le (le_refl |(b : ℝ)|) ua)
  have u2 : |u * u| ≤ 1 := by have := mul_le ua ua; linarith
  have u3 : |u * u * u| ≤ 1 := by have := mul_le u2 ua; linarith
  have g2 := abs_le.1 (mul_le (le_refl |(c : ℝ)|) u2)
  have g3 := abs_le.1 (mul_le (le_refl |(d : ℝ)|) u3)
  have hrow : dtRow y (y0, a, b, c, d, y1) = FloatLike.lit a 2 + FloatLike.lit b 2 * ((y - int y0) / int (y1 - y0) * int 10) +
      FloatLike.lit c 3 * ((y - int y0) / int (y1 - y0) * int 10 * ((y - int y0) / int (y1 - y0) * int 10)) +
      FloatLike.lit d 4 * ((y - int y0) / int (y1 - y0) * int 10 * ((y - int y0) / int (y1 - y0) * int 10) * ((y - int y0) / int (y1 - y0) * int 10)) := rfl
  rw [hrow]
  push_cast at f1
  constructor <;> linarith

theorem rows_near {y : Fl M} (h0 : 1960 ≤ (y.v : ℝ)) (h2 : (y.v : ℝ) < 2028) : ∀ (l : List (ℤ × ℤ × ℤ × ℤ × ℤ × ℤ)) (r : ℤ × ℤ × ℤ × ℤ × ℤ × ℤ),
    (r :: l).all rowOk = true → chained (r :: l) = true → (∀ s ∈ r :: l, |s.2.2.2.2.2| ≤ 10000) → (r.1 : ℝ) ≤ y.v → ((r :: l).getLast (by simp)).2.2.2.2.2 = 2028 →
    -7 ≤ ((dtRows y (r :: l) : Fl M).v : ℝ) ∧ ((dtRows y (r :: l) : Fl M).v : ℝ) ≤ 90
  | [], r, ha, _, _, h1, he => by
    simp only [List.getLast_singleton] at he
    simp only [List.all_cons, List.all_nil, Bool.and_true] at ha
    have : (r.2.2.2.2.2 : ℝ) = 2028 := by exact_mod_cast he
    exact row_near ha h0 h1 (by linarith) (by linarith)
  | s :: l, r, ha, hc, hb, h1, he => by
    simp only [chained, Bool.and_eq_true, decide_eq_true_eq] at hc
    rw [List.all_cons, Bool.and_eq_true] at ha
    have e : dtRows y (r :: s :: l) = FloatLike.sel y (int r.2.2.2.2.2) (dtRow y r) (dtRows y (s :: l)) := rfl
    rw [e, sel_fl, Block.int_v M ((hb r (by simp)).trans (by norm_num))]
    by_cases c : y.v < (r.2.2.2.2.2 : ℚ)
    · have c' : (y.v : ℝ) < r.2.2.2.2.2 := by exact_mod_cast c
      rw [if_pos c]
      exact row_near ha.1 h0 h1 c'.le c'
    · have c' : (r.2.2.2.2.2 : ℝ) ≤ y.v := by push Not at c; exact_mod_cast c
      rw [if_neg c]
      refine rows_near h0 h2 l s ha.2 hc.2 (fun x hx => hb x (by simp only [List.mem_cons] at hx ⊢; tauto)) (by rw [← hc.1]; exact c') ?_
      rw [List.getLast_cons (by simp)] at he
      exact he

theorem table_near {y : Fl M} (h0 : 1960 ≤ (y.v : ℝ)) (h2 : (y.v : ℝ) < 2028) : -7 ≤ ((dtRows y DT_AT : Fl M).v : ℝ) ∧ ((dtRows y DT_AT : Fl M).v : ℝ) ≤ 90 := by
  have := rows_near h0 h2 DT_AT.tail (-4000, 10837170, -1303680, 392000, 0, -500) table_ok.1 table_ok.2 (by decide +kernel) (by push_cast; linarith) (by decide +kernel)
  exact this

/-! ## After 2028 -/

/-- `dtExt` with 31 -/
noncomputable def ext (y : ℝ) : ℝ := -20 + 31 * ((y - 1820) / 100) ^ 2

theorem ext_near {y : Fl M} (h0 : 1960 ≤ (y.v : ℝ)) (h1 : (y.v : ℝ) ≤ 5015) : Near (dtExt y 31) (ext y.v) 32000 (1 / 10 ^ 6) := by
  have n1 := ((Near.self y (m := 5015) (by rw [abs_le]; constructor <;> linarith)).sub (int_near (M := M) 1820 (m := 1820) (by norm_num) (by norm_num)))
  have n2 : Near (y - int 1820) ((y.v : ℝ) - 1820) 3195 (1 / 10 ^ 11) := ⟨n1.1.trans (by norm_num), by rw [abs_le]; constructor <;> linarith⟩
  have l1 : Near (FloatLike.lit 10 1 : Fl M) 1 1 (1 / 10 ^ 15) := by
    have := Near.lit (M := M) 10 1
    have e : (FloatLike.lit 10 1 : ℝ) = 1 := by show ((10 : ℤ) : ℝ) / 10 ^ 1 = 1; norm_num
    rw [e] at this
    exact this.mono (by norm_num) (by norm_num)
  have n3 := (n2.mul l1).mono (m' := 3195) (e' := 1 / 10 ^ 10) (by norm_num) (by norm_num)
  have n4 := (n3.div (int_near (M := M) 100 (m := 100) (by norm_num) (by norm_num)) (l := 100) (by norm_num) (by norm_num)).mono (m' := 31.95) (e' := 1 / 10 ^ 11) (by norm_num) (by norm_num)
  have n5 := (int_near (M := M) 31 (m := 31) (by norm_num) (by norm_num)).mul n4
  have n6 := (n5.mul n4).mono (m' := 31645) (e' := 1 / 10 ^ 7) (by norm_num) (by norm_num)
  have n7 := ((int_near (M := M) (-20) (m := 20) (by norm_num) (by norm_num)).add n6).mono (m' := 32000) (e' := 1 / 10 ^ 6) (by norm_num) (by norm_num)
  have e : ((-20 : ℤ) : ℝ) + ((31 : ℤ) : ℝ) * (((y.v : ℝ) - 1820) * 1 / (100 : ℤ)) * (((y.v : ℝ) - 1820) * 1 / (100 : ℤ)) = ext y.v := by
    unfold ext; push_cast; ring
  rw [← e]
  exact n7

/-- `dtCalc` from 2028 on -/
noncomputable def after (y : ℝ) : ℝ := if 2128 < y then ext y else ext y - (ext 2028 - 98.6) * (2128 - y) / 100

theorem calc_near {y : Fl M} (h0 : 1960 ≤ (y.v : ℝ)) (h1 : (y.v : ℝ) ≤ 5015) :
    ((y.v : ℝ) < 2028 → -7 ≤ ((dtCalc y : Fl M).v : ℝ) ∧ ((dtCalc y : Fl M).v : ℝ) ≤ 90) ∧
    (2028 ≤ (y.v : ℝ) → |((dtCalc y : Fl M).v : ℝ) - after y.v| ≤ 0.001) := by
  have e : dtCalc y = FloatLike.sel y (int 2028) (dtRows y DT_AT) (FloatLike.sel (int 2128) y (dtExt y 31)
      (dtExt y 31 - (dtExt (int 2028) 31 - FloatLike.lit 986 1) * (int 2128 - y) / int 100)) := rfl
  rw [e, sel_fl, sel_fl, Block.int_v M (by norm_num), Block.int_v M (by norm_num)]
  constructor
  · intro h
    have c : y.v < ((2028 : ℤ) : ℚ) := by exact_mod_cast h
    rw [if_pos c]
    exact table_near h0 h
  · intro h
    have c : ¬y.v < ((2028 : ℤ) : ℚ) := by push Not; exact_mod_cast h
    rw [if_neg c]
    have n1 := ext_near h0 h1
    unfold after
    by_cases d : ((2128 : ℤ) : ℚ) < y.v
    · have d' : (2128 : ℝ) < y.v := by exact_mod_cast d
      rw [if_pos d, if_pos d']
      exact n1.1.trans (by norm_num)
    · have d' : ¬(2128 : ℝ) < y.v := by push Not at d ⊢; exact_mod_cast d
      rw [if_neg d, if_neg d']
      push Not at d'
      have v28 : ((int 2028 : Fl M).v : ℝ) = 2028 := by rw [Block.int_v M (by norm_num)]; norm_num
      have n2 := ext_near (y := (int 2028 : Fl M)) (by rw [v28]; norm_num) (by rw [v28]; norm_num)
      rw [v28] at n2
      have n3 : Near (dtExt (int 2028) 31 : Fl M) (ext 2028) 200 (1 / 10 ^ 6) := ⟨n2.1, by unfold ext; rw [abs_le]; constructor <;> norm_num⟩
      have l1 : Near (FloatLike.lit 986 1 : Fl M) 98.6 99 (1 / 10 ^ 12) := by
        have := Near.lit (M := M) 986 1
        have e : (FloatLike.lit 986 1 : ℝ) = 98.6 := by show ((986 : ℤ) : ℝ) / 10 ^ 1 = _; norm_num
        rw [e] at this
        exact this.mono (by norm_num) (by norm_num)
      have n4 := (int_near (M := M) 2128 (m := 2128) (by norm_num) (by norm_num)).sub (Near.self y (m := 5015) (by rw [abs_le]; constructor <;> linarith))
      have n5 : Near (int 2128 - y) (((2128 : ℤ) : ℝ) - y.v) 100 (1 / 10 ^ 11) := ⟨n4.1.trans (by norm_num), by push_cast; rw [abs_le]; constructor <;> linarith⟩
      have n6 := ((n3.sub l1).mul n5).mono (m' := 30000) (e' := 1 / 10 ^ 3) (by norm_num) (by norm_num)
      have n7 := (n6.div (int_near (M := M) 100 (m := 100) (by norm_num) (by norm_num)) (l := 100) (by norm_num) (by norm_num)).mono (m' := 300) (e' := 2 / 10 ^ 5) (by norm_num) (by norm_num)
      have n8 := (n1.sub n7).1
      push_cast at n8
      exact n8.trans (by norm_num)

/-- over less than 1.2 years the correction changes by less than 150 seconds -/
theorem calc_change {y y' : Fl M} (h0 : 1960 ≤ (y.v : ℝ)) (h1 : (y.v : ℝ) ≤ 5015) (h0' : 1960 ≤ (y'.v : ℝ)) (h1' : (y'.v : ℝ) ≤ 5015)
    (h : (y.v : ℝ) ≤ y'.v) (h' : (y'.v : ℝ) ≤ y.v + 1.2) : |((dtCalc y' : Fl M).v : ℝ) - (dtCalc y : Fl M).v| ≤ 150 := by
  have a := calc_near h0 h1
  have a' := calc_near h0' h1'
  have c28 : ext 2028 = 114.1184 := by unfold ext; norm_num
  have hext : ∀ {u u' : ℝ}, 2028 ≤ u → u ≤ u' → u' ≤ u + 1.2 → u' ≤ 5015 → |after u' - after u| ≤ 40 := by
    intro u u' p1 p2 p3 p4
    have d : |ext u' - ext u| ≤ 24 := by
      have e : ext u' - ext u = 31 / 10000 * ((u' - u) * (u' + u - 3640)) := by unfold ext; ring
      have h1 : 0 ≤ (u' - u) * (u' + u - 3640) := mul_nonneg (by linarith) (by linarith)
      have h2 : (u' - u) * (u' + u - 3640) ≤ 1.2 * 6390 := mul_le_mul (by linarith) (by linarith) (by linarith) (by norm_num)
      rw [e, abs_of_nonneg (by linarith)]
      linarith
    have d := abs_le.1 d
    unfold after
    rw [c28]
    by_cases q : 2128 < u
    · rw [if_pos q, if_pos (by linarith)]
      rw [abs_le]; constructor <;> linarith
    · rw [if_neg q]
      by_cases q' : 2128 < u'
      · rw [if_pos q']
        rw [abs_le]; constructor <;> linarith
      · rw [if_neg q']
        rw [abs_le]; constructor <;> linarith
  by_cases c : (y'.v : ℝ) < 2028
  · have := a.1 (by linarith)
    have := a'.1 c
    rw [abs_le]; constructor <;> linarith
  · push Not at c
    have r' := abs_le.1 (a'.2 c)
    by_cases d : (y.v : ℝ) < 2028
    · have r := a.1 d
      have q := abs_le.1 (hext (u := 2028) (u' := y'.v) le_rfl c (by linarith) h1')
      have z : after 2028 = 98.6 := by
        unfold after
        rw [if_neg (by norm_num), c28]; norm_num
      rw [z] at q
      rw [abs_le]; constructor <;> linarith
    · push Not at d
      have r := abs_le.1 (a.2 d)
      have q := abs_le.1 (hext d h h' h1')
      rw [abs_le]; constructor <;> linarith

/-- the size of the correction -/
theorem calc_le {y : Fl M} (h0 : 1960 ≤ (y.v : ℝ)) (h1 : (y.v : ℝ) ≤ 5015) : |((dtCalc y : Fl M).v : ℝ)| ≤ 32500 := by
  have a := calc_near h0 h1
  by_cases c : (y.v : ℝ) < 2028
  · have := a.1 c
    rw [abs_le]; constructor <;> linarith
  · push Not at c
    have r := abs_le.1 (a.2 c)
    have e : |ext y.v| ≤ 32000 := (ext_near h0 h1).2
    have e := abs_le.1 e
    have c28 : ext 2028 = 114.1184 := by unfold ext; norm_num
    unfold after at r
    rw [c28] at r
    by_cases q : 2128 < (y.v : ℝ)
    · rw [if_pos q] at r
      rw [abs_le]; constructor <;> linarith
    · rw [if_neg q] at r
      rw [abs_le]; constructor <;> linarith

/-- the year `dtT` computes -/
theorem year_near {x : Fl M} (h : |(x.v : ℝ)| ≤ 1100000) : |((x / FloatLike.lit 3652425 4 + int 2000 : Fl M).v : ℝ) - ((x.v : ℝ) * 10000 / 3652425 + 2000)| ≤ 1 / 10 ^ 9 := by
  have e0 : (x.v : ℝ) * 10000 / 3652425 = (x.v : ℝ) / 365.2425 := by norm_num; ring
  rw [e0]
  have e : (FloatLike.lit 3652425 4 : ℝ) = 365.2425 := by show ((3652425 : ℤ) : ℝ) / 10 ^ 4 = _; norm_num
  have n := (Near.self x h).div_lit 3652425 4 365 (by norm_num) (by norm_num)
  rw [e] at n
  have n2 := ((n.mono (m' := 3100) (e' := 1 / 10 ^ 11) (by norm_num) (by norm_num)).add (int_near (M := M) 2000 (m := 2000) (by norm_num) (by norm_num))).1
  push_cast at n2
  exact n2.trans (by norm_num)

theorem dtT_le {x : Fl M} (h0 : -14540 ≤ (x.v : ℝ)) (h1 : (x.v : ℝ) ≤ 1100000) : |((dtT x : Fl M).v : ℝ)| ≤ 0.38 := by
  have y := abs_le.1 (year_near (x := x) (by rw [abs_le]; constructor <;> linarith))
  have c := calc_le (y := (x / FloatLike.lit 3652425 4 + int 2000 : Fl M)) (by linarith) (by linarith)
  have n := ((Near.self _ c).div (int_near (M := M) 86400 (m := 86400) (by norm_num) (by norm_num)) (l := 86400) (by norm_num) (by norm_num)).v_le
  exact n.trans (by norm_num)

theorem dtT_change {x x' : Fl M} (h0 : -14540 ≤ (x.v : ℝ)) (h : (x.v : ℝ) + 1 ≤ x'.v) (h' : (x'.v : ℝ) ≤ x.v + 400) (h1 : (x'.v : ℝ) ≤ 1100000) :
    |((dtT x' : Fl M).v : ℝ) - (dtT x : Fl M).v| ≤ 0.0018 := by
  have y := abs_le.1 (year_near (x := x) (by rw [abs_le]; constructor <;> linarith))
  have y' := abs_le.1 (year_near (x := x') (by rw [abs_le]; constructor <;> linarith))
  have c := calc_le (y := (x / FloatLike.lit 3652425 4 + int 2000 : Fl M)) (by linarith) (by linarith)
  have c' := calc_le (y := (x' / FloatLike.lit 3652425 4 + int 2000 : Fl M)) (by linarith) (by linarith)
  have d := abs_le.1 (calc_change (y := (x / FloatLike.lit 3652425 4 + int 2000 : Fl M)) (y' := (x' / FloatLike.lit 3652425 4 + int 2000 : Fl M))
    (by linarith) (by linarith) (by linarith) (by linarith) (by linarith) (by linarith))
  have n := abs_le.1 ((Near.self _ c).div (int_near (M := M) 86400 (m := 86400) (by norm_num) (by norm_num)) (l := 86400) (by norm_num) (by norm_num)).1
  have n' := abs_le.1 ((Near.self _ c').div (int_near (M := M) 86400 (m := 86400) (by norm_num) (by norm_num)) (l := 86400) (by norm_num) (by norm_num)).1
  have e : (dtT x : Fl M) = dtCalc (x / FloatLike.lit 3652425 4 + int 2000) / int 86400 := rfl
  have e' : (dtT x' : Fl M) = dtCalc (x' / FloatLike.lit 3652425 4 + int 2000) / int 86400 := rfl
  rw [e, e']
  push_cast at n n'
  rw [abs_le]; constructor <;> linarith

end Lunation
