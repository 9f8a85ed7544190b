import Verif.Proof.Lunation.Delta

/-! # The correction `dtT` at times less than a day apart -/

open ShouXing F64

namespace SunDay
open Lunation (rowOk chained table_ok int_near sel_fl mul_le calc_near calc_le year_near after ext)
variable {M : Libm}

/-- the value of a row of the table -/
noncomputable def rowR (r : ℤ × ℤ × ℤ × ℤ × ℤ × ℤ) (u : ℝ) : ℝ := (r.2.1 : ℝ) / 100 + ((r.2.2.1 : ℝ) * u + r.2.2.2.1 * (u * u) + r.2.2.2.2.1 * (u * u * u)) / 10

/-- the place of a year in a row -/
noncomputable def place (r : ℤ × ℤ × ℤ × ℤ × ℤ × ℤ) (y : ℝ) : ℝ := (y - r.1) / (r.2.2.2.2.2 - r.1)

theorem row_val {y : Fl M} {r : ℤ × ℤ × ℤ × ℤ × ℤ × ℤ} (hr : rowOk r = true) (h0 : 1960 ≤ (y.v : ℝ)) (h1 : (r.1 : ℝ) ≤ y.v) (hy : (y.v : ℝ) < r.2.2.2.2.2) :
    |((dtRow y r : Fl M).v : ℝ) - rowR r (place r y.v)| ≤ 0.0013 ∧ 0 ≤ place r y.v ∧ place r y.v ≤ 1 ∧ (r.1 : ℝ) + 3 ≤ r.2.2.2.2.2 ∧
    |(r.2.2.1 : ℝ)| + |(r.2.2.2.1 : ℝ)| + |(r.2.2.2.2.1 : ℝ)| ≤ 400 := by
  obtain ⟨y0, a, b, c, d, y1⟩ := r
  simp only [rowOk, Bool.or_eq_true, Bool.and_eq_true, decide_eq_true_eq] at hr
  simp only at h1 hy
  rcases hr with hr | ⟨⟨⟨⟨⟨⟨⟨q1, q2⟩, q3⟩, q4⟩, q5⟩, q6⟩, q7⟩, q8⟩
  · have : (y1 : ℝ) ≤ 1960 := by exact_mod_cast hr
    linarith
  have q1' : (1960 : ℝ) ≤ y0 := by exact_mod_cast q1
  have q2' : (y0 : ℝ) + 3 ≤ y1 := by exact_mod_cast q2
  have q3' : (y1 : ℝ) ≤ y0 + 20 := by exact_mod_cast q3
  have q4' : (y1 : ℝ) ≤ 2028 := by exact_mod_cast q4
  have q7' : |(b : ℝ)| + |(c : ℝ)| + |(d : ℝ)| ≤ 400 := by exact_mod_cast q7
  have q8' : |(a : ℝ)| ≤ 8400 := by exact_mod_cast q8
  clear q5 q6 q7 q8
  have nb := abs_nonneg (b : ℝ)
  have nc := abs_nonneg (c : ℝ)
  have nd := abs_nonneg (d : ℝ)
  have n0 := (Near.self y (m := 2028) (by rw [abs_le]; constructor <;> linarith)).sub
    (int_near (M := M) y0 (m := 2028) (by rw [abs_le]; constructor <;> linarith) (by rw [abs_le]; constructor <;> linarith))
  have n1 : Near (y - int y0) ((y.v : ℝ) - y0) 20 (1 / 10 ^ 11) := ⟨n0.1.trans (by norm_num), by rw [abs_le]; constructor <;> linarith⟩
  have n2 : Near (int (y1 - y0) : Fl M) ((y1 : ℝ) - y0) 20 0 := by
    have := int_near (M := M) (y1 - y0) (m := 20) (by push_cast; rw [abs_le]; constructor <;> linarith) (by rw [abs_le]; constructor <;> linarith)
    push_cast at this
    exact this
  have n3 := (n1.div n2 (l := 3) (by norm_num) (by linarith)).mono (m' := 7) (e' := 1 / 10 ^ 11) (by norm_num) (by norm_num)
  obtain ⟨u, hu⟩ : ∃ u : ℝ, u = ((y.v : ℝ) - y0) / (y1 - y0) := ⟨_, rfl⟩
  have u0 : 0 ≤ u := by rw [hu]; exact div_nonneg (by linarith) (by linarith)
  have u1 : u ≤ 1 := by rw [hu]; exact div_le_one_of_le₀ (by linarith) (by linarith)
  have hp : place (y0, a, b, c, d, y1) y.v = u := by rw [hu]; rfl
  rw [hp]
  rw [← hu] at n3
  have ua : |u| ≤ 1 := by rw [abs_le]; constructor <;> linarith
  have n4 : Near ((y - int y0) / int (y1 - y0)) u 1 (1 / 10 ^ 11) := ⟨n3.1, ua⟩
  have n5 := (n4.mul (int_near (M := M) 10 (m := 10) (by norm_num) (by norm_num))).mono (m' := 10) (e' := 1 / 10 ^ 9) (by norm_num) (by norm_num)
  have n6 := (n5.mul n5).mono (m' := 100) (e' := 1 / 10 ^ 7) (by norm_num) (by norm_num)
  have n7 := (n6.mul n5).mono (m' := 1000) (e' := 1 / 10 ^ 5) (by norm_num) (by norm_num)
  have la := (Near.lit (M := M) a 2).mono (m' := 84) (e' := 1 / 10 ^ 10) (by linarith) (by linarith)
  have lb := (Near.lit (M := M) b 2).mono (m' := 4) (e' := 1 / 10 ^ 10) (by linarith) (by linarith)
  have lc := (Near.lit (M := M) c 3).mono (m' := 4) (e' := 1 / 10 ^ 10) (by linarith) (by linarith)
  have ld := (Near.lit (M := M) d 4).mono (m' := 4) (e' := 1 / 10 ^ 10) (by linarith) (by linarith)
  have f := ((((la.add (lb.mul n5)).mono (m' := 1000) (e' := 1 / 10 ^ 4) (by norm_num) (by norm_num)).add
    ((lc.mul n6).mono (m' := 1000) (e' := 1 / 10 ^ 4) (by norm_num) (by norm_num))).add
    ((ld.mul n7).mono (m' := 10000) (e' := 1 / 10 ^ 3) (by norm_num) (by norm_num))).1
  have hrow : dtRow y (y0, a, b, c, d, y1) = FloatLike.lit a 2 + FloatLike.lit b 2 * ((y - int y0) / int (y1 - y0) * int 10) +
      FloatLike.lit c 3 * ((y - int y0) / int (y1 - y0) * int 10 * ((y - int y0) / int (y1 - y0) * int 10)) +
      FloatLike.lit d 4 * ((y - int y0) / int (y1 - y0) * int 10 * ((y - int y0) / int (y1 - y0) * int 10) * ((y - int y0) / int (y1 - y0) * int 10)) := rfl
  have e1 : ∀ (k : ℤ) (j : ℕ), (FloatLike.lit k j : ℝ) = (k : ℝ) / 10 ^ j := fun _ _ => rfl
  rw [e1, e1, e1, e1] at f
  refine ⟨?_, u0, u1, q2', q7'⟩
  rw [hrow]
  have e2 : (a : ℝ) / 10 ^ 2 + (b : ℝ) / 10 ^ 2 * (u * ((10 : ℤ) : ℝ)) + (c : ℝ) / 10 ^ 3 * (u * ((10 : ℤ) : ℝ) * (u * ((10 : ℤ) : ℝ))) +
      (d : ℝ) / 10 ^ 4 * (u * ((10 : ℤ) : ℝ) * (u * ((10 : ℤ) : ℝ)) * (u * ((10 : ℤ) : ℝ))) = rowR (y0, a, b, c, d, y1) u := by
    unfold rowR
    push_cast
    ring
  rw [e2] at f
  exact f.trans (by norm_num)

theorem rowR_lip {r : ℤ × ℤ × ℤ × ℤ × ℤ × ℤ} (h : |(r.2.2.1 : ℝ)| + |(r.2.2.2.1 : ℝ)| + |(r.2.2.2.2.1 : ℝ)| ≤ 400) {u u' e : ℝ} (h0 : 0 ≤ u) (h1 : u ≤ 1) (h0' : 0 ≤ u') (h1' : u' ≤ 1)
    (he : |u' - u| ≤ e) : |rowR r u' - rowR r u| ≤ 120 * e := by
  obtain ⟨y0, a, b, c, d, y1⟩ := r
  simp only at h
  have k : rowR (y0, a, b, c, d, y1) u' - rowR (y0, a, b, c, d, y1) u = ((b : ℝ) * 1 + c * (u' + u) + d * (u' * u' + u' * u + u * u)) / 10 * (u' - u) := by
    unfold rowR; ring
  have k1 : |u' + u| ≤ 3 := by rw [abs_le]; constructor <;> linarith
  have k2 : |u' * u' + u' * u + u * u| ≤ 3 := by
    have a1 := mul_nonneg h0' h0'; have a2 := mul_nonneg h0' h0; have a3 := mul_nonneg h0 h0
    have b1 := mul_le_mul h1' h1' h0' zero_le_one; have b2 := mul_le_mul h1' h1 h0 zero_le_one; have b3 := mul_le_mul h1 h1 h0 zero_le_one
    rw [abs_le]; constructor <;> linarith
  have m1 := mul_le (le_refl |(c : ℝ)|) k1
  have m2 := mul_le (le_refl |(d : ℝ)|) k2
  have m0 := abs_nonneg (b : ℝ)
  have s : |((b : ℝ) * 1 + c * (u' + u) + d * (u' * u' + u' * u + u * u)) / 10| ≤ 120 := by
    rw [abs_div, abs_of_pos (by norm_num : (0 : ℝ) < 10), div_le_iff₀ (by norm_num), mul_one]
    have t1 := abs_add_le ((b : ℝ) + c * (u' + u)) (d * (u' * u' + u' * u + u * u))
    have t2 := abs_add_le (b : ℝ) (c * (u' + u))
    linarith
  rw [k]
  exact mul_le s he

/-- the end of each row from 1960 on is near the start of the next -/
def joined : List (ℤ × ℤ × ℤ × ℤ × ℤ × ℤ) → Bool
  | r :: s :: l => (decide (r.2.2.2.2.2 ≤ 1960) || decide (|r.2.1 + 10 * (r.2.2.1 + r.2.2.2.1 + r.2.2.2.2.1) - s.2.1| ≤ 470 ∧ s.1 + 3 ≤ s.2.2.2.2.2)) && joined (s :: l)
  | _ => true

theorem table_joined : joined DT_AT = true := by decide +kernel

theorem place_le {r : ℤ × ℤ × ℤ × ℤ × ℤ × ℤ} (h : (r.1 : ℝ) + 3 ≤ r.2.2.2.2.2) {y y' : ℝ} (hy : |y' - y| ≤ 0.0025) : |place r y' - place r y| ≤ 0.00084 := by
  have k : place r y' - place r y = (y' - y) / (r.2.2.2.2.2 - r.1) := by unfold place; rw [← sub_div]; ring_nf
  have p : (0 : ℝ) < r.2.2.2.2.2 - r.1 := by linarith
  rw [k, abs_div, abs_of_pos p, div_le_iff₀ p]
  have := mul_le_mul_of_nonneg_left (show (3 : ℝ) ≤ r.2.2.2.2.2 - r.1 by linarith) (by norm_num : (0 : ℝ) ≤ 0.00084)
  linarith

theorem head_eq {y : Fl M} {s : ℤ × ℤ × ℤ × ℤ × ℤ × ℤ} {l : List (ℤ × ℤ × ℤ × ℤ × ℤ × ℤ)} (hs : |s.2.2.2.2.2| ≤ 10000) (h : (y.v : ℝ) < s.2.2.2.2.2) : dtRows y (s :: l) = dtRow y s := by
  cases l with
  | nil => rfl
  | cons r l =>
    have e : dtRows y (s :: r :: l) = FloatLike.sel y (int s.2.2.2.2.2) (dtRow y s) (dtRows y (r :: l)) := rfl
    rw [e, sel_fl, Block.int_v M (hs.trans (by norm_num)), if_pos (by exact_mod_cast h)]

theorem rows_close {y y' : Fl M} (h0 : 1960 ≤ (y.v : ℝ)) (h : (y.v : ℝ) ≤ y'.v) (h' : (y'.v : ℝ) ≤ y.v + 0.0025) (h2 : (y'.v : ℝ) < 2028) :
    ∀ (l : List (ℤ × ℤ × ℤ × ℤ × ℤ × ℤ)) (r : ℤ × ℤ × ℤ × ℤ × ℤ × ℤ),
    (r :: l).all rowOk = true → chained (r :: l) = true → joined (r :: l) = true → (∀ s ∈ r :: l, |s.2.2.2.2.2| ≤ 10000) → (r.1 : ℝ) ≤ y.v →
    ((r :: l).getLast (by simp)).2.2.2.2.2 = 2028 → |((dtRows y' (r :: l) : Fl M).v : ℝ) - (dtRows y (r :: l) : Fl M).v| ≤ 5
  | [], r, ha, _, _, hb, h1, he => by
    simp only [List.getLast_singleton] at he
    simp only [List.all_cons, List.all_nil, Bool.and_true] at ha
    have e : (r.2.2.2.2.2 : ℝ) = 2028 := by exact_mod_cast he
    have v := row_val ha h0 h1 (by linarith)
    have v' := row_val (y := y') ha (by linarith) (by linarith) (by linarith)
    have p := place_le v.2.2.2.1 (y := y.v) (y' := y'.v) (by rw [abs_le]; constructor <;> linarith)
    have q := abs_le.1 (rowR_lip v.2.2.2.2 v.2.1 v.2.2.1 v'.2.1 v'.2.2.1 p)
    have w := abs_le.1 v.1
    have w' := abs_le.1 v'.1
    show |((dtRow y' r : Fl M).v : ℝ) - (dtRow y r : Fl M).v| ≤ 5
    rw [abs_le]; constructor <;> linarith
  | s :: l, r, ha, hc, hj, hb, h1, he => by
    simp only [chained, Bool.and_eq_true, decide_eq_true_eq] at hc
    simp only [joined, Bool.and_eq_true, Bool.or_eq_true, decide_eq_true_eq] at hj
    rw [List.all_cons, Bool.and_eq_true] at ha
    have hb0 := hb r (by simp)
    by_cases c : (y.v : ℝ) < r.2.2.2.2.2
    · rw [head_eq hb0 c]
      have v := row_val ha.1 h0 h1 c
      have w := abs_le.1 v.1
      by_cases c' : (y'.v : ℝ) < r.2.2.2.2.2
      · rw [head_eq hb0 c']
        have v' := row_val (y := y') ha.1 (by linarith) (by linarith) c'
        have p := place_le v.2.2.2.1 (y := y.v) (y' := y'.v) (by rw [abs_le]; constructor <;> linarith)
        have q := abs_le.1 (rowR_lip v.2.2.2.2 v.2.1 v.2.2.1 v'.2.1 v'.2.2.1 p)
        have w' := abs_le.1 v'.1
        rw [abs_le]; constructor <;> linarith
      · push Not at c'
        have e : dtRows y' (r :: s :: l) = dtRows y' (s :: l) := by
          have e : dtRows y' (r :: s :: l) = FloatLike.sel y' (int r.2.2.2.2.2) (dtRow y' r) (dtRows y' (s :: l)) := rfl
          rw [e, sel_fl, Block.int_v M (hb0.trans (by norm_num)), if_neg (by push Not; exact_mod_cast c')]
        rw [e]
        have hs := ha.2
        rw [List.all_cons, Bool.and_eq_true] at hs
        have e1 : (r.2.2.2.2.2 : ℝ) = s.1 := by exact_mod_cast hc.1
        have j : |r.2.1 + 10 * (r.2.2.1 + r.2.2.2.1 + r.2.2.2.2.1) - s.2.1| ≤ 470 ∧ s.1 + 3 ≤ s.2.2.2.2.2 := by
          rcases hj.1 with j | j
          · exfalso
            have : (r.2.2.2.2.2 : ℝ) ≤ 1960 := by exact_mod_cast j
            linarith
          · exact j
        have s3 : (s.1 : ℝ) + 3 ≤ s.2.2.2.2.2 := by exact_mod_cast j.2
        have c2 : (y'.v : ℝ) < s.2.2.2.2.2 := by linarith
        rw [head_eq (hb s (by simp)) c2]
        have v' := row_val (y := y') hs.1 (by linarith) (by linarith) c2
        have w' := abs_le.1 v'.1
        have p := place_le v.2.2.2.1 (y := y.v) (y' := r.2.2.2.2.2) (by rw [abs_le]; constructor <;> linarith)
        have p1 : place r r.2.2.2.2.2 = 1 := by unfold place; exact div_self (by linarith [v.2.2.2.1])
        rw [p1] at p
        have q := abs_le.1 (rowR_lip v.2.2.2.2 v.2.1 v.2.2.1 zero_le_one le_rfl p)
        have p' := place_le v'.2.2.2.1 (y := s.1) (y' := y'.v) (by rw [abs_le]; constructor <;> linarith)
        have p2 : place s s.1 = 0 := by unfold place; rw [sub_self, zero_div]
        rw [p2] at p'
        have q' := abs_le.1 (rowR_lip v'.2.2.2.2 le_rfl zero_le_one v'.2.1 v'.2.2.1 p')
        have j : |(r.2.1 : ℝ) + 10 * (r.2.2.1 + r.2.2.2.1 + r.2.2.2.2.1) - s.2.1| ≤ 470 := by exact_mod_cast j.1
        have j := abs_le.1 j
        have r1 : rowR r 1 = ((r.2.1 : ℝ) + 10 * (r.2.2.1 + r.2.2.2.1 + r.2.2.2.2.1)) / 100 := by unfold rowR; ring
        have r2 : rowR s 0 = (s.2.1 : ℝ) / 100 := by unfold rowR; ring
        rw [r1] at q
        rw [r2] at q'
        rw [abs_le]; constructor <;> linarith
    · have c' : ¬(y'.v : ℝ) < r.2.2.2.2.2 := by push Not at c ⊢; linarith
      push Not at c c'
      have e : ∀ z : Fl M, (r.2.2.2.2.2 : ℝ) ≤ z.v → dtRows z (r :: s :: l) = dtRows z (s :: l) := by
        intro z hz
        have e : dtRows z (r :: s :: l) = FloatLike.sel z (int r.2.2.2.2.2) (dtRow z r) (dtRows z (s :: l)) := rfl
        rw [e, sel_fl, Block.int_v M (hb0.trans (by norm_num)), if_neg (by push Not; exact_mod_cast hz)]
      rw [e y c, e y' c']
      refine rows_close h0 h h' h2 l s ha.2 hc.2 hj.2 (fun x hx => hb x (by simp only [List.mem_cons] at hx ⊢; tauto)) (by rw [← hc.1]; exact c) ?_
      rw [List.getLast_cons (by simp)] at he
      exact he

theorem rows_last {y : Fl M} : ∀ (l : List (ℤ × ℤ × ℤ × ℤ × ℤ × ℤ)) (r : ℤ × ℤ × ℤ × ℤ × ℤ × ℤ), (∀ s ∈ r :: l, |s.2.2.2.2.2| ≤ 10000) →
    (∀ s ∈ (r :: l).dropLast, (s.2.2.2.2.2 : ℝ) ≤ y.v) → dtRows y (r :: l) = dtRow y ((r :: l).getLast (by simp))
  | [], _, _, _ => rfl
  | s :: l, r, hb, h => by
    have e : dtRows y (r :: s :: l) = FloatLike.sel y (int r.2.2.2.2.2) (dtRow y r) (dtRows y (s :: l)) := rfl
    have c : (r.2.2.2.2.2 : ℝ) ≤ y.v := h r (by simp)
    rw [e, sel_fl, Block.int_v M ((hb r (by simp)).trans (by norm_num)), if_neg (by push Not; exact_mod_cast c), List.getLast_cons (by simp)]
    exact rows_last l s (fun x hx => hb x (by simp only [List.mem_cons] at hx ⊢; tauto))
      (fun x hx => h x (by rw [List.dropLast_cons_of_ne_nil (by simp)]; exact List.mem_cons_of_mem _ hx))

theorem last_end {y : Fl M} (h0 : 2027 ≤ (y.v : ℝ)) (h : (y.v : ℝ) < 2028) (h' : 2028 ≤ (y.v : ℝ) + 0.0025) :
    |((dtRows y DT_AT : Fl M).v : ℝ) - 88.6| ≤ 0.11 := by
  have hb : ∀ s ∈ DT_AT, |s.2.2.2.2.2| ≤ 10000 := by decide +kernel
  have hd : ∀ s ∈ DT_AT.dropLast, s.2.2.2.2.2 ≤ 2027 := by decide +kernel
  have e : dtRows y DT_AT = dtRow y (DT_AT.getLast (by decide)) := by
    refine rows_last _ _ hb fun s hs => ?_
    have : (s.2.2.2.2.2 : ℝ) ≤ 2027 := by exact_mod_cast hd s hs
    linarith
  rw [e]
  obtain ⟨r, hr⟩ : ∃ r, r = DT_AT.getLast (by decide) := ⟨_, rfl⟩
  rw [← hr]
  have k : rowOk r = true ∧ r.1 ≤ 2027 ∧ r.2.2.2.2.2 = 2028 ∧ r.2.1 + 10 * (r.2.2.1 + r.2.2.2.1 + r.2.2.2.2.1) = 8860 := by rw [hr]; decide +kernel
  have k2 : (r.1 : ℝ) ≤ 2027 := by exact_mod_cast k.2.1
  have k3 : (r.2.2.2.2.2 : ℝ) = 2028 := by exact_mod_cast k.2.2.1
  have k4 : (r.2.1 : ℝ) + 10 * (r.2.2.1 + r.2.2.2.1 + r.2.2.2.2.1) = 8860 := by exact_mod_cast k.2.2.2
  have v := row_val k.1 (y := y) (by linarith) (by linarith) (by linarith)
  have w := abs_le.1 v.1
  have p := place_le v.2.2.2.1 (y := y.v) (y' := r.2.2.2.2.2) (by rw [abs_le]; constructor <;> linarith)
  have p1 : place r r.2.2.2.2.2 = 1 := by unfold place; exact div_self (by linarith [v.2.2.2.1])
  rw [p1] at p
  have q := abs_le.1 (rowR_lip v.2.2.2.2 v.2.1 v.2.2.1 zero_le_one le_rfl p)
  have r1 : rowR r 1 = ((r.2.1 : ℝ) + 10 * (r.2.2.1 + r.2.2.2.1 + r.2.2.2.2.1)) / 100 := by unfold rowR; ring
  rw [r1, k4] at q
  rw [abs_le]; constructor <;> linarith

theorem calc_close {y y' : Fl M} (h0 : 1960 ≤ (y.v : ℝ)) (h1 : (y'.v : ℝ) ≤ 5015) (h : (y.v : ℝ) ≤ y'.v) (h' : (y'.v : ℝ) ≤ y.v + 0.0025) :
    |((dtCalc y' : Fl M).v : ℝ) - (dtCalc y : Fl M).v| ≤ 10.3 := by
  have a := calc_near h0 (by linarith : (y.v : ℝ) ≤ 5015)
  have a' := calc_near (by linarith : 1960 ≤ (y'.v : ℝ)) h1
  have c28 : ext 2028 = 114.1184 := by unfold ext; norm_num
  have hext : ∀ {u u' : ℝ}, 2028 ≤ u → u ≤ u' → u' ≤ u + 0.0025 → u' ≤ 5015 → |after u' - after u| ≤ 0.06 := by
    intro u u' p1 p2 p3 p4
    have d : |ext u' - ext u| ≤ 0.05 := by
      have e : ext u' - ext u = 31 / 10000 * ((u' - u) * (u' + u - 3640)) := by unfold ext; ring
      have h1 : 0 ≤ (u' - u) * (u' + u - 3640) := mul_nonneg (by linarith) (by linarith)
      have h2 : (u' - u) * (u' + u - 3640) ≤ 0.0025 * 6390 := mul_le_mul (by linarith) (by linarith) (by linarith) (by norm_num)
      rw [e, abs_of_nonneg (by linarith)]
      linarith
    have d := abs_le.1 d
    unfold after
    rw [c28]
    by_cases q : 2128 < u
    · rw [if_pos q, if_pos (by linarith)]
      rw [abs_le]; constructor <;> linarith
    · rw [if_neg q]
      by_cases q' : 2128 < u'
      · rw [if_pos q']
        rw [abs_le]; constructor <;> linarith
      · rw [if_neg q']
        rw [abs_le]; constructor <;> linarith
  have tab : ∀ z : Fl M, (z.v : ℝ) < 2028 → dtCalc z = dtRows z DT_AT := by
    intro z hz
    have e : dtCalc z = FloatLike.sel z (int 2028) (dtRows z DT_AT) (FloatLike.sel (int 2128) z (dtExt z 31)
      (dtExt z 31 - (dtExt (int 2028) 31 - FloatLike.lit 986 1) * (int 2128 - z) / int 100)) := rfl
    rw [e, sel_fl, Block.int_v M (by norm_num), if_pos (by exact_mod_cast hz)]
  by_cases c : (y'.v : ℝ) < 2028
  · rw [tab y (by linarith), tab y' c]
    have hb : ∀ s ∈ DT_AT, |s.2.2.2.2.2| ≤ 10000 := by decide +kernel
    have hs : (DT_AT.head (by decide)).1 ≤ 1960 := by decide +kernel
    have hs' : ((DT_AT.head (by decide)).1 : ℝ) ≤ 1960 := by exact_mod_cast hs
    exact (rows_close h0 h h' c _ _ table_ok.1 table_ok.2 table_joined hb (hs'.trans h0) (by decide +kernel)).trans (by norm_num)
  · push Not at c
    have r' := abs_le.1 (a'.2 c)
    by_cases d : (y.v : ℝ) < 2028
    · rw [tab y d]
      have r := abs_le.1 (last_end (y := y) (by linarith) d (by linarith))
      have q := abs_le.1 (hext (u := 2028) (u' := y'.v) le_rfl c (by linarith) h1)
      have z : after 2028 = 98.6 := by
        unfold after
        rw [if_neg (by norm_num), c28]; norm_num
      rw [z] at q
      rw [abs_le]; constructor <;> linarith
    · push Not at d
      have r := abs_le.1 (a.2 d)
      have q := abs_le.1 (hext d h h' h1)
      rw [abs_le]; constructor <;> linarith

/-- within 0.8 days the correction `dtT` changes by 10.4 seconds at most -/
theorem dtT_close {x x' : Fl M} (h0 : -14540 ≤ (x.v : ℝ)) (h0' : -14540 ≤ (x'.v : ℝ)) (h1 : (x.v : ℝ) ≤ 1100000) (h1' : (x'.v : ℝ) ≤ 1100000) (h : |(x'.v : ℝ) - x.v| ≤ 0.8) :
    |((dtT x' : Fl M).v : ℝ) - (dtT x : Fl M).v| ≤ 10.4 / 86400 := by
  have h := abs_le.1 h
  have y := abs_le.1 (year_near (x := x) (by rw [abs_le]; constructor <;> linarith))
  have y' := abs_le.1 (year_near (x := x') (by rw [abs_le]; constructor <;> linarith))
  have c := calc_le (y := (x / FloatLike.lit 3652425 4 + int 2000 : Fl M)) (by linarith) (by linarith)
  have c' := calc_le (y := (x' / FloatLike.lit 3652425 4 + int 2000 : Fl M)) (by linarith) (by linarith)
  have d : |((dtCalc (x' / FloatLike.lit 3652425 4 + int 2000 : Fl M) : Fl M).v : ℝ) - (dtCalc (x / FloatLike.lit 3652425 4 + int 2000 : Fl M) : Fl M).v| ≤ 10.3 := by
    rcases le_total ((x / FloatLike.lit 3652425 4 + int 2000 : Fl M).v : ℝ) ((x' / FloatLike.lit 3652425 4 + int 2000 : Fl M).v : ℝ) with k | k
    · exact calc_close (by linarith) (by linarith) k (by linarith)
    · rw [abs_sub_comm]
      exact calc_close (by linarith) (by linarith) k (by linarith)
  have d := abs_le.1 d
  have n := abs_le.1 ((Near.self _ c).div (int_near (M := M) 86400 (m := 86400) (by norm_num) (by norm_num)) (l := 86400) (by norm_num) (by norm_num)).1
  have n' := abs_le.1 ((Near.self _ c').div (int_near (M := M) 86400 (m := 86400) (by norm_num) (by norm_num)) (l := 86400) (by norm_num) (by norm_num)).1
  have e : (dtT x : Fl M) = dtCalc (x / FloatLike.lit 3652425 4 + int 2000) / int 86400 := rfl
  have e' : (dtT x' : Fl M) = dtCalc (x' / FloatLike.lit 3652425 4 + int 2000) / int 86400 := rfl
  rw [e, e']
  push_cast at n n'
  rw [abs_le]; constructor <;> linarith

end SunDay
