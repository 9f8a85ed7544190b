import Verif.Proof.Lunation.Near

/-! # The sums over the rows are near their values on real numbers -/

open ShouXing F64

namespace Near
variable {M : Libm}

/-- sum of the numbers `f x` -/
def ampl {ι : Type} (f : ι → ℤ) (l : List ι) : ℤ := (l.map fun x => |f x|).sum

theorem ampl_nonneg {ι : Type} (f : ι → ℤ) (l : List ι) : 0 ≤ ampl f l := by
  refine List.sum_nonneg fun x hx => ?_
  obtain ⟨y, _, rfl⟩ := List.mem_map.1 hx
  exact abs_nonneg _

theorem ampl_take {ι : Type} (f : ι → ℤ) (l : List ι) (j : ℕ) : ampl f (l.take j) ≤ ampl f l := by
  have h := List.take_append_drop j l
  have : ampl f l = ampl f (l.take j) + ampl f (l.drop j) := by
    conv_lhs => rw [← h]
    simp [ampl]
  rw [this]
  linarith [ampl_nonneg f (l.drop j)]

theorem sum_near {ι : Type} (l : List ι) (hl : l.length ≤ 442) (τ : ι → ℚ) (I : ι → ℝ) (f : ι → ℤ) {D c : ℝ} (hD : 0 < D) (hc : c ≤ 1 / 10)
    (hc0 : 0 ≤ c) (h : ∀ x ∈ l, |(τ x : ℝ) - I x| ≤ |(f x : ℝ)| / D * c ∧ |I x| ≤ |(f x : ℝ)| / D) :
    |(((l.map τ).foldl F64.add 0 : ℚ) : ℝ) - (l.map I).sum| ≤ ampl f l / D * (c + 1 / 10 ^ 12) ∧ |(l.map I).sum| ≤ ampl f l / D := by
  have key : |((l.map τ).sum : ℝ) - (l.map I).sum| ≤ ampl f l / D * c ∧ |(l.map I).sum| ≤ ampl f l / D ∧
      (((l.map τ).map abs).sum : ℝ) ≤ ampl f l / D * (1 + c) := by
    induction l with
    | nil => simp [ampl]
    | cons x l ih =>
      have ih := ih (by simp at hl; omega) (fun y hy => h y (List.mem_cons_of_mem _ hy))
      have hx := h x List.mem_cons_self
      have e : ((ampl f (x :: l) : ℤ) : ℝ) / D = |(f x : ℝ)| / D + ampl f l / D := by
        simp [ampl, add_div]
      simp only [List.map_cons, List.sum_cons, Rat.cast_add, Rat.cast_abs]
      rw [e]
      refine ⟨?_, ?_, ?_⟩
      · rw [show (τ x : ℝ) + ((l.map τ).sum : ℚ) - (I x + (l.map I).sum) = (τ x - I x) + (((l.map τ).sum : ℚ) - (l.map I).sum) by ring]
        refine (abs_add_le _ _).trans ?_
        linarith [ih.1, hx.1]
      · exact (abs_add_le _ _).trans (add_le_add hx.2 ih.2.1)
      · have : |(τ x : ℝ)| ≤ |(f x : ℝ)| / D * (1 + c) := by
          have := abs_add_le ((τ x : ℝ) - I x) (I x)
          rw [sub_add_cancel] at this
          linarith [hx.1, hx.2]
        linarith [ih.2.2]
  obtain ⟨h1, h2, h3⟩ := key
  refine ⟨?_, h2⟩
  have e := Rows.foldl_err (l.map τ) (by simp; omega) 0
  simp only [List.length_map, abs_zero, zero_add] at e
  have e' := (Rat.cast_le (K := ℝ)).2 e
  rw [Rat.cast_mul, Rat.cast_mul, Rat.cast_abs, Rat.cast_sub, Rat.cast_natCast, show ((1 / 2 ^ 52 : ℚ) : ℝ) = 1 / 2 ^ 52 by norm_num] at e'
  have A0 : (0 : ℝ) ≤ ampl f l / D := by
    have : (0 : ℝ) ≤ ampl f l := by exact_mod_cast ampl_nonneg f l
    positivity
  have l0 : (l.length : ℝ) ≤ 442 := by exact_mod_cast hl
  have s0 : (0 : ℝ) ≤ (((l.map τ).map abs).sum : ℚ) := by
    have : (0 : ℚ) ≤ ((l.map τ).map abs).sum := List.sum_nonneg (by
      intro y hy
      obtain ⟨z, _, rfl⟩ := List.mem_map.1 hy
      exact abs_nonneg z)
    exact_mod_cast this
  have e2 : (l.length : ℝ) * (1 / 2 ^ 52) * (((l.map τ).map abs).sum : ℚ) ≤ 442 * (1 / 2 ^ 52) * (ampl f l / D * (1 + c)) := by gcongr
  have e3 : (442 : ℝ) * (1 / 2 ^ 52) * (ampl f l / D * (1 + c)) ≤ ampl f l / D * (1 / 10 ^ 12) := by
    have : (442 : ℝ) * (1 / 2 ^ 52) * (1 + c) ≤ 1 / 10 ^ 12 := by
      have : (442 : ℝ) * (1 / 2 ^ 52) * (1 + c) ≤ 442 * (1 / 2 ^ 52) * (1 + 1 / 10) := by gcongr
      refine this.trans (by norm_num)
    nlinarith
  have e4 : (((l.map τ).foldl F64.add 0 : ℚ) : ℝ) - (l.map I).sum =
    ((((l.map τ).foldl F64.add 0 : ℚ) : ℝ) - ((l.map τ).sum : ℚ)) + (((l.map τ).sum : ℚ) - (l.map I).sum) := by ring
  rw [e4]
  refine (abs_add_le _ _).trans ?_
  linarith

theorem lit_le {k : ℤ} {j : ℕ} {B : ℝ} (h : |(k : ℝ)| ≤ B * 10 ^ j) :
    Near (FloatLike.lit k j : Fl M) (FloatLike.lit k j : ℝ) B (B / 2 ^ 53) := by
  have : |(k : ℝ)| / 10 ^ j ≤ B := by rw [div_le_iff₀ (by positivity)]; exact h
  exact (lit k j).mono this (by gcongr)

theorem abs_le_of_int {k B : ℤ} {C : ℝ} (h : |k| ≤ B) (hB : (B : ℝ) ≤ C) : |(k : ℝ)| ≤ C := by
  have : |(k : ℝ)| ≤ B := by exact_mod_cast h
  linarith

/-- product of the literal `a / 10 ^ j` with a cosine -/
theorem row (a : ℤ) (j : ℕ) {y : Fl M} {Y e : ℝ} (h : Near y Y 1 e) (he : e ≤ 1 / 10 ^ 6) :
    |((FloatLike.lit a j * y : Fl M).v : ℝ) - (FloatLike.lit a j : ℝ) * Y| ≤ |(a : ℝ)| / 10 ^ j * (e + 1 / 10 ^ 15) ∧
    |(FloatLike.lit a j : ℝ) * Y| ≤ |(a : ℝ)| / 10 ^ j := by
  have h1 := (lit (M := M) a j).mul h
  have e0 := h.e_nonneg
  set A := |(a : ℝ)| / 10 ^ j
  have A0 : 0 ≤ A := (lit (M := M) a j).m_nonneg
  refine ⟨h1.1.trans ?_, by simpa using h1.2⟩
  have : A * e + A / 2 ^ 53 * (1 + e) + (A * 1 + (A * e + A / 2 ^ 53 * (1 + e))) / 2 ^ 53 =
    A * (e + 1 / 2 ^ 53 * (1 + e) + (1 + (e + 1 / 2 ^ 53 * (1 + e))) / 2 ^ 53) := by ring
  rw [this]
  refine mul_le_mul_of_nonneg_left ?_ A0
  have : 1 / 2 ^ 53 * (1 + e) + (1 + (e + 1 / 2 ^ 53 * (1 + e))) / 2 ^ 53 ≤
    1 / 2 ^ 53 * (1 + 1 / 10 ^ 6) + (1 + (1 / 10 ^ 6 + 1 / 2 ^ 53 * (1 + 1 / 10 ^ 6))) / 2 ^ 53 := by gcongr
  have : (1 : ℝ) / 2 ^ 53 * (1 + 1 / 10 ^ 6) + (1 + (1 / 10 ^ 6 + 1 / 2 ^ 53 * (1 + 1 / 10 ^ 6))) / 2 ^ 53 ≤ 1 / 10 ^ 15 := by norm_num
  linarith

section
variable (hM : M.Good)
include hM

theorem eGroup {t : Fl M} {T : ℝ} (ht : Near t T 3.1 (1 / 10 ^ 15)) (k : ℤ) (i : ℕ) :
    Near (FloatLike.eGroup k i t) (FloatLike.eGroup k i T) (ampl (fun x => x.1) (XL0 i)) (ampl (fun x => x.1) (XL0 i) * (8 / 10 ^ 10)) := by
  obtain ⟨hl, hb⟩ := Rows.eBound i
  set l := (XL0 i).take (eCount k i (XL0 i).length) with hl'
  have hA : ((ampl (fun x : ℤ × ℤ × ℤ => x.1) l : ℤ) : ℝ) ≤ ampl (fun x : ℤ × ℤ × ℤ => x.1) (XL0 i) := by
    exact_mod_cast ampl_take _ _ _
  have hA0 : (0 : ℝ) ≤ ampl (fun x : ℤ × ℤ × ℤ => x.1) l := by exact_mod_cast ampl_nonneg _ _
  have := sum_near l (by rw [hl', List.length_take]; omega) (Fl.eTerm t) (realE T) (fun x => x.1) (D := 1) (c := 7 / 10 ^ 10) one_pos
    (by norm_num) (by norm_num) (by
      rintro ⟨a, p, q⟩ hx
      obtain ⟨_, b2, b3⟩ := hb _ (List.mem_of_mem_take hx)
      simp only at b2 b3
      have h1 : Near (FloatLike.lit p 9 + t * FloatLike.lit q 9) ((FloatLike.lit p 9 : ℝ) + T * FloatLike.lit q 9) 800000 (6 / 10 ^ 10) := by
        have hp := lit_le (M := M) (B := 6.3) (abs_le_of_int (C := 6.3 * 10 ^ 9) b2 (by norm_num))
        have hq := lit_le (M := M) (B := 244288) (abs_le_of_int (C := 244288 * 10 ^ 9) b3 (by norm_num))
        apply Near.mono
        · exact hp.add (ht.mul hq)
        · norm_num
        · norm_num
      have h2 := row a 0 (h1.cos hM) (by norm_num)
      simp only [pow_zero, div_one] at h2 ⊢
      have e1 : ((Fl.eTerm t (a, p, q) : ℚ) : ℝ) = ((FloatLike.lit a 0 * FloatLike.cos (FloatLike.lit p 9 + t * FloatLike.lit q 9) : Fl M).v : ℝ) := by
        show ((F64.mul (rnd a) _ : ℚ) : ℝ) = ((F64.mul (rnd (a / 10 ^ 0)) _ : ℚ) : ℝ)
        rw [pow_zero, div_one]; rfl
      have e2 : realE T (a, p, q) = (FloatLike.lit a 0 : ℝ) * FloatLike.cos ((FloatLike.lit p 9 : ℝ) + T * FloatLike.lit q 9) := by
        show (a : ℝ) * _ = (a : ℝ) / 10 ^ 0 * _
        rw [pow_zero, div_one]; rfl
      rw [e1, e2]
      refine ⟨h2.1.trans ?_, h2.2⟩
      gcongr
      norm_num)
  rw [div_one] at this
  refine ⟨this.1.trans ?_, this.2.trans hA⟩
  calc _ ≤ (ampl (fun x : ℤ × ℤ × ℤ => x.1) (XL0 i) : ℝ) * (7 / 10 ^ 10 + 1 / 10 ^ 12) := by gcongr
    _ ≤ _ := by
      have : (0 : ℝ) ≤ ampl (fun x : ℤ × ℤ × ℤ => x.1) (XL0 i) := hA0.trans hA
      gcongr
      norm_num

theorem mGroup {t t2 t3 t4 : Fl M} {T T2 T3 T4 : ℝ} (ht : Near t T 31 0) (ht2 : Near t2 T2 1 (1 / 10 ^ 12))
    (ht3 : Near t3 T3 (1 / 100) (1 / 10 ^ 12)) (ht4 : Near t4 T4 (1 / 10) (1 / 10 ^ 12)) (k : ℤ) (i : ℕ) :
    Near (FloatLike.mGroup k i t t2 t3 t4) (FloatLike.mGroup k i T T2 T3 T4) (ampl (fun x => x.1) (XL1 i) / 10 ^ 7)
      (ampl (fun x => x.1) (XL1 i) / 10 ^ 7 * (2 / 10 ^ 9)) := by
  obtain ⟨hl, hb⟩ := Rows.mBound i
  set l := (XL1 i).take (mCount k i (XL1 i).length) with hl'
  have hA : ((ampl (fun x : ℤ × ℤ × ℤ × ℤ × ℤ × ℤ => x.1) l : ℤ) : ℝ) ≤ ampl (fun x : ℤ × ℤ × ℤ × ℤ × ℤ × ℤ => x.1) (XL1 i) := by
    exact_mod_cast ampl_take _ _ _
  have hA0 : (0 : ℝ) ≤ ampl (fun x : ℤ × ℤ × ℤ × ℤ × ℤ × ℤ => x.1) l := by exact_mod_cast ampl_nonneg _ _
  have := sum_near l (by rw [hl', List.length_take]; omega) (Fl.mTerm t t2 t3 t4) (realM T T2 T3 T4) (fun x => x.1) (D := 10 ^ 7)
    (c := 18 / 10 ^ 10) (by norm_num) (by norm_num) (by norm_num) (by
      rintro ⟨a, p, q, r, s, u⟩ hx
      obtain ⟨b1, b2, b3, b4, b5⟩ := hb _ (List.mem_of_mem_take hx)
      simp only at b1 b2 b3 b4 b5
      have h1 : Near (FloatLike.lit p 8 + t * FloatLike.lit q 9 + t2 * FloatLike.lit r 7 + t3 * FloatLike.lit s 4 + t4 * FloatLike.lit u 6)
          ((FloatLike.lit p 8 : ℝ) + T * FloatLike.lit q 9 + T2 * FloatLike.lit r 7 + T3 * FloatLike.lit s 4 + T4 * FloatLike.lit u 6)
          2000000 (17 / 10 ^ 10) := by
        have hp := lit_le (M := M) (B := 6.3) (abs_le_of_int (C := 6.3 * 10 ^ 8) b1 (by norm_num))
        have hq := lit_le (M := M) (B := 57395.9) (abs_le_of_int (C := 57395.9 * 10 ^ 9) b2 (by norm_num))
        have hr := lit_le (M := M) (B := 8.9) (abs_le_of_int (C := 8.9 * 10 ^ 7) b3 (by norm_num))
        have hs := lit_le (M := M) (B := 125) (abs_le_of_int (C := 125 * 10 ^ 4) b4 (by norm_num))
        have hu := lit_le (M := M) (B := 1) (abs_le_of_int (C := 1 * 10 ^ 6) b5 (by norm_num))
        apply Near.mono
        · exact (((hp.add (ht.mul hq)).add (ht2.mul hr)).add (ht3.mul hs)).add (ht4.mul hu)
        · norm_num
        · norm_num
      have h2 := row a 7 (h1.cos hM) (by norm_num)
      have e1 : ((Fl.mTerm t t2 t3 t4 (a, p, q, r, s, u) : ℚ) : ℝ) = ((FloatLike.lit a 7 * FloatLike.cos (FloatLike.lit p 8 + t * FloatLike.lit q 9 +
          t2 * FloatLike.lit r 7 + t3 * FloatLike.lit s 4 + t4 * FloatLike.lit u 6) : Fl M).v : ℝ) := rfl
      have e2 : realM T T2 T3 T4 (a, p, q, r, s, u) = (FloatLike.lit a 7 : ℝ) * FloatLike.cos ((FloatLike.lit p 8 : ℝ) + T * FloatLike.lit q 9 +
          T2 * FloatLike.lit r 7 + T3 * FloatLike.lit s 4 + T4 * FloatLike.lit u 6) := rfl
      rw [e1, e2]
      refine ⟨h2.1.trans ?_, h2.2⟩
      gcongr
      norm_num)
  refine ⟨this.1.trans ?_, this.2.trans (by gcongr)⟩
  calc _ ≤ (ampl (fun x : ℤ × ℤ × ℤ × ℤ × ℤ × ℤ => x.1) (XL1 i) : ℝ) / 10 ^ 7 * (18 / 10 ^ 10 + 1 / 10 ^ 12) := by gcongr
    _ ≤ _ := by
      have : (0 : ℝ) ≤ ampl (fun x : ℤ × ℤ × ℤ × ℤ × ℤ × ℤ => x.1) (XL1 i) := hA0.trans hA
      gcongr
      norm_num

end

end Near
