import Verif.Proof.TrigSound
import Verif.Model.ShouXing

/-! # The enclosures are sound: the sums over the tables `XL0` and `XL1` -/

open Aff0 CosSound F64 ShouXing

namespace Rows

/-! ## The prepared tables agree with those of the model -/

/-- a row of `XL0` prepared for evaluation -/
def encE : ℤ × ℤ × ℤ → ERow
  | (a, p, q) => ⟨a.toNat, (-a).toNat, if q = 0 then 0 else a.natAbs, (p * WI % TPI).toNat, (q % TPI).toNat⟩

/-- a row of `XL1` prepared for evaluation -/
def encM : ℤ × ℤ × ℤ × ℤ × ℤ × ℤ → MRow
  | (a, p, q, r, s, u) => ⟨a.toNat, (-a).toNat, (p * 10 * WI % TPI).toNat, (q % TPI).toNat, (100 * r % TPI).toNat,
      (100000 * s % TPI).toNat, (1000 * u % TPI).toNat⟩

theorem xl0r_0 : XL0r_0 = XL0_0.map encE := by decide +kernel
theorem xl0r_1 : XL0r_1 = XL0_1.map encE := by decide +kernel
theorem xl0r_2 : XL0r_2 = XL0_2.map encE := by decide +kernel
theorem xl0r_3 : XL0r_3 = XL0_3.map encE := by decide +kernel
theorem xl0r_4 : XL0r_4 = XL0_4.map encE := by decide +kernel
theorem xl0r_5 : XL0r_5 = XL0_5.map encE := by decide +kernel
theorem xl1r_0 : XL1r_0 = XL1_0.map encM := by decide +kernel
theorem xl1r_1 : XL1r_1 = XL1_1.map encM := by decide +kernel
theorem xl1r_2 : XL1r_2 = XL1_2.map encM := by decide +kernel
theorem xl1r_3 : XL1r_3 = XL1_3.map encM := by decide +kernel

/-- the numbers of rows -/
theorem eCounts : ∀ n ∈ [(3 : ℤ), 8, 10, 60], (eCount n 0 186, eCount n 1 114, eCount n 2 60, eCount n 3 8, eCount n 4 4, eCount n 5 4) =
    if n = 3 then (3, 3, 2, 1, 1, 1) else if n = 8 then (8, 6, 4, 2, 2, 2) else if n = 10 then (10, 7, 5, 2, 2, 2) else (60, 38, 21, 4, 3, 3) := by
  decide +kernel

theorem mCounts : ∀ n ∈ [(-1 : ℤ), 3, 20], (mCount n 0 442, mCount n 1 149, mCount n 2 34, mCount n 3 2) =
    if n = -1 then (442, 149, 34, 2) else if n = 3 then (3, 2, 2, 1) else (20, 8, 3, 2) := by
  decide +kernel

theorem len0 : XL0_0.length = 186 ∧ XL0_1.length = 114 ∧ XL0_2.length = 60 ∧ XL0_3.length = 8 ∧ XL0_4.length = 4 ∧ XL0_5.length = 4 := by
  decide +kernel

theorem len1 : XL1_0.length = 442 ∧ XL1_1.length = 149 ∧ XL1_2.length = 34 ∧ XL1_3.length = 2 := by
  decide +kernel

theorem eRows_eq (n : ℤ) (i : ℕ) (h : (eRows n i).2 = true) :
    (eRows n i).1 = ((XL0 i).take (eCount n i (XL0 i).length)).map encE := by
  have c3 := eCounts 3 (by decide)
  have c8 := eCounts 8 (by decide)
  have c10 := eCounts 10 (by decide)
  have c60 := eCounts 60 (by decide)
  simp only [Prod.mk.injEq, if_true, reduceIte, show (8 : ℤ) ≠ 3 by decide, show (10 : ℤ) ≠ 3 by decide,
    show (10 : ℤ) ≠ 8 by decide, show (60 : ℤ) ≠ 3 by decide, show (60 : ℤ) ≠ 8 by decide, show (60 : ℤ) ≠ 10 by decide] at c3 c8 c10 c60
  obtain ⟨l0, l1, l2, l3, l4, l5⟩ := len0
  unfold eRows at h ⊢
  split at h <;> first
    | (simp only [XL0, l0, l1, l2, l3, l4, l5, c3, c8, c10, c60, xl0r_0, xl0r_1, xl0r_2, xl0r_3, xl0r_4, xl0r_5, List.map_take]; done)
    | (simp only [XL0, eCount, if_pos (show (-1 : ℤ) < 0 by decide), List.take_length, xl0r_0, xl0r_1, xl0r_2, xl0r_3, xl0r_4, xl0r_5]; done)
    | (exact absurd h (by decide))

theorem mRows_eq (n : ℤ) (i : ℕ) (h : (mRows n i).2 = true) :
    (mRows n i).1 = ((XL1 i).take (mCount n i (XL1 i).length)).map encM := by
  have c1 := mCounts (-1) (by decide)
  have c3 := mCounts 3 (by decide)
  have c20 := mCounts 20 (by decide)
  simp only [Prod.mk.injEq, if_true, reduceIte, show (3 : ℤ) ≠ -1 by decide, show (20 : ℤ) ≠ -1 by decide,
    show (20 : ℤ) ≠ 3 by decide] at c1 c3 c20
  obtain ⟨l0, l1, l2, l3⟩ := len1
  unfold mRows at h ⊢
  split at h <;> first
    | (simp only [XL1, l0, l1, l2, l3, c1, c3, c20, xl1r_0, xl1r_1, xl1r_2, xl1r_3, List.map_take]
       try (rw [List.take_of_length_le (by simp [l0, l1, l2, l3])])
       done)
    | (exact absurd h (by decide))

/-- what is used about the rows of `XL0` -/
theorem eBound (i : ℕ) : (XL0 i).length ≤ 186 ∧ ∀ x ∈ XL0 i, |x.1| ≤ 2 ^ 53 ∧ |x.2.1| ≤ 6300000000 ∧ |x.2.2| ≤ 244288000000000 := by
  have key : ∀ i < 6, (XL0 i).length ≤ 186 ∧ ∀ x ∈ XL0 i, |x.1| ≤ 2 ^ 53 ∧ |x.2.1| ≤ 6300000000 ∧ |x.2.2| ≤ 244288000000000 := by decide +kernel
  by_cases h : i < 6
  · exact key i h
  · have : XL0 i = [] := by
      unfold XL0
      split <;> first | omega | rfl
    simp [this]

theorem mBound (i : ℕ) : (XL1 i).length ≤ 442 ∧ ∀ x ∈ XL1 i, |x.2.1| ≤ 630000000 ∧ |x.2.2.1| ≤ 57395900000000 ∧
    |x.2.2.2.1| ≤ 89000000 ∧ |x.2.2.2.2.1| ≤ 1250000 ∧ |x.2.2.2.2.2| ≤ 1000000 := by
  have key : ∀ i < 4, (XL1 i).length ≤ 442 ∧ ∀ x ∈ XL1 i, |x.2.1| ≤ 630000000 ∧ |x.2.2.1| ≤ 57395900000000 ∧
      |x.2.2.2.1| ≤ 89000000 ∧ |x.2.2.2.2.1| ≤ 1250000 ∧ |x.2.2.2.2.2| ≤ 1000000 := by decide +kernel
  by_cases h : i < 4
  · exact key i h
  · have : XL1 i = [] := by
      unfold XL1
      split <;> first | omega | rfl
    simp [this]

/-! ## Rounding -/

theorem rnd_le {x B : ℚ} (h : |x| ≤ B) : |rnd x| ≤ B * (1 + 1 / 2 ^ 53) := by
  have := abs_rnd_sub_le_rel x
  have h2 : |rnd x| ≤ |rnd x - x| + |x| := by
    have := abs_add_le (rnd x - x) x
    simpa using this
  calc _ ≤ _ := h2
    _ ≤ |x| / 2 ^ 53 + |x| := by linarith
    _ = |x| * (1 + 1 / 2 ^ 53) := by ring
    _ ≤ _ := by gcongr

/-- a sum of floats is near the exact sum -/
theorem foldl_err (l : List ℚ) (hl : l.length ≤ 1000) (acc : ℚ) :
    |l.foldl F64.add acc - (acc + l.sum)| ≤ l.length * (1 / 2 ^ 52) * (|acc| + (l.map abs).sum) := by
  induction l generalizing acc with
  | nil => simp
  | cons x l ih =>
    have ih := ih (by simp at hl; omega) (F64.add acc x)
    simp only [List.foldl_cons, List.sum_cons, List.map_cons, List.length_cons]
    have e1 : |F64.add acc x - (acc + x)| ≤ (|acc| + |x|) / 2 ^ 53 :=
      (abs_rnd_sub_le_rel (acc + x)).trans (by gcongr; exact abs_add_le _ _)
    have e2 : |F64.add acc x| ≤ (|acc| + |x|) * (1 + 1 / 2 ^ 53) := rnd_le (abs_add_le _ _)
    have s0 : 0 ≤ (l.map abs).sum := List.sum_nonneg (by simp only [List.mem_map]; rintro _ ⟨y, _, rfl⟩; exact abs_nonneg y)
    have l0 : (l.length : ℚ) ≤ 1000 := by
      have : l.length ≤ 1000 := by simp at hl; omega
      exact_mod_cast this
    have a0 : 0 ≤ |acc| + |x| := by positivity
    calc |l.foldl F64.add (F64.add acc x) - (acc + (x + l.sum))|
        = |(l.foldl F64.add (F64.add acc x) - (F64.add acc x + l.sum)) + (F64.add acc x - (acc + x))| := by ring_nf
      _ ≤ _ := abs_add_le _ _
      _ ≤ l.length * (1 / 2 ^ 52) * (|F64.add acc x| + (l.map abs).sum) + (|acc| + |x|) / 2 ^ 53 := add_le_add ih e1
      _ ≤ l.length * (1 / 2 ^ 52) * ((|acc| + |x|) * (1 + 1 / 2 ^ 53) + (l.map abs).sum) + (|acc| + |x|) / 2 ^ 53 := by gcongr
      _ ≤ _ := by
        push_cast
        have h1 : (l.length : ℚ) * (1 / 2 ^ 52) * ((|acc| + |x|) * (1 / 2 ^ 53)) ≤ 1000 * (1 / 2 ^ 52) * ((|acc| + |x|) * (1 / 2 ^ 53)) := by gcongr
        have h2 : 0 ≤ (1 / 2 ^ 52 : ℚ) * (l.map abs).sum := by positivity
        have h3 : (1000 : ℚ) * (1 / 2 ^ 52) * ((|acc| + |x|) * (1 / 2 ^ 53)) + (|acc| + |x|) / 2 ^ 53 ≤ 1 / 2 ^ 52 * (|acc| + |x|) := by
          have : (1000 : ℚ) * (1 / 2 ^ 52) * (1 / 2 ^ 53) + 1 / 2 ^ 53 ≤ 1 / 2 ^ 52 := by norm_num
          nlinarith
        nlinarith

/-- product of an enclosed float with a constant -/
theorem prod_err {t κ r B Q : ℚ} {ta : ℤ} (h : |t * wq - ta| ≤ r) (hB : |t| ≤ B) (hQ : |κ| ≤ Q) :
    |F64.mul t (rnd κ) * wq - ta * κ| ≤ r * Q + 3 * B * Q / 2 ^ 53 * wq ∧ |F64.mul t (rnd κ)| ≤ B * Q * (1 + 3 / 2 ^ 53) := by
  have hw := wq_pos
  have B0 : 0 ≤ B := (abs_nonneg _).trans hB
  have Q0 : 0 ≤ Q := (abs_nonneg _).trans hQ
  have r0 : 0 ≤ r := (abs_nonneg _).trans h
  have k1 : |rnd κ - κ| ≤ Q / 2 ^ 53 := abs_rnd_sub_le hQ
  have k2 := rnd_le hQ
  have k3 : |t * rnd κ| ≤ B * (Q * (1 + 1 / 2 ^ 53)) := by rw [abs_mul]; gcongr
  have k4 : |F64.mul t (rnd κ) - t * rnd κ| ≤ B * (Q * (1 + 1 / 2 ^ 53)) / 2 ^ 53 := abs_rnd_sub_le k3
  have bq : 0 ≤ B * Q := by positivity
  constructor
  · have e : F64.mul t (rnd κ) * wq - ta * κ = (F64.mul t (rnd κ) - t * rnd κ) * wq + t * (rnd κ - κ) * wq + (t * wq - ta) * κ := by ring
    rw [e]
    have a1 : |(F64.mul t (rnd κ) - t * rnd κ) * wq| ≤ B * (Q * (1 + 1 / 2 ^ 53)) / 2 ^ 53 * wq := by
      rw [abs_mul, abs_of_pos hw]; gcongr
    have a2 : |t * (rnd κ - κ) * wq| ≤ B * (Q / 2 ^ 53) * wq := by
      rw [abs_mul, abs_mul, abs_of_pos hw]; gcongr
    have a3 : |(t * wq - ta) * κ| ≤ r * Q := by rw [abs_mul]; gcongr
    refine (abs_add_le _ _).trans ((add_le_add (abs_add_le _ _) le_rfl).trans ?_)
    have : B * (Q * (1 + 1 / 2 ^ 53)) / 2 ^ 53 * wq + B * (Q / 2 ^ 53) * wq ≤ 3 * B * Q / 2 ^ 53 * wq := by
      have h1 : B * (Q * (1 + 1 / 2 ^ 53)) / 2 ^ 53 + B * (Q / 2 ^ 53) ≤ 3 * B * Q / 2 ^ 53 := by
        have : B * (Q * (1 + 1 / 2 ^ 53)) / 2 ^ 53 + B * (Q / 2 ^ 53) = (B * Q) * ((2 + 1 / 2 ^ 53) / 2 ^ 53) := by ring
        rw [this, show 3 * B * Q / 2 ^ 53 = (B * Q) * (3 / 2 ^ 53) by ring]
        gcongr
        norm_num
      nlinarith
    linarith
  · refine (rnd_le k3).trans ?_
    rw [show B * (Q * (1 + 1 / 2 ^ 53)) * (1 + 1 / 2 ^ 53) = B * Q * ((1 + 1 / 2 ^ 53) * (1 + 1 / 2 ^ 53)) by ring]
    gcongr
    norm_num

theorem add_err {x y X Y ex ey bx by' : ℚ} (hx : |x * wq - X| ≤ ex) (hy : |y * wq - Y| ≤ ey) (hbx : |x| ≤ bx) (hby : |y| ≤ by') :
    |F64.add x y * wq - (X + Y)| ≤ ex + ey + (bx + by') / 2 ^ 53 * wq ∧ |F64.add x y| ≤ (bx + by') * (1 + 1 / 2 ^ 53) := by
  have hw := wq_pos
  have h1 : |x + y| ≤ bx + by' := (abs_add_le _ _).trans (add_le_add hbx hby)
  have h2 : |F64.add x y - (x + y)| ≤ (bx + by') / 2 ^ 53 := abs_rnd_sub_le h1
  refine ⟨?_, rnd_le h1⟩
  have e : F64.add x y * wq - (X + Y) = (x * wq - X) + (y * wq - Y) + (F64.add x y - (x + y)) * wq := by ring
  rw [e]
  have a1 : |(F64.add x y - (x + y)) * wq| ≤ (bx + by') / 2 ^ 53 * wq := by
    rw [abs_mul, abs_of_pos hw]; gcongr
  refine (abs_add_le _ _).trans ((add_le_add (abs_add_le _ _) le_rfl).trans ?_)
  linarith

/-! ## One row -/

theorem row_err {M : Libm} (hM : M.Good) {z ρ α : ℚ} {A : ℤ} (hz : |z * wq - A / 10 ^ 9| ≤ ρ) (hA : |A| ≤ 10 ^ 35) :
    |F64.mul α (M.cos z) * wq - α * ((W : ℚ) - cosY (A % TPI).toNat)| ≤ |α| * (ρ + 262000) ∧
    |F64.mul α (M.cos z)| ≤ |α| * (1 + 1 / 2 ^ 53) ∧ |(W : ℚ) - cosY (A % TPI).toNat| ≤ 2 * wq := by
  have hw := w_pos
  have hwq := wq_pos
  set C := cosY (A % TPI).toNat
  have h1 := reduce_err A
  have hA' : |(A : ℝ)| ≤ 10 ^ 35 := by exact_mod_cast hA
  have hz' : |(z : ℝ) * w - A / 10 ^ 9| ≤ (ρ : ℝ) := by rw [← wq_real]; exact_mod_cast hz
  have h2 : |Real.cos z - Real.cos (A / (1000000000 * w))| ≤ (ρ : ℝ) / w := by
    refine (Real.abs_cos_sub_cos_le _ _).trans ?_
    have : (z : ℝ) - A / (1000000000 * w) = (z * w - A / 10 ^ 9) / w := by
      rw [show (10 : ℝ) ^ 9 = 1000000000 by norm_num]; field_simp
    rw [this, abs_div, abs_of_pos hw]
    gcongr
  have h3 := hM.cos_err z
  have h4 : 300 / w + (|(A : ℝ)| / (6 * 10 ^ 28) + 1) * (3 / 2 * (1 / 10 ^ 20)) ≤ 251000 / w := by
    have : |(A : ℝ)| / (6 * 10 ^ 28) + 1 ≤ 10 ^ 35 / (6 * 10 ^ 28) + 1 := by gcongr
    have : (|(A : ℝ)| / (6 * 10 ^ 28) + 1) * (3 / 2 * (1 / 10 ^ 20)) ≤ (10 ^ 35 / (6 * 10 ^ 28) + 1) * (3 / 2 * (1 / 10 ^ 20)) := by gcongr
    have : 300 / w + (10 ^ 35 / (6 * 10 ^ 28) + 1) * (3 / 2 * (1 / 10 ^ 20)) ≤ 251000 / w := by norm_num [w]
    linarith
  have h5 : |(M.cos z : ℝ) - (w - C) / w| ≤ ((ρ : ℝ) + 260000) / w := by
    have e : (M.cos z : ℝ) - (w - C) / w = (M.cos z - Real.cos z) + (Real.cos z - Real.cos (A / (1000000000 * w))) -
      ((w - C) / w - Real.cos (A / (1000000000 * w))) := by ring
    rw [e]
    refine (abs_sub _ _).trans ?_
    have := abs_add_le ((M.cos z : ℝ) - Real.cos z) (Real.cos z - Real.cos (A / (1000000000 * w)))
    have k : (1 : ℝ) / 2 ^ 50 ≤ 9000 / w := by norm_num [w]
    have : ((ρ : ℝ) + 260000) / w = ρ / w + 251000 / w + 9000 / w := by ring
    linarith
  have h6 : |M.cos z * wq - ((W : ℚ) - C)| ≤ ρ + 260000 := by
    have : |(M.cos z : ℝ) * w - (w - C)| ≤ (ρ : ℝ) + 260000 := by
      have e : (M.cos z : ℝ) * w - (w - C) = w * (M.cos z - (w - C) / w) := by field_simp
      rw [e, abs_mul, abs_of_pos hw]
      refine (mul_le_mul_of_nonneg_left h5 hw.le).trans_eq ?_
      field_simp
    rw [W_cast]
    rw [← wq_real] at this
    exact_mod_cast this
  have ac : |α * M.cos z| ≤ |α| := by
    rw [abs_mul]
    exact mul_le_of_le_one_right (abs_nonneg _) (hM.cos_le z)
  refine ⟨?_, rnd_le ac, ?_⟩
  · have e : F64.mul α (M.cos z) * wq - α * ((W : ℚ) - C) = (F64.mul α (M.cos z) - α * M.cos z) * wq + α * (M.cos z * wq - ((W : ℚ) - C)) := by ring
    rw [e]
    have a1 : |(F64.mul α (M.cos z) - α * M.cos z) * wq| ≤ |α| * 2000 := by
      rw [abs_mul, abs_of_pos hwq]
      have : |F64.mul α (M.cos z) - α * M.cos z| ≤ |α| / 2 ^ 53 := abs_rnd_sub_le ac
      have k : wq / 2 ^ 53 ≤ 2000 := by norm_num [wq]
      calc _ ≤ |α| / 2 ^ 53 * wq := by gcongr
        _ = |α| * (wq / 2 ^ 53) := by ring
        _ ≤ _ := by gcongr
    have a2 : |α * (M.cos z * wq - ((W : ℚ) - C))| ≤ |α| * (ρ + 260000) := by
      rw [abs_mul]; gcongr
    refine (abs_add_le _ _).trans ?_
    linarith
  · have h7 : |(w - (C : ℝ)) / w| ≤ 2 := by
      have k1 := Real.abs_cos_le_one (A / (1000000000 * w))
      have e : (w - (C : ℝ)) / w = ((w - C) / w - Real.cos (A / (1000000000 * w))) + Real.cos (A / (1000000000 * w)) := by ring
      rw [e]
      refine (abs_add_le _ _).trans ?_
      have : 251000 / w ≤ 1 := by norm_num [w]
      linarith
    rw [abs_div, abs_of_pos hw, div_le_iff₀ hw] at h7
    rw [W_cast]
    rw [← wq_real] at h7
    exact_mod_cast h7

/-! ## The loops -/

theorem eLoop_eq {β : Type} (T : ℕ) (k : ℕ → ℕ → ℕ → ℕ → β) (rows : List ERow) (P N S G : ℕ) :
    eLoop T k rows P N S G = k
      (P + (rows.map fun r => r.ap * W + r.an * cosY ((r.p + r.q * T) % TP)).sum)
      (N + (rows.map fun r => r.ap * cosY ((r.p + r.q * T) % TP) + r.an * W).sum)
      (S + (rows.map fun r => r.ap + r.an).sum) (G + (rows.map fun r => r.g).sum) := by
  induction rows generalizing P N S G with
  | nil => simp [eLoop]
  | cons r rows ih =>
    have : eLoop T k (r :: rows) P N S G = eLoop T k rows
      (P + (r.ap * W + r.an * cosY ((r.p + r.q * T) % TP))) (N + (r.ap * cosY ((r.p + r.q * T) % TP) + r.an * W))
      (S + (r.ap + r.an)) (G + r.g) := by
      obtain ⟨ap, an, g, p, q⟩ := r
      simp only [eLoop, forceN_eq]
      rfl
    rw [this, ih]
    simp only [List.map_cons, List.sum_cons, Nat.add_assoc]

theorem mLoop_eq {β : Type} (T T2 T3 T4 : ℕ) (k : ℕ → ℕ → ℕ → β) (rows : List MRow) (P N S : ℕ) :
    mLoop T T2 T3 T4 k rows P N S = k
      (P + (rows.map fun r => r.ap * W + r.an * cosY ((r.p + r.q * T + r.r * T2 + r.s * T3 + r.u * T4) % TP)).sum)
      (N + (rows.map fun r => r.ap * cosY ((r.p + r.q * T + r.r * T2 + r.s * T3 + r.u * T4) % TP) + r.an * W).sum)
      (S + (rows.map fun r => r.ap + r.an).sum) := by
  induction rows generalizing P N S with
  | nil => simp [mLoop]
  | cons r rows ih =>
    have : mLoop T T2 T3 T4 k (r :: rows) P N S = mLoop T T2 T3 T4 k rows
      (P + (r.ap * W + r.an * cosY ((r.p + r.q * T + r.r * T2 + r.s * T3 + r.u * T4) % TP)))
      (N + (r.ap * cosY ((r.p + r.q * T + r.r * T2 + r.s * T3 + r.u * T4) % TP) + r.an * W)) (S + (r.ap + r.an)) := by
      obtain ⟨ap, an, p, q, r, s, u⟩ := r
      simp only [mLoop, forceN_eq]
      rfl
    rw [this, ih]
    simp only [List.map_cons, List.sum_cons, Nat.add_assoc]

theorem TPI_pos : (0 : ℤ) < TPI := by decide

theorem cast_mod (x : ℤ) : (((x % TPI).toNat : ℕ) : ℤ) = x % TPI := Int.toNat_of_nonneg (Int.emod_nonneg _ TPI_pos.ne')

theorem mod_eq {x : ℕ} {y : ℤ} (h : (x : ℤ) % TPI = y % TPI) : x % TP = (y % TPI).toNat := by
  have h1 : ((x % TP : ℕ) : ℤ) = ((y % TPI).toNat : ℤ) := by
    rw [cast_mod, ← h]
    exact Int.natCast_mod x TP
  exact_mod_cast h1

/-- the reduced angle of a row of `XL0` -/
theorem eAngle (a p q ta : ℤ) : ((encE (a, p, q)).p + (encE (a, p, q)).q * (ta % TPI).toNat) % TP = ((p * WI + q * ta) % TPI).toNat := by
  apply mod_eq
  simp only [encE]
  push_cast [cast_mod]
  exact ((Int.mod_modEq _ _).add ((Int.mod_modEq _ _).mul (Int.mod_modEq _ _)))

theorem mAngle (a p q r s u t t2 t3 t4 : ℤ) : ((encM (a, p, q, r, s, u)).p + (encM (a, p, q, r, s, u)).q * (t % TPI).toNat +
      (encM (a, p, q, r, s, u)).r * (t2 % TPI).toNat + (encM (a, p, q, r, s, u)).s * (t3 % TPI).toNat +
      (encM (a, p, q, r, s, u)).u * (t4 % TPI).toNat) % TP =
    ((p * 10 * WI + q * t + 100 * r * t2 + 100000 * s * t3 + 1000 * u * t4) % TPI).toNat := by
  apply mod_eq
  simp only [encM]
  push_cast [cast_mod]
  exact ((((Int.mod_modEq _ _).add ((Int.mod_modEq _ _).mul (Int.mod_modEq _ _))).add
    ((Int.mod_modEq _ _).mul (Int.mod_modEq _ _))).add ((Int.mod_modEq _ _).mul (Int.mod_modEq _ _))).add
    ((Int.mod_modEq _ _).mul (Int.mod_modEq _ _))

/-! ## Sums of rows -/

/-- a sum of floats with enclosed terms -/
theorem sum_err {ι : Type} (l : List ι) (hl : l.length ≤ 442) (τ I e A : ι → ℚ) (h : ∀ x ∈ l, |τ x * wq - I x| ≤ e x ∧ |τ x| ≤ A x) :
    |(l.map τ).foldl F64.add 0 * wq - (l.map I).sum| ≤ (l.map e).sum + 990000 * (l.map A).sum := by
  have hw := wq_pos
  have h1 := foldl_err (l.map τ) (by simp; omega) 0
  simp only [List.length_map, abs_zero, zero_add, List.map_map] at h1
  have h2 : |(l.map τ).sum * wq - (l.map I).sum| ≤ (l.map e).sum ∧ (l.map (abs ∘ τ)).sum ≤ (l.map A).sum ∧ 0 ≤ (l.map A).sum := by
    clear h1 hl
    induction l with
    | nil => simp
    | cons x l ih =>
      obtain ⟨i1, i2, i3⟩ := ih (fun y hy => h y (by simp [hy]))
      obtain ⟨j1, j2⟩ := h x (by simp)
      simp only [List.map_cons, List.sum_cons]
      refine ⟨?_, add_le_add j2 i2, add_nonneg ((abs_nonneg _).trans j2) i3⟩
      rw [show (τ x + (l.map τ).sum) * wq - (I x + (l.map I).sum) = (τ x * wq - I x) + ((l.map τ).sum * wq - (l.map I).sum) by ring]
      exact (abs_add_le _ _).trans (add_le_add j1 i1)
  obtain ⟨h2, h3, h4⟩ := h2
  have e1 : (l.map τ).foldl F64.add 0 * wq - (l.map I).sum =
    ((l.map τ).foldl F64.add 0 - (l.map τ).sum) * wq + ((l.map τ).sum * wq - (l.map I).sum) := by ring
  rw [e1]
  have h5 : |((l.map τ).foldl F64.add 0 - (l.map τ).sum) * wq| ≤ 990000 * (l.map A).sum := by
    rw [abs_mul, abs_of_pos hw]
    have : (l.length : ℚ) ≤ 442 := by exact_mod_cast hl
    have n0 : 0 ≤ (l.map (abs ∘ τ)).sum := List.sum_nonneg (by simp only [List.mem_map]; rintro _ ⟨y, _, rfl⟩; exact abs_nonneg _)
    calc _ ≤ (l.length * (1 / 2 ^ 52) * (l.map (abs ∘ τ)).sum) * wq := by gcongr
      _ ≤ (442 * (1 / 2 ^ 52) * (l.map A).sum) * wq := by gcongr
      _ = (442 * (1 / 2 ^ 52) * wq) * (l.map A).sum := by ring
      _ ≤ _ := mul_le_mul_of_nonneg_right (by norm_num [wq]) h4
  refine (abs_add_le _ _).trans ?_
  linarith

theorem sum_cast {ι : Type} (l : List ι) (f : ι → ℕ) : (((l.map f).sum : ℕ) : ℚ) = (l.map fun x => (f x : ℚ)).sum := by
  induction l with
  | nil => simp
  | cons x l ih => simp [ih]

theorem sum_sub {ι : Type} (l : List ι) (f g h : ι → ℚ) (H : ∀ x ∈ l, f x - g x = h x) :
    (l.map f).sum - (l.map g).sum = (l.map h).sum := by
  induction l with
  | nil => simp
  | cons x l ih =>
    simp only [List.map_cons, List.sum_cons]
    rw [← ih (fun y hy => H y (by simp [hy])), ← H x (by simp)]
    ring

theorem sum_mul' {ι : Type} (l : List ι) (f : ι → ℚ) (k : ℚ) : (l.map fun x => f x * k).sum = (l.map f).sum * k := by
  induction l with
  | nil => simp
  | cons x l ih => simp [ih, add_mul]

theorem sum_add' {ι : Type} (l : List ι) (f g : ι → ℚ) : (l.map fun x => f x + g x).sum = (l.map f).sum + (l.map g).sum := by
  induction l with
  | nil => simp
  | cons x l ih => simp [ih]; ring

theorem ap_an (a : ℤ) : ((a.toNat : ℕ) : ℚ) - ((-a).toNat : ℕ) = a ∧ ((a.toNat : ℕ) : ℚ) + ((-a).toNat : ℕ) = |(a : ℚ)| := by
  rcases le_total 0 a with h | h
  · obtain ⟨k, rfl⟩ := Int.eq_ofNat_of_zero_le h
    simp
  · obtain ⟨k, hk⟩ := Int.eq_ofNat_of_zero_le (neg_nonneg.2 h)
    have : a = -(k : ℤ) := by omega
    subst this
    simp

theorem pn_eq (a : ℤ) (w C : ℕ) :
    ((a.toNat * w + (-a).toNat * C : ℕ) : ℚ) - ((a.toNat * C + (-a).toNat * w : ℕ) : ℚ) = a * ((w : ℚ) - C) := by
  push_cast
  rw [← (ap_an a).1]
  ring

/-- the argument of the cosine in a row of `XL0` -/
theorem eArg {p q : ℤ} (hp : |p| ≤ 6300000000) (hq : |q| ≤ 244288000000000) {t r : ℚ} {ta : ℤ} (ht : |t * wq - ta| ≤ r) (hB : |t| ≤ 20) :
    |F64.add (rnd (p / 10 ^ 9)) (F64.mul t (rnd (q / 10 ^ 9))) * wq - (p * WI + q * ta : ℤ) / 10 ^ 9| ≤
      (if q = 0 then 0 else 244288 * r + 100000000000) + 40000 := by
  have hw := wq_pos
  have r0 : 0 ≤ r := (abs_nonneg _).trans ht
  have p1 : |(p : ℚ) / 10 ^ 9| ≤ 6.3 := by
    rw [abs_div, abs_of_pos (by norm_num : (0 : ℚ) < 10 ^ 9), div_le_iff₀ (by norm_num)]
    have : |(p : ℚ)| ≤ 6300000000 := by exact_mod_cast hp
    linarith
  have p2 : |rnd ((p : ℚ) / 10 ^ 9) * wq - p * wq / 10 ^ 9| ≤ 10000 := by
    have := abs_rnd_sub_le p1
    rw [show rnd ((p : ℚ) / 10 ^ 9) * wq - p * wq / 10 ^ 9 = (rnd ((p : ℚ) / 10 ^ 9) - p / 10 ^ 9) * wq by ring, abs_mul, abs_of_pos hw]
    calc _ ≤ 6.3 / 2 ^ 53 * wq := by gcongr
      _ ≤ _ := by norm_num [wq]
  have p3 := rnd_le p1
  have eA : ((p * WI + q * ta : ℤ) : ℚ) / 10 ^ 9 = p * wq / 10 ^ 9 + ta * (q / 10 ^ 9) := by
    push_cast [WI_cast]; ring
  rw [eA]
  split_ifs with h0
  · subst h0
    have : F64.mul t (rnd (((0 : ℤ) : ℚ) / 10 ^ 9)) = 0 := by simp [F64.mul]
    rw [this]
    have := (add_err (x := rnd ((p : ℚ) / 10 ^ 9)) (y := 0) (Y := 0) (ey := 0) (by' := 0) p2 (by simp) p3 (by simp)).1
    simp only [Int.cast_zero, zero_div, mul_zero]
    refine this.trans ?_
    norm_num [wq]
  · have q1 : |(q : ℚ) / 10 ^ 9| ≤ 244288 := by
      rw [abs_div, abs_of_pos (by norm_num : (0 : ℚ) < 10 ^ 9), div_le_iff₀ (by norm_num)]
      have : |(q : ℚ)| ≤ 244288000000000 := by exact_mod_cast hq
      linarith
    obtain ⟨k1, k2⟩ := prod_err ht hB q1
    have := (add_err p2 k1 p3 k2).1
    refine this.trans ?_
    have : (3 * 20 * 244288 / 2 ^ 53 * wq + (6.3 * (1 + 1 / 2 ^ 53) + 20 * 244288 * (1 + 3 / 2 ^ 53)) / 2 ^ 53 * wq : ℚ) ≤ 100000000000 := by
      norm_num [wq]
    linarith

theorem div_abs_le {a B : ℤ} {D C : ℚ} (hD : 0 < D) (h : |a| ≤ B) (hC : (B : ℚ) ≤ C * D) : |(a : ℚ) / D| ≤ C := by
  rw [abs_div, abs_of_pos hD, div_le_iff₀ hD]
  have : |(a : ℚ)| ≤ B := by exact_mod_cast h
  linarith

/-- the argument of the cosine in a row of `XL1` -/
theorem mArg {p q r s u : ℤ} (hp : |p| ≤ 630000000) (hq : |q| ≤ 57395900000000) (hr : |r| ≤ 89000000) (hs : |s| ≤ 1250000)
    (hu : |u| ≤ 1000000) {t t2 t3 t4 r1 r2 r3 r4 : ℚ} {a1 a2 a3 a4 : ℤ} (ht1 : |t * wq - a1| ≤ r1) (ht2 : |t2 * wq - a2| ≤ r2)
    (ht3 : |t3 * wq - a3| ≤ r3) (ht4 : |t4 * wq - a4| ≤ r4) (hb1 : |t| ≤ 100) (hb2 : |t2| ≤ 100) (hb3 : |t3| ≤ 100) (hb4 : |t4| ≤ 100) :
    |F64.add (F64.add (F64.add (F64.add (rnd (p / 10 ^ 8)) (F64.mul t (rnd (q / 10 ^ 9)))) (F64.mul t2 (rnd (r / 10 ^ 7))))
      (F64.mul t3 (rnd (s / 10 ^ 4)))) (F64.mul t4 (rnd (u / 10 ^ 6))) * wq -
      (p * 10 * WI + q * a1 + 100 * r * a2 + 100000 * s * a3 + 1000 * u * a4 : ℤ) / 10 ^ 9| ≤
      57395.9 * r1 + 8.9 * r2 + 125 * r3 + r4 + 190000000000 := by
  have hw := wq_pos
  have p1 : |(p : ℚ) / 10 ^ 8| ≤ 6.3 := div_abs_le (by norm_num) hp (by norm_num)
  have q1 : |(q : ℚ) / 10 ^ 9| ≤ 57395.9 := div_abs_le (by norm_num) hq (by norm_num)
  have v1 : |(r : ℚ) / 10 ^ 7| ≤ 8.9 := div_abs_le (by norm_num) hr (by norm_num)
  have s1 : |(s : ℚ) / 10 ^ 4| ≤ 125 := div_abs_le (by norm_num) hs (by norm_num)
  have u1 : |(u : ℚ) / 10 ^ 6| ≤ 1 := div_abs_le (by norm_num) hu (by norm_num)
  have p2 : |rnd ((p : ℚ) / 10 ^ 8) * wq - p * wq / 10 ^ 8| ≤ 10000 := by
    have := abs_rnd_sub_le p1
    rw [show rnd ((p : ℚ) / 10 ^ 8) * wq - p * wq / 10 ^ 8 = (rnd ((p : ℚ) / 10 ^ 8) - p / 10 ^ 8) * wq by ring, abs_mul, abs_of_pos hw]
    calc _ ≤ 6.3 / 2 ^ 53 * wq := by gcongr
      _ ≤ _ := by norm_num [wq]
  have p3 := rnd_le p1
  have eA : ((p * 10 * WI + q * a1 + 100 * r * a2 + 100000 * s * a3 + 1000 * u * a4 : ℤ) : ℚ) / 10 ^ 9 =
      p * wq / 10 ^ 8 + a1 * (q / 10 ^ 9) + a2 * (r / 10 ^ 7) + a3 * (s / 10 ^ 4) + a4 * (u / 10 ^ 6) := by
    push_cast [WI_cast]; ring
  rw [eA]
  obtain ⟨k1, k1'⟩ := prod_err ht1 hb1 q1
  obtain ⟨k2, k2'⟩ := prod_err ht2 hb2 v1
  obtain ⟨k3, k3'⟩ := prod_err ht3 hb3 s1
  obtain ⟨k4, k4'⟩ := prod_err ht4 hb4 u1
  obtain ⟨m1, m1'⟩ := add_err p2 k1 p3 k1'
  obtain ⟨m2, m2'⟩ := add_err m1 k2 m1' k2'
  obtain ⟨m3, m3'⟩ := add_err m2 k3 m2' k3'
  obtain ⟨m4, -⟩ := add_err m3 k4 m3' k4'
  refine m4.trans ?_
  norm_num [wq]
  linarith

end Rows

namespace Aff
open Rows
variable {c : ℤ} {h θ : ℕ} {n : ℤ}

theorem mag_bound (hn : |n - c| ≤ h) {f : Aff c h θ} {x : ℚ} (H : f.Mem n x) (ok : f.ok = true) {B : ℕ} (hB : mag f ≤ B * W) : |x| ≤ B := by
  have h1 := mag_le hn H ok
  have hw := wq_pos
  have h2 : ((mag f : ℕ) : ℚ) ≤ B * wq := by
    rw [← W_cast]; exact_mod_cast hB
  rw [abs_mul, abs_of_pos hw] at h1
  exact le_of_mul_le_mul_right (h1.trans h2) hw

theorem point {f : Aff c 0 θ} {x : ℚ} (hn : |n - c| ≤ (0 : ℕ)) (H : f.Mem n x) (ok : f.ok = true) : |x * wq - f.a| ≤ f.r := by
  have h1 := H ok
  have : (n : ℚ) - c = 0 := by
    have : n - c = 0 := by simpa using hn
    exact_mod_cast this
  rw [this] at h1
  simpa using h1

theorem mag_nat {f : Aff c h θ} {B : ℕ} (hB : mag f ≤ B) : f.a.natAbs ≤ B := by
  rw [mag_eq] at hB; omega

theorem a_le {a : ℤ} {B : ℕ} (ha : a.natAbs ≤ B * W) : |a| ≤ B * 10000000000000000051 := by
  have hW : W = 10000000000000000051 := rfl
  rw [hW] at ha
  rw [Int.abs_eq_natAbs]
  exact_mod_cast ha

theorem eAngle_le {p q a : ℤ} (hp : |p| ≤ 6300000000) (hq : |q| ≤ 244288000000000) (ha : a.natAbs ≤ 20 * W) :
    |p * WI + q * a| ≤ 10 ^ 35 := by
  have ha := a_le (B := 20) ha
  have hW : (WI : ℤ) = 10000000000000000051 := rfl
  rw [hW]
  calc |p * 10000000000000000051 + q * a| ≤ |p * 10000000000000000051| + |q * a| := abs_add_le _ _
    _ = |p| * |10000000000000000051| + |q| * |a| := by rw [abs_mul, abs_mul]
    _ ≤ 6300000000 * |10000000000000000051| + 244288000000000 * ((20 : ℕ) * 10000000000000000051) := by gcongr
    _ ≤ _ := by norm_num

theorem eGroup_point (hn : |n - c| ≤ (0 : ℕ)) {M : Libm} (hM : M.Good) {k : ℤ} {i : ℕ} {f : Aff c 0 θ} {t : Fl M} (hf : f.Mem n t.v) :
    (eGroup k i f).Mem n (FloatLike.eGroup k i t).v := by
  unfold eGroup
  rw [show Nat.beq 0 0 = true from rfl, cond_true, eLoop_eq]
  refine mk'_mem hn fun ok => ?_
  simp only [Bool.and_eq_true, Nat.ble_eq] at ok
  obtain ⟨⟨ok1, ok2⟩, ok3⟩ := ok
  have ht := point hn hf ok2
  have hB : |t.v| ≤ 20 := by exact_mod_cast mag_bound hn hf ok2 (B := 20) ok3
  rw [eRows_eq k i ok1]
  set l := (XL0 i).take (eCount k i (XL0 i).length) with hl
  obtain ⟨b1, b2⟩ := eBound i
  have len : l.length ≤ 186 := by rw [hl]; exact (List.length_take_le' _ _).trans b1
  have mem : ∀ x ∈ l, |x.1| ≤ 2 ^ 53 ∧ |x.2.1| ≤ 6300000000 ∧ |x.2.2| ≤ 244288000000000 := fun x hx => b2 x (List.mem_of_mem_take hx)
  have key := sum_err l (by omega) (Fl.eTerm t) (fun x => x.1 * ((W : ℚ) - cosY ((x.2.1 * WI + x.2.2 * f.a) % TPI).toNat))
    (fun x => (if x.2.2 = 0 then 0 else |(x.1 : ℚ)|) * (244288 * f.r + 100000000000) + |(x.1 : ℚ)| * 302000) (fun x => |(x.1 : ℚ)| * (1 + 1 / 2 ^ 53)) (by
      rintro ⟨a, p, q⟩ hx
      obtain ⟨ha, hp, hq⟩ := mem _ hx
      simp only at ha hp hq ⊢
      have e := eArg hp hq ht hB
      have ra : rnd (a : ℚ) = a := rnd_int ha
      have hA := eAngle_le hp hq (mag_nat ok3)
      obtain ⟨e1, e2, -⟩ := row_err hM (α := (a : ℚ)) e hA
      rw [Fl.eTerm, ra]
      refine ⟨e1.trans_eq ?_, e2⟩
      split_ifs <;> ring)
  have g1 : (((Int.subNatNat
      (0 + (List.map (fun r : ERow => r.ap * W + r.an * cosY ((r.p + r.q * (f.a % TPI).toNat) % TP)) (l.map encE)).sum)
      (0 + (List.map (fun r : ERow => r.ap * cosY ((r.p + r.q * (f.a % TPI).toNat) % TP) + r.an * W) (l.map encE)).sum) : ℤ)) : ℚ) =
      (l.map (fun x : ℤ × ℤ × ℤ => x.1 * ((W : ℚ) - cosY ((x.2.1 * WI + x.2.2 * f.a) % TPI).toNat))).sum := by
    rw [Int.subNatNat_eq_coe, Nat.zero_add, Nat.zero_add, Int.cast_sub, Int.cast_natCast, Int.cast_natCast,
      List.map_map, List.map_map, sum_cast, sum_cast]
    apply sum_sub
    rintro ⟨a, p, q⟩ _
    rw [Function.comp_apply, Function.comp_apply, eAngle]
    exact pn_eq a W _
  have g2 : (((0 + (List.map (fun r : ERow => r.g) (l.map encE)).sum : ℕ)) : ℚ) =
      (l.map (fun x : ℤ × ℤ × ℤ => if x.2.2 = 0 then 0 else |(x.1 : ℚ)|)).sum := by
    rw [Nat.zero_add, List.map_map, sum_cast]
    congr 1
    apply List.map_congr_left
    rintro ⟨a, p, q⟩ _
    simp only [Function.comp, encE]
    split_ifs
    · simp
    · rw [Nat.cast_natAbs, Int.cast_abs]
  have g3 : (((0 + (List.map (fun r : ERow => r.ap + r.an) (l.map encE)).sum : ℕ)) : ℚ) =
      (l.map (fun x : ℤ × ℤ × ℤ => |(x.1 : ℚ)|)).sum := by
    rw [Nat.zero_add, List.map_map, sum_cast]
    congr 1
    apply List.map_congr_left
    rintro ⟨a, p, q⟩ _
    simp only [Function.comp, encE]
    push_cast
    exact (ap_an a).2
  have e0 : (FloatLike.eGroup k i t).v = (l.map (Fl.eTerm t)).foldl F64.add 0 := rfl
  rw [e0, g1]
  simp only [Nat.add_eq, Nat.mul_eq]
  rw [Nat.cast_add, Nat.cast_mul, Nat.cast_mul, g2, g3]
  rw [sum_add', sum_mul', sum_mul', sum_mul'] at key
  have s0 : 0 ≤ (l.map (fun x : ℤ × ℤ × ℤ => |(x.1 : ℚ)|)).sum :=
    List.sum_nonneg (by simp only [List.mem_map]; rintro _ ⟨y, _, rfl⟩; exact abs_nonneg _)
  clear g1 g2 g3 e0
  generalize (l.map (fun x : ℤ × ℤ × ℤ => |(x.1 : ℚ)|)).sum = S at key s0 ⊢
  generalize (l.map (fun x : ℤ × ℤ × ℤ => if x.2.2 = 0 then 0 else |(x.1 : ℚ)|)).sum = G at key ⊢
  generalize (l.map (fun x : ℤ × ℤ × ℤ => x.1 * ((W : ℚ) - cosY ((x.2.1 * WI + x.2.2 * f.a) % TPI).toNat))).sum = V at key ⊢
  generalize (l.map (Fl.eTerm t)).foldl F64.add 0 = X at key ⊢
  rw [Int.cast_zero, zero_mul, add_zero]
  refine key.trans ?_
  push_cast
  have hc : S * 302000 + 990000 * (S * (1 + 1 / 2 ^ 53)) ≤ S * 1300000 := by nlinarith
  linarith

theorem mAngle_le {p q r s u a1 a2 a3 a4 : ℤ} (hp : |p| ≤ 630000000) (hq : |q| ≤ 57395900000000) (hr : |r| ≤ 89000000) (hs : |s| ≤ 1250000)
    (hu : |u| ≤ 1000000) (h1 : a1.natAbs ≤ 100 * W) (h2 : a2.natAbs ≤ 100 * W) (h3 : a3.natAbs ≤ 100 * W) (h4 : a4.natAbs ≤ 100 * W) :
    |p * 10 * WI + q * a1 + 100 * r * a2 + 100000 * s * a3 + 1000 * u * a4| ≤ 10 ^ 35 := by
  have h1 := a_le (B := 100) h1
  have h2 := a_le (B := 100) h2
  have h3 := a_le (B := 100) h3
  have h4 := a_le (B := 100) h4
  have hW : (WI : ℤ) = 10000000000000000051 := rfl
  rw [hW]
  have k1 : |p * 10 * 10000000000000000051| ≤ 630000000 * 10 * 10000000000000000051 := by
    rw [abs_mul, abs_mul]; gcongr <;> norm_num
  have k2 : |q * a1| ≤ 57395900000000 * ((100 : ℕ) * 10000000000000000051) := by rw [abs_mul]; gcongr
  have k3 : |100 * r * a2| ≤ 100 * 89000000 * ((100 : ℕ) * 10000000000000000051) := by
    rw [abs_mul, abs_mul]; gcongr; norm_num
  have k4 : |100000 * s * a3| ≤ 100000 * 1250000 * ((100 : ℕ) * 10000000000000000051) := by
    rw [abs_mul, abs_mul]; gcongr; norm_num
  have k5 : |1000 * u * a4| ≤ 1000 * 1000000 * ((100 : ℕ) * 10000000000000000051) := by
    rw [abs_mul, abs_mul]; gcongr; norm_num
  refine (abs_add_le _ _).trans ((add_le_add ((abs_add_le _ _).trans (add_le_add ((abs_add_le _ _).trans
    (add_le_add (abs_add_le _ _) le_rfl)) le_rfl)) le_rfl).trans ?_)
  refine (add_le_add (add_le_add (add_le_add (add_le_add k1 k2) k3) k4) k5).trans ?_
  norm_num

theorem mGroup_point (hn : |n - c| ≤ (0 : ℕ)) {M : Libm} (hM : M.Good) {k : ℤ} {i : ℕ} {f f2 f3 f4 : Aff c 0 θ} {t t2 t3 t4 : Fl M}
    (hf : f.Mem n t.v) (hf2 : f2.Mem n t2.v) (hf3 : f3.Mem n t3.v) (hf4 : f4.Mem n t4.v) :
    (mGroup k i f f2 f3 f4).Mem n (FloatLike.mGroup k i t t2 t3 t4).v := by
  unfold mGroup
  rw [show Nat.beq 0 0 = true from rfl, cond_true, mLoop_eq]
  refine mk'_mem hn fun ok => ?_
  simp only [Bool.and_eq_true, Nat.ble_eq] at ok
  obtain ⟨⟨⟨⟨⟨⟨⟨⟨ok1, o1⟩, o2⟩, o3⟩, o4⟩, m1⟩, m2⟩, m3⟩, m4⟩ := ok
  have ht1 := point hn hf o1
  have ht2 := point hn hf2 o2
  have ht3 := point hn hf3 o3
  have ht4 := point hn hf4 o4
  have hB1 : |t.v| ≤ 100 := by exact_mod_cast mag_bound hn hf o1 (B := 100) m1
  have hB2 : |t2.v| ≤ 100 := by exact_mod_cast mag_bound hn hf2 o2 (B := 100) m2
  have hB3 : |t3.v| ≤ 100 := by exact_mod_cast mag_bound hn hf3 o3 (B := 100) m3
  have hB4 : |t4.v| ≤ 100 := by exact_mod_cast mag_bound hn hf4 o4 (B := 100) m4
  rw [mRows_eq k i ok1]
  set l := (XL1 i).take (mCount k i (XL1 i).length) with hl
  obtain ⟨b1, b2⟩ := mBound i
  have len : l.length ≤ 442 := by rw [hl]; exact (List.length_take_le' _ _).trans b1
  have mem : ∀ x ∈ l, |x.2.1| ≤ 630000000 ∧ |x.2.2.1| ≤ 57395900000000 ∧
    |x.2.2.2.1| ≤ 89000000 ∧ |x.2.2.2.2.1| ≤ 1250000 ∧ |x.2.2.2.2.2| ≤ 1000000 := fun x hx => b2 x (List.mem_of_mem_take hx)
  set ρ : ℚ := 57395.9 * f.r + 8.9 * f2.r + 125 * f3.r + f4.r + 190000000000 with hρ
  have key := sum_err l len (Fl.mTerm t t2 t3 t4) (fun x => x.1 * ((W : ℚ) - cosY ((x.2.1 * 10 * WI + x.2.2.1 * f.a + 100 * x.2.2.2.1 * f2.a +
      100000 * x.2.2.2.2.1 * f3.a + 1000 * x.2.2.2.2.2 * f4.a) % TPI).toNat) * (1 / 10 ^ 7))
    (fun x => |(x.1 : ℚ)| * (((1 + 1 / 2 ^ 53) * (ρ + 262000) + 3000) / 10 ^ 7)) (fun x => |(x.1 : ℚ)| * ((1 + 1 / 2 ^ 51) / 10 ^ 7)) (by
      rintro ⟨a, p, q, r, s, u⟩ hx
      obtain ⟨hp, hq, hr, hs, hu⟩ := mem _ hx
      simp only at hp hq hr hs hu ⊢
      have e := mArg hp hq hr hs hu ht1 ht2 ht3 ht4 hB1 hB2 hB3 hB4
      have hA := mAngle_le hp hq hr hs hu (mag_nat m1) (mag_nat m2) (mag_nat m3) (mag_nat m4)
      obtain ⟨e1, e2, e3⟩ := row_err hM (α := rnd ((a : ℚ) / 10 ^ 7)) e hA
      rw [Fl.mTerm]
      have ra : |rnd ((a : ℚ) / 10 ^ 7) - a / 10 ^ 7| ≤ |(a : ℚ)| / 10 ^ 7 / 2 ^ 53 := by
        have := abs_rnd_sub_le_rel ((a : ℚ) / 10 ^ 7)
        rwa [abs_div, abs_of_pos (by norm_num : (0 : ℚ) < 10 ^ 7)] at this
      have rb : |rnd ((a : ℚ) / 10 ^ 7)| ≤ |(a : ℚ)| / 10 ^ 7 * (1 + 1 / 2 ^ 53) := by
        have : |(a : ℚ) / 10 ^ 7| ≤ |(a : ℚ)| / 10 ^ 7 := by rw [abs_div, abs_of_pos (by norm_num : (0 : ℚ) < 10 ^ 7)]
        exact rnd_le this
      have ρ0 : 0 ≤ ρ := by rw [hρ]; positivity
      constructor
      · generalize F64.mul (rnd ((a : ℚ) / 10 ^ 7)) (M.cos _) * wq = X at e1 ⊢
        generalize (W : ℚ) - _ = V at e1 e3 ⊢
        have : X - a * V * (1 / 10 ^ 7) = (X - rnd ((a : ℚ) / 10 ^ 7) * V) + (rnd ((a : ℚ) / 10 ^ 7) - a / 10 ^ 7) * V := by ring
        rw [this]
        refine (abs_add_le _ _).trans ?_
        have k1 : |(rnd ((a : ℚ) / 10 ^ 7) - a / 10 ^ 7) * V| ≤ |(a : ℚ)| / 10 ^ 7 / 2 ^ 53 * (2 * wq) := by
          rw [abs_mul]; exact mul_le_mul ra e3 (abs_nonneg _) (by positivity)
        have k2 : |rnd ((a : ℚ) / 10 ^ 7)| * (ρ + 262000) ≤ |(a : ℚ)| / 10 ^ 7 * (1 + 1 / 2 ^ 53) * (ρ + 262000) := by gcongr
        have k3 : (1 : ℚ) / 2 ^ 53 * (2 * wq) ≤ 3000 := by norm_num [wq]
        have a0 : 0 ≤ |(a : ℚ)| / 10 ^ 7 := by positivity
        calc _ ≤ |(a : ℚ)| / 10 ^ 7 * (1 + 1 / 2 ^ 53) * (ρ + 262000) + |(a : ℚ)| / 10 ^ 7 / 2 ^ 53 * (2 * wq) :=
              add_le_add (e1.trans k2) k1
          _ = |(a : ℚ)| / 10 ^ 7 * ((1 + 1 / 2 ^ 53) * (ρ + 262000) + 1 / 2 ^ 53 * (2 * wq)) := by ring
          _ ≤ |(a : ℚ)| / 10 ^ 7 * ((1 + 1 / 2 ^ 53) * (ρ + 262000) + 3000) := by gcongr
          _ = _ := by ring
      · refine e2.trans ?_
        calc _ ≤ |(a : ℚ)| / 10 ^ 7 * (1 + 1 / 2 ^ 53) * (1 + 1 / 2 ^ 53) := mul_le_mul_of_nonneg_right rb (by norm_num)
          _ = |(a : ℚ)| * ((1 + 1 / 2 ^ 53) * (1 + 1 / 2 ^ 53) / 10 ^ 7) := by ring
          _ ≤ _ := mul_le_mul_of_nonneg_left (by norm_num) (abs_nonneg _))
  have g1 : (((Int.subNatNat
      (0 + (List.map (fun r : MRow => r.ap * W + r.an * cosY ((r.p + r.q * (f.a % TPI).toNat + r.r * (f2.a % TPI).toNat +
        r.s * (f3.a % TPI).toNat + r.u * (f4.a % TPI).toNat) % TP)) (l.map encM)).sum)
      (0 + (List.map (fun r : MRow => r.ap * cosY ((r.p + r.q * (f.a % TPI).toNat + r.r * (f2.a % TPI).toNat +
        r.s * (f3.a % TPI).toNat + r.u * (f4.a % TPI).toNat) % TP) + r.an * W) (l.map encM)).sum) : ℤ)) : ℚ) =
      (l.map (fun x : ℤ × ℤ × ℤ × ℤ × ℤ × ℤ => x.1 * ((W : ℚ) - cosY ((x.2.1 * 10 * WI + x.2.2.1 * f.a + 100 * x.2.2.2.1 * f2.a +
      100000 * x.2.2.2.2.1 * f3.a + 1000 * x.2.2.2.2.2 * f4.a) % TPI).toNat))).sum := by
    rw [Int.subNatNat_eq_coe, Nat.zero_add, Nat.zero_add, Int.cast_sub, Int.cast_natCast, Int.cast_natCast,
      List.map_map, List.map_map, sum_cast, sum_cast]
    apply sum_sub
    rintro ⟨a, p, q, r, s, u⟩ _
    rw [Function.comp_apply, Function.comp_apply, mAngle]
    exact pn_eq a W _
  have g3 : (((0 + (List.map (fun r : MRow => r.ap + r.an) (l.map encM)).sum : ℕ)) : ℚ) =
      (l.map (fun x : ℤ × ℤ × ℤ × ℤ × ℤ × ℤ => |(x.1 : ℚ)|)).sum := by
    rw [Nat.zero_add, List.map_map, sum_cast]
    congr 1
    apply List.map_congr_left
    rintro ⟨a, p, q, r, s, u⟩ _
    simp only [Function.comp, encM]
    push_cast
    exact (ap_an a).2
  have e0 : (FloatLike.mGroup k i t t2 t3 t4).v = (l.map (Fl.mTerm t t2 t3 t4)).foldl F64.add 0 := rfl
  rw [e0]
  have hdiv : ∀ a b : ℕ, Nat.div a b = a / b := fun _ _ => rfl
  simp only [Nat.add_eq, Nat.mul_eq, hdiv]
  rw [sum_mul', sum_mul', sum_mul'] at key
  have s0 : 0 ≤ (l.map (fun x : ℤ × ℤ × ℤ × ℤ × ℤ × ℤ => |(x.1 : ℚ)|)).sum :=
    List.sum_nonneg (by simp only [List.mem_map]; rintro _ ⟨y, _, rfl⟩; exact abs_nonneg _)
  rw [← g1, ← g3] at key
  rw [← g3] at s0
  clear g1 g3 e0
  generalize (Int.subNatNat _ _ : ℤ) = V at key ⊢
  generalize (0 + (List.map (fun r : MRow => r.ap + r.an) (l.map encM)).sum : ℕ) = S at key s0 ⊢
  generalize (l.map (Fl.mTerm t t2 t3 t4)).foldl F64.add 0 = X at key ⊢
  rw [Int.cast_zero, zero_mul, add_zero]
  have d1 := ediv_err V (q := Int.ofNat 10000000) (by decide)
  have hD : ((Int.ofNat 10000000 : ℤ) : ℚ) = 10 ^ 7 := by norm_num
  rw [hD] at d1
  have d2 := ndiv_le (S * (57396 * f.r + 9 * f2.r + 126 * f3.r + 2 * f4.r + 200001000000)) 10000000 (by norm_num)
  generalize ((V / Int.ofNat 10000000 : ℤ)) = V' at d1 ⊢
  generalize (S * (57396 * f.r + 9 * f2.r + 126 * f3.r + 2 * f4.r + 200001000000) / 10000000 : ℕ) = R at d2 ⊢
  push_cast at d2 ⊢
  have d3 : (S : ℚ) * (((1 + 1 / 2 ^ 53) * (ρ + 262000) + 3000) / 10 ^ 7) + 990000 * (S * ((1 + 1 / 2 ^ 51) / 10 ^ 7)) ≤
      S * (57396 * f.r + 9 * f2.r + 126 * f3.r + 2 * f4.r + 200001000000) / 10000000 := by
    have r1 : (0 : ℚ) ≤ f.r := by positivity
    have r2 : (0 : ℚ) ≤ f2.r := by positivity
    have r3 : (0 : ℚ) ≤ f3.r := by positivity
    have r4 : (0 : ℚ) ≤ f4.r := by positivity
    have : (1 + 1 / 2 ^ 53) * (ρ + 262000) + 3000 + 990000 * (1 + 1 / 2 ^ 51) ≤
        57396 * f.r + 9 * f2.r + 126 * f3.r + 2 * f4.r + 200001000000 := by
      rw [hρ]; linarith
    calc _ = (S : ℚ) * ((1 + 1 / 2 ^ 53) * (ρ + 262000) + 3000 + 990000 * (1 + 1 / 2 ^ 51)) / 10000000 := by ring
      _ ≤ _ := by gcongr
  rw [show X * wq - V' = (X * wq - V * (1 / 10 ^ 7)) + (V / 10 ^ 7 - V') by ring]
  refine (abs_add_le _ _).trans ?_
  linarith

/-! ## Blocks -/

theorem forceA_eq {β : Type} (f : Aff c h θ) (k : Aff c h θ → β) : forceA f k = k f := by cases f; rfl

theorem ball_mem {a : ℤ} {y : ℚ} (hy : |y| ≤ 1) (ha : |a| ≤ 2 ^ 53) :
    (⟨0, 0, a.natAbs * (W + 2000), true⟩ : Aff c h θ).Mem n (F64.mul (rnd a) y) := by
  intro _
  have ra : rnd (a : ℚ) = a := rnd_int ha
  have hw := wq_pos
  have h1 : |(a : ℚ) * y| ≤ |(a : ℚ)| := by rw [abs_mul]; exact mul_le_of_le_one_right (abs_nonneg _) hy
  have h2 := rnd_le h1
  show |F64.mul (rnd a) y * wq - (((0 : ℤ) : ℚ) + ((0 : ℤ) : ℚ) * (n - c))| ≤ ((a.natAbs * (W + 2000) : ℕ) : ℚ)
  rw [ra, Nat.cast_mul, Nat.cast_add, W_cast, Nat.cast_natAbs, Int.cast_abs]
  simp only [Int.cast_zero, zero_mul, add_zero, sub_zero]
  rw [abs_mul, abs_of_pos hw]
  have : (1 + 1 / 2 ^ 53) * wq ≤ wq + (2000 : ℕ) := by norm_num [wq]
  calc _ ≤ |(a : ℚ)| * (1 + 1 / 2 ^ 53) * wq := mul_le_mul_of_nonneg_right h2 hw.le
    _ = |(a : ℚ)| * ((1 + 1 / 2 ^ 53) * wq) := by ring
    _ ≤ _ := by gcongr

theorem eBlock_mem (d : ℕ) (hn : |n - c| ≤ h) {M : Libm} (hM : M.Good) {f : Aff c h θ} {t : Fl M} (hf : f.Mem n t.v)
    (rows : List (ℤ × ℤ × ℤ)) (hr : ∀ x ∈ rows, |x.1| ≤ 2 ^ 53) (acc : Aff c h θ) (s : ℚ) (hs : acc.Mem n s) :
    (eBlock d f rows acc).Mem n ((rows.map (Fl.eTerm t)).foldl F64.add s) := by
  induction rows generalizing acc s with
  | nil => exact hs
  | cons x rows ih =>
    obtain ⟨a, p, q⟩ := x
    have e : eBlock d f ((a, p, q) :: rows) acc = eBlock d f rows (add acc (bif Nat.ble θ (a.natAbs * d)
        then mul (lit a 0) (cos (add (lit p 9) (mul f (lit q 9)))) else ⟨0, 0, a.natAbs * (W + 2000), true⟩)) := by
      show forceA _ _ = _
      rw [forceA_eq]
      rfl
    rw [e, List.map_cons, List.foldl_cons]
    refine ih (fun y hy => hr y (by simp [hy])) _ _ (add_mem hn hs ?_)
    cases hθ : Nat.ble θ (a.natAbs * d)
    · rw [cond_false]
      exact ball_mem (hM.cos_le _) (hr _ List.mem_cons_self)
    · rw [cond_true, Fl.eTerm]
      refine mul_mem hn ?_ (cos_mem hn hM (add_mem hn (lit_mem hn p 9) (mul_mem hn hf (lit_mem hn q 9))))
      simpa using (lit_mem hn a 0 : (lit a 0 : Aff c h θ).Mem n _)

theorem zero_mem : (⟨0, 0, 0, true⟩ : Aff c h θ).Mem n 0 := by
  intro _; simp

theorem eGroup_mem (hn : |n - c| ≤ h) {M : Libm} (hM : M.Good) {k : ℤ} {i : ℕ} {f : Aff c h θ} {t : Fl M} (hf : f.Mem n t.v) :
    (eGroup k i f).Mem n (FloatLike.eGroup k i t).v := by
  rcases Nat.eq_zero_or_pos h with h0 | h0
  · subst h0
    exact eGroup_point hn hM hf
  · unfold eGroup
    have : Nat.beq h 0 = false := by rw [← Bool.not_eq_true, Nat.beq_eq]; omega
    rw [this, cond_false]
    cases e : (eRows k i).2
    · intro ok; cases ok
    · rw [cond_true]
      have l1 : (eRows k i).1.length = ((XL0 i).take (eCount k i (XL0 i).length)).length := by
        rw [eRows_eq k i e, List.length_map]
      have l2 : (XL0 i).take (eRows k i).1.length = (XL0 i).take (eCount k i (XL0 i).length) := by
        rw [l1, List.length_take, List.take_eq_take_iff]
        omega
      rw [l2]
      exact eBlock_mem _ hn hM hf _ (fun x hx => ((eBound i).2 x (List.mem_of_mem_take hx)).1) _ _ zero_mem

theorem mGroup_mem (hn : |n - c| ≤ h) {M : Libm} (hM : M.Good) {k : ℤ} {i : ℕ} {f f2 f3 f4 : Aff c h θ} {t t2 t3 t4 : Fl M}
    (hf : f.Mem n t.v) (hf2 : f2.Mem n t2.v) (hf3 : f3.Mem n t3.v) (hf4 : f4.Mem n t4.v) :
    (mGroup k i f f2 f3 f4).Mem n (FloatLike.mGroup k i t t2 t3 t4).v := by
  rcases Nat.eq_zero_or_pos h with h0 | h0
  · subst h0
    exact mGroup_point hn hM hf hf2 hf3 hf4
  · unfold mGroup
    have : Nat.beq h 0 = false := by rw [← Bool.not_eq_true, Nat.beq_eq]; omega
    rw [this, cond_false]
    refine mk'_mem hn fun ok => ?_
    rw [mRows_eq k i ok]
    set l := (XL1 i).take (mCount k i (XL1 i).length) with hl
    have len : l.length ≤ 442 := by rw [hl]; exact (List.length_take_le' _ _).trans (mBound i).1
    have key := sum_err l len (Fl.mTerm t t2 t3 t4) (fun _ => 0)
      (fun x => |(x.1 : ℚ)| * ((1 + 1 / 2 ^ 51) / 10 ^ 7 * wq)) (fun x => |(x.1 : ℚ)| * ((1 + 1 / 2 ^ 51) / 10 ^ 7)) (by
        rintro ⟨a, p, q, r, s, u⟩ hx
        have hb : |Fl.mTerm t t2 t3 t4 (a, p, q, r, s, u)| ≤ |(a : ℚ)| * ((1 + 1 / 2 ^ 51) / 10 ^ 7) := by
          rw [Fl.mTerm]
          have rb : |rnd ((a : ℚ) / 10 ^ 7)| ≤ |(a : ℚ)| / 10 ^ 7 * (1 + 1 / 2 ^ 53) := by
            have : |(a : ℚ) / 10 ^ 7| ≤ |(a : ℚ)| / 10 ^ 7 := by rw [abs_div, abs_of_pos (by norm_num : (0 : ℚ) < 10 ^ 7)]
            exact rnd_le this
          have h1 : ∀ z, |rnd ((a : ℚ) / 10 ^ 7) * M.cos z| ≤ |(a : ℚ)| / 10 ^ 7 * (1 + 1 / 2 ^ 53) := fun z => by
            rw [abs_mul]; exact (mul_le_of_le_one_right (abs_nonneg _) (hM.cos_le z)).trans rb
          refine (rnd_le (h1 _)).trans ?_
          calc _ = |(a : ℚ)| * ((1 + 1 / 2 ^ 53) * (1 + 1 / 2 ^ 53) / 10 ^ 7) := by ring
            _ ≤ _ := mul_le_mul_of_nonneg_left (by norm_num) (abs_nonneg _)
        refine ⟨?_, hb⟩
        simp only [sub_zero]
        rw [abs_mul, abs_of_pos wq_pos, ← mul_assoc]
        exact mul_le_mul_of_nonneg_right hb wq_pos.le)
    have g3 : ((List.map (fun r : MRow => r.ap + r.an) (l.map encM)).sum : ℚ) =
        (l.map (fun x : ℤ × ℤ × ℤ × ℤ × ℤ × ℤ => |(x.1 : ℚ)|)).sum := by
      rw [List.map_map, sum_cast]
      congr 1
      apply List.map_congr_left
      rintro ⟨a, p, q, r, s, u⟩ _
      simp only [Function.comp, encM]
      push_cast
      exact (ap_an a).2
    have e0 : (FloatLike.mGroup k i t t2 t3 t4).v = (l.map (Fl.mTerm t t2 t3 t4)).foldl F64.add 0 := rfl
    rw [e0]
    have hdiv : ∀ a b : ℕ, Nat.div a b = a / b := fun _ _ => rfl
    simp only [Nat.add_eq, Nat.mul_eq, hdiv]
    rw [sum_mul', sum_mul', ← g3] at key
    have z : (l.map (fun _ => (0 : ℚ))).sum = 0 := by simp
    rw [z] at key
    clear g3 e0 z
    generalize (List.map (fun r : MRow => r.ap + r.an) (l.map encM)).sum = S at key ⊢
    generalize (l.map (Fl.mTerm t t2 t3 t4)).foldl F64.add 0 = X at key ⊢
    simp only [Int.cast_zero, zero_mul, add_zero, sub_zero] at key ⊢
    have hWM : (WM : ℚ) = 10000000000001100051 := by norm_num [WM]
    have d2 := ndiv_le (S * WM) 10000000 (by norm_num)
    generalize S * WM / 10000000 = R at d2 ⊢
    rw [Nat.cast_mul, hWM] at d2
    rw [Nat.cast_add, Nat.cast_one]
    refine key.trans (le_trans ?_ d2)
    have : (1 + 1 / 2 ^ 51) * wq + 990000 * (1 + 1 / 2 ^ 51) ≤ 10000000000001100051 := by norm_num [wq]
    calc (S : ℚ) * ((1 + 1 / 2 ^ 51) / 10 ^ 7 * wq) + 990000 * (S * ((1 + 1 / 2 ^ 51) / 10 ^ 7))
        = S * ((1 + 1 / 2 ^ 51) * wq + 990000 * (1 + 1 / 2 ^ 51)) / (10000000 : ℕ) := by push_cast; ring
      _ ≤ _ := by gcongr
end Aff
