import Verif.Proof.CosSound
import Verif.Spec.Libm

/-! # The enclosures are sound: sine and cosine -/

open Aff0 CosSound

namespace CosSound

theorem wq_real : ((wq : ℚ) : ℝ) = w := by norm_num [wq, w]

/-- `TP` stands for `2 π` -/
theorem TP_err : |(TP : ℝ) / (1000000000 * w) - 2 * Real.pi| ≤ 3 / 2 * (1 / 10 ^ 20) := by
  have pi1 := Real.pi_gt_d20
  have pi2 := Real.pi_lt_d20
  have h : ((TP : ℕ) : ℝ) = 62831853071795865089695318331 := by norm_num [TP]
  have : (62831853071795865089695318331 : ℝ) / (1000000000 * w) = 62831853071795865089695318331 / 10000000000000000051000000000 := by
    norm_num [w]
  rw [h, this, abs_le]
  constructor <;> norm_num <;> linarith

theorem cos_add_turns (x : ℝ) (k : ℤ) : Real.cos (x + k * (2 * Real.pi)) = Real.cos x := by
  simpa using Real.cos_add_int_mul_two_pi x k

/-- the angle reduced modulo `TP` -/
theorem reduce_err (A : ℤ) :
    |(w - cosY (A % TPI).toNat) / w - Real.cos (A / (1000000000 * w))| ≤
      300 / w + (|(A : ℝ)| / (6 * 10 ^ 28) + 1) * (3 / 2 * (1 / 10 ^ 20)) := by
  have hw := w_pos
  have hTPI : (TPI : ℤ) = (TP : ℕ) := rfl
  have hTpos : (0 : ℤ) < TPI := by rw [hTPI]; norm_num [TP]
  set y := (A % TPI).toNat with hy
  have y0 : (y : ℤ) = A % TPI := Int.toNat_of_nonneg (Int.emod_nonneg _ hTpos.ne')
  have y1 : y ≤ TP := by
    have := Int.emod_lt_of_pos A hTpos
    rw [← y0, hTPI] at this
    exact_mod_cast this.le
  set m := A / TPI with hm
  have hA : A = TPI * m + y := by rw [y0]; exact (Int.mul_ediv_add_emod A TPI).symm
  have hT : ((TP : ℕ) : ℝ) = 62831853071795865089695318331 := by norm_num [TP]
  have hAR : (A : ℝ) = TP * m + y := by
    have : (A : ℝ) = ((TPI * m + y : ℤ) : ℝ) := by exact_mod_cast hA
    rw [this, hTPI]; push_cast; ring
  have hmle : |(m : ℝ)| ≤ |(A : ℝ)| / (6 * 10 ^ 28) + 1 := by
    have e : (m : ℝ) = A / TP - y / TP := by
      have : (TP : ℝ) ≠ 0 := by rw [hT]; norm_num
      field_simp; linarith
    have h1 : |(A : ℝ) / TP| ≤ |(A : ℝ)| / (6 * 10 ^ 28) := by
      rw [abs_div]
      gcongr
      rw [hT]; norm_num
    have h2 : |(y : ℝ) / TP| ≤ 1 := by
      rw [abs_div, Nat.abs_cast, Nat.abs_cast, div_le_one (by rw [hT]; norm_num)]
      exact_mod_cast y1
    rw [e]
    exact (abs_sub _ _).trans (add_le_add h1 h2)
  have k1 := cosY_err y1
  have e : (A : ℝ) / (1000000000 * w) = (y / (1000000000 * w) + m * (TP / (1000000000 * w) - 2 * Real.pi)) + m * (2 * Real.pi) := by
    rw [hAR]; ring
  have k2 : |Real.cos (y / (1000000000 * w)) - Real.cos (A / (1000000000 * w))| ≤
      (|(A : ℝ)| / (6 * 10 ^ 28) + 1) * (3 / 2 * (1 / 10 ^ 20)) := by
    rw [e, cos_add_turns]
    refine (Real.abs_cos_sub_cos_le _ _).trans ?_
    rw [show (y : ℝ) / (1000000000 * w) - (y / (1000000000 * w) + m * (TP / (1000000000 * w) - 2 * Real.pi)) =
      -(m * (TP / (1000000000 * w) - 2 * Real.pi)) by ring, abs_neg, abs_mul]
    exact mul_le_mul hmle TP_err (abs_nonneg _) (by positivity)
  calc _ = |((w - cosY y) / w - Real.cos (y / (1000000000 * w))) +
        (Real.cos (y / (1000000000 * w)) - Real.cos (A / (1000000000 * w)))| := by ring_nf
    _ ≤ _ := abs_add_le _ _
    _ ≤ _ := add_le_add k1 k2

theorem cosA_err {x : ℤ} (hx : x.natAbs ≤ 100000000000000000000000000) :
    |(cosA x : ℝ) - w * Real.cos (x / w)| ≤ 260000 := by
  have hw := w_pos
  have h1 := reduce_err (x * GI)
  have hG : ((x * GI : ℤ) : ℝ) = x * 1000000000 := by
    have : GI = 1000000000 := rfl
    rw [this]; push_cast; ring
  rw [hG] at h1
  have e : cosA x = (W : ℤ) - cosY (x * GI % TPI).toNat := by
    unfold cosA
    rw [forceN_eq, Int.subNatNat_eq_coe]
  rw [e]
  set C := cosY (x * GI % TPI).toNat
  have hx' : |(x : ℝ)| ≤ 100000000000000000000000000 := by
    have : |x| ≤ 100000000000000000000000000 := by rw [Int.abs_eq_natAbs]; exact_mod_cast hx
    exact_mod_cast this
  have e2 : (x : ℝ) * 1000000000 / (1000000000 * w) = x / w := by field_simp
  rw [e2] at h1
  have hWw : (((W : ℕ) : ℤ) : ℝ) = w := by norm_num [W, w]
  push_cast
  have hWw : ((W : ℕ) : ℝ) = w := by norm_num [W, w]
  rw [hWw]
  have e3 : (w - (C : ℝ)) - w * Real.cos (x / w) = w * ((w - C) / w - Real.cos (x / w)) := by field_simp
  rw [e3, abs_mul, abs_of_pos hw]
  refine (mul_le_mul_of_nonneg_left h1 hw.le).trans ?_
  rw [abs_mul, abs_of_pos (by norm_num : (0 : ℝ) < 1000000000)]
  have : w * (300 / w + (|(x : ℝ)| * 1000000000 / (6 * 10 ^ 28) + 1) * (3 / 2 * (1 / 10 ^ 20))) =
      300 + w * (3 / 2 * (1 / 10 ^ 20)) * (|(x : ℝ)| * 1000000000 / (6 * 10 ^ 28) + 1) := by field_simp
  rw [this]
  have h5 : w * (3 / 2 * (1 / 10 ^ 20)) ≤ 0.151 := by norm_num [w]
  have h6 : |(x : ℝ)| * 1000000000 / (6 * 10 ^ 28) + 1 ≤ 1666668 := by
    have : |(x : ℝ)| * 1000000000 / (6 * 10 ^ 28) ≤ 100000000000000000000000000 * 1000000000 / (6 * 10 ^ 28) := by gcongr
    norm_num at this ⊢
    linarith
  have h7 : w * (3 / 2 * (1 / 10 ^ 20)) * (|(x : ℝ)| * 1000000000 / (6 * 10 ^ 28) + 1) ≤ 0.151 * 1666668 := by
    gcongr
  linarith

end CosSound

namespace Aff
variable {c : ℤ} {h θ : ℕ} {n : ℤ}

theorem cast_div_le {p q r : ℕ} (e : (p : ℚ) / q ≤ r + 1) : (p : ℝ) / q ≤ r + 1 := by
  have := (Rat.cast_le (K := ℝ)).2 e
  push_cast at this
  exact this

/-- second order bound for the cosine -/
theorem cos_taylor (α : ℝ) {β : ℝ} (hβ : |β| ≤ 1) : |Real.cos (α + β) - (Real.cos α - Real.sin α * β)| ≤ 3 / 4 * β ^ 2 := by
  have e : Real.cos (α + β) - (Real.cos α - Real.sin α * β) = Real.cos α * (Real.cos β - 1) + Real.sin α * (β - Real.sin β) := by
    rw [Real.cos_add]; ring
  rw [e]
  have h1 : |Real.cos β - 1| ≤ β ^ 2 / 2 := by
    rw [abs_le]
    have := Real.one_sub_sq_div_two_le_cos (x := β)
    have := Real.cos_le_one β
    constructor <;> nlinarith
  have h2 : |β - Real.sin β| ≤ 1 / 4 * β ^ 2 := by
    have h3 := Real.sin_bound hβ
    have h4 : |β - Real.sin β| ≤ |β ^ 3 / 6| + |β| ^ 5 / 100 := by
      rw [show β - Real.sin β = β ^ 3 / 6 - (Real.sin β - (β - β ^ 3 / 6)) by ring]
      exact (abs_sub _ _).trans (add_le_add le_rfl h3)
    have h5 : |β ^ 3 / 6| = |β| ^ 3 / 6 := by rw [abs_div, abs_pow]; norm_num
    have h0 := abs_nonneg β
    have h6 : |β| ^ 3 ≤ |β| ^ 2 := pow_le_pow_of_le_one h0 hβ (by norm_num)
    have h7 : |β| ^ 5 ≤ |β| ^ 2 := pow_le_pow_of_le_one h0 hβ (by norm_num)
    have h8 : |β| ^ 2 = β ^ 2 := sq_abs β
    rw [h5] at h4
    nlinarith [sq_nonneg β]
  have c1 := Real.abs_cos_le_one α
  have s1 := Real.abs_sin_le_one α
  calc _ ≤ |Real.cos α * (Real.cos β - 1)| + |Real.sin α * (β - Real.sin β)| := abs_add_le _ _
    _ ≤ 1 * (β ^ 2 / 2) + 1 * (1 / 4 * β ^ 2) := by
      rw [abs_mul, abs_mul]
      exact add_le_add (mul_le_mul c1 h1 (abs_nonneg _) (by norm_num)) (mul_le_mul s1 h2 (abs_nonneg _) (by norm_num))
    _ = _ := by ring

/-- a slope and the slope without whole turns -/
theorem turns (hn : |n - c| ≤ h) {B m b : ℤ} (hb : b = bif Nat.beq h 0 then 0 else (B * GI - m * TPI) / GI) :
    ∃ j : ℤ, |(B : ℝ) * (n - c) / w - j * (2 * Real.pi) - b * (n - c) / w| ≤ (m.natAbs + 1) * h / w := by
  have hw := w_pos
  have hd : |(n : ℝ) - c| ≤ h := by exact_mod_cast hn
  by_cases h0 : h = 0
  · refine ⟨0, ?_⟩
    rw [h0] at hd
    have : (n : ℝ) - c = 0 := by simpa using hd
    rw [this]
    simp
    positivity
  · refine ⟨(n - c) * m, ?_⟩
    have h0' : Nat.beq h 0 = false := by rw [← Bool.not_eq_true, Nat.beq_eq]; exact h0
    rw [h0', cond_false] at hb
    have hG : (0 : ℤ) < GI := by decide
    have g1 := Int.emod_nonneg (B * GI - m * TPI) hG.ne'
    have g2 := Int.emod_lt_of_pos (B * GI - m * TPI) hG
    have g3 := Int.mul_ediv_add_emod (B * GI - m * TPI) GI
    rw [← hb] at g3
    set s := (B * GI - m * TPI) % GI with hs
    have hGR : ((GI : ℤ) : ℝ) = 1000000000 := by
      have : GI = 1000000000 := rfl
      rw [this]; norm_num
    have g4 : (B : ℝ) * 1000000000 = m * TP + 1000000000 * b + s := by
      have : B * GI = m * TPI + GI * b + s := by linarith
      have : ((B * GI : ℤ) : ℝ) = ((m * TPI + GI * b + s : ℤ) : ℝ) := by rw [this]
      push_cast at this
      rw [hGR] at this
      exact this
    have g5 : (B : ℝ) * (n - c) / w - ((n - c) * m : ℤ) * (2 * Real.pi) - b * (n - c) / w =
        (n - c) * (m * (TP / (1000000000 * w) - 2 * Real.pi) + (s / 1000000000) / w) := by
      have : (B : ℝ) = (m * TP + 1000000000 * b + s) / 1000000000 := by
        rw [← g4]; field_simp
      rw [this]
      push_cast
      field_simp
      ring
    rw [g5, abs_mul]
    have g6 : |(m : ℝ) * (TP / (1000000000 * w) - 2 * Real.pi)| ≤ m.natAbs / w := by
      rw [abs_mul, Nat.cast_natAbs, Int.cast_abs]
      have t : |(TP : ℝ) / (1000000000 * w) - 2 * Real.pi| ≤ 1 / w := TP_err.trans (by norm_num [w])
      exact (mul_le_mul_of_nonneg_left t (abs_nonneg _)).trans_eq (by ring)
    have g7 : |((s : ℝ) / 1000000000) / w| ≤ 1 / w := by
      rw [abs_div, abs_of_pos hw]
      have s0 : (0 : ℝ) ≤ s := by exact_mod_cast g1
      have s1 : (s : ℝ) ≤ 1000000000 := by rw [← hGR]; exact_mod_cast g2.le
      gcongr
      rw [abs_of_nonneg (by positivity), div_le_one (by norm_num)]
      exact s1
    have g8 : |(m : ℝ) * (TP / (1000000000 * w) - 2 * Real.pi) + (s / 1000000000) / w| ≤ (m.natAbs + 1) / w := by
      refine (abs_add_le _ _).trans ((add_le_add g6 g7).trans_eq ?_)
      ring
    calc _ ≤ (h : ℝ) * ((m.natAbs + 1) / w) := mul_le_mul hd g8 (abs_nonneg _) (by positivity)
      _ = _ := by ring

theorem QP_err : |Real.pi / 2 - QP / w| ≤ 1 / w := by
  have pi1 := Real.pi_gt_d20
  have pi2 := Real.pi_lt_d20
  have hQ : ((QP : ℤ) : ℝ) = 15707963267948966272 := by norm_num [QP]
  rw [hQ, abs_le]
  norm_num [w]
  constructor <;> linarith

/-- the cosine of an enclosure, for any function near the cosine -/
theorem cos_mem' (hn : |n - c| ≤ h) {f : Aff c h θ} {x y : ℚ} (hf : f.Mem n x)
    (hy : |(y : ℝ) - Real.cos x| ≤ 1 / 2 ^ 50 + 1 / w) (hy1 : |y| ≤ 1) : (cos f).Mem n y := by
  have hw := w_pos
  have hdiv : ∀ a b, Nat.div a b = a / b := fun _ _ => rfl
  unfold cos
  simp only [forceI_eq, forceN_eq, Nat.add_eq, Nat.mul_eq, hdiv]
  set m : ℤ := bif Nat.beq h 0 then 0 else (f.b * GI + Int.ofNat HP) / TPI with hm
  set b : ℤ := bif Nat.beq h 0 then 0 else (f.b * GI - m * TPI) / GI with hb
  set ρ : ℕ := b.natAbs * h + f.r + (m.natAbs + 1) * h with hρ
  by_cases e : (f.ok && Nat.ble (ρ + 1) W && Nat.ble f.a.natAbs 100000000000000000000000000) = true
  · rw [e, cond_true]
    simp only [Bool.and_eq_true, Nat.ble_eq] at e
    obtain ⟨⟨ok, hρW⟩, ha⟩ := e
    have h1 := hf ok
    have ca := cosA_err ha
    have hd : |(n : ℝ) - c| ≤ h := by exact_mod_cast hn
    obtain ⟨j, hj⟩ := turns hn (B := f.b) (m := m) hb
    have h1R : |(x : ℝ) * w - (f.a + f.b * (n - c))| ≤ f.r := by
      rw [← wq_real]; exact_mod_cast h1
    have a1 : |w * ((y : ℝ) - Real.cos x)| ≤ 10000 := by
      rw [abs_mul, abs_of_pos hw]
      refine (mul_le_mul_of_nonneg_left hy hw.le).trans ?_
      norm_num [w]
    set β : ℝ := b * (n - c) / w with hβ
    have hβ1 : |β| ≤ b.natAbs * h / w := by
      rw [hβ, abs_div, abs_mul, abs_of_pos hw, Nat.cast_natAbs, Int.cast_abs]
      gcongr
    have k1 : |Real.cos x - Real.cos (f.a / w + β)| ≤ (f.r + (m.natAbs + 1) * h) / w := by
      rw [show Real.cos ((f.a : ℝ) / w + β) = Real.cos (f.a / w + β + j * (2 * Real.pi)) by rw [cos_add_turns]]
      refine (Real.abs_cos_sub_cos_le _ _).trans ?_
      have : (x : ℝ) - (f.a / w + β + j * (2 * Real.pi)) = (x * w - (f.a + f.b * (n - c))) / w +
          (f.b * (n - c) / w - j * (2 * Real.pi) - b * (n - c) / w) := by
        rw [hβ]
        field_simp
        ring
      rw [this]
      have k2 : |((x : ℝ) * w - (f.a + f.b * (n - c))) / w| ≤ f.r / w := by
        rw [abs_div, abs_of_pos hw]; gcongr
      refine (abs_add_le _ _).trans ((add_le_add k2 hj).trans_eq ?_)
      ring
    have a2 : |w * (Real.cos x - Real.cos (f.a / w + β))| ≤ f.r + (m.natAbs + 1) * h := by
      rw [abs_mul, abs_of_pos hw]
      refine (mul_le_mul_of_nonneg_left k1 hw.le).trans_eq ?_
      field_simp
    by_cases e2 : (Nat.ble 1 h && Nat.ble (f.a - QP).natAbs 100000000000000000000000000) = true
    · rw [e2, cond_true]
      refine mk'_mem hn fun _ => ?_
      simp only [Bool.and_eq_true, Nat.ble_eq] at e2
      have cs := cosA_err e2.2
      have hbW : (b.natAbs : ℝ) * h ≤ w := by
        have : b.natAbs * h ≤ W := by rw [hρ] at hρW; omega
        have h2 : ((b.natAbs * h : ℕ) : ℝ) ≤ (W : ℕ) := by exact_mod_cast this
        have hWw : ((W : ℕ) : ℝ) = w := by norm_num [W, w]
        rw [hWw, Nat.cast_mul] at h2
        exact h2
      have hβ2 : |β| ≤ 1 := hβ1.trans (by rw [div_le_one hw]; exact hbW)
      have ty := cos_taylor ((f.a : ℝ) / w) hβ2
      set S := cosA (f.a - QP) with hS
      have hWI : (WI : ℤ) ≠ 0 := by norm_num [WI]
      have es := ediv_err (S * b) hWI
      set D : ℤ := S * b / WI with hD
      have esR : |((S * b : ℤ) : ℝ) / w - D| ≤ 1 := by
        have hWIq : (((WI : ℤ) : ℚ) : ℝ) = w := by norm_num [WI, w]
        rw [← hWIq]; exact_mod_cast es
      push_cast at esR
      -- the sine
      have sn : |(S : ℝ) - w * Real.sin (f.a / w)| ≤ 260001 := by
        have e3 : Real.sin ((f.a : ℝ) / w) = Real.cos (f.a / w - Real.pi / 2) := by rw [Real.cos_sub_pi_div_two]
        have e4 := Real.abs_cos_sub_cos_le (((f.a - QP : ℤ) : ℝ) / w) ((f.a : ℝ) / w - Real.pi / 2)
        have e5 : (((f.a - QP : ℤ) : ℝ) / w) - ((f.a : ℝ) / w - Real.pi / 2) = Real.pi / 2 - QP / w := by
          push_cast; ring
        rw [e5] at e4
        have e6 := e4.trans QP_err
        rw [e3, show (S : ℝ) - w * Real.cos (f.a / w - Real.pi / 2) = (S - w * Real.cos (((f.a - QP : ℤ) : ℝ) / w)) +
          w * (Real.cos (((f.a - QP : ℤ) : ℝ) / w) - Real.cos (f.a / w - Real.pi / 2)) by ring]
        refine (abs_add_le _ _).trans ?_
        rw [abs_mul, abs_of_pos hw]
        have e7 := mul_le_mul_of_nonneg_left e6 hw.le
        rw [show w * (1 / w) = 1 by field_simp] at e7
        linarith
      have q1 : |w * (Real.cos (f.a / w + β) - (Real.cos (f.a / w) - Real.sin (f.a / w) * β))| ≤
          (b.natAbs * h) ^ 2 * 3 / (4 * w) := by
        rw [abs_mul, abs_of_pos hw]
        have : β ^ 2 ≤ (b.natAbs * h / w) ^ 2 := by rw [← sq_abs]; gcongr
        calc _ ≤ w * (3 / 4 * β ^ 2) := mul_le_mul_of_nonneg_left ty hw.le
          _ ≤ w * (3 / 4 * (b.natAbs * h / w) ^ 2) := by gcongr
          _ = _ := by field_simp
      have q2 : |w * Real.sin (f.a / w) * β - D * (n - c)| ≤ 260001 + h := by
        have : w * Real.sin (f.a / w) * β - D * (n - c) = (S * b / w - D) * (n - c) - (S - w * Real.sin (f.a / w)) * β := by
          rw [hβ]; field_simp; ring
        rw [this]
        refine (abs_sub _ _).trans ?_
        rw [abs_mul, abs_mul]
        have r1 : |(S * b : ℝ) / w - D| * |(n : ℝ) - c| ≤ 1 * h := mul_le_mul esR hd (abs_nonneg _) (by norm_num)
        have r2 : |(S : ℝ) - w * Real.sin (f.a / w)| * |β| ≤ 260001 * 1 := mul_le_mul sn hβ2 (abs_nonneg _) (by norm_num)
        linarith
      have er := ndiv_le ((b.natAbs * h) ^ 2 * 3) (4 * W) (by norm_num [W])
      have hWw : ((W : ℕ) : ℝ) = w := by norm_num [W, w]
      have erR : ((b.natAbs : ℝ) * h) ^ 2 * 3 / (4 * w) ≤ ((b.natAbs * h) ^ 2 * 3 / (4 * W) : ℕ) + 1 := by
        have : ((((b.natAbs * h) ^ 2 * 3 : ℕ) : ℝ) / ((4 * W : ℕ) : ℝ)) ≤ ((b.natAbs * h) ^ 2 * 3 / (4 * W) : ℕ) + 1 := cast_div_le er
        rw [Nat.cast_mul 4 W, hWw, Nat.cast_mul, Nat.cast_pow, Nat.cast_mul] at this
        exact_mod_cast this
      set R : ℕ := (b.natAbs * h) ^ 2 * 3 / (4 * W) with hR
      have key : |(y : ℝ) * w - (cosA f.a - D * (n - c))| ≤ f.r + (m.natAbs + 2) * h + R + 700000 := by
        have e : (y : ℝ) * w - (cosA f.a - D * (n - c)) = w * (y - Real.cos x) + w * (Real.cos x - Real.cos (f.a / w + β)) +
            w * (Real.cos (f.a / w + β) - (Real.cos (f.a / w) - Real.sin (f.a / w) * β)) - (cosA f.a - w * Real.cos (f.a / w)) -
            (w * Real.sin (f.a / w) * β - D * (n - c)) := by ring
        rw [e]
        have t1 := abs_sub (w * (y - Real.cos x) + w * (Real.cos x - Real.cos (f.a / w + β)) +
            w * (Real.cos (f.a / w + β) - (Real.cos (f.a / w) - Real.sin (f.a / w) * β)) - (cosA f.a - w * Real.cos (f.a / w)))
            (w * Real.sin (f.a / w) * β - D * (n - c))
        have t2 := abs_sub (w * (y - Real.cos x) + w * (Real.cos x - Real.cos (f.a / w + β)) +
            w * (Real.cos (f.a / w + β) - (Real.cos (f.a / w) - Real.sin (f.a / w) * β))) (cosA f.a - w * Real.cos (f.a / w))
        have t3 := abs_add_le (w * (y - Real.cos x) + w * (Real.cos x - Real.cos (f.a / w + β)))
            (w * (Real.cos (f.a / w + β) - (Real.cos (f.a / w) - Real.sin (f.a / w) * β)))
        have t4 := abs_add_le (w * (y - Real.cos x)) (w * (Real.cos x - Real.cos (f.a / w + β)))
        linarith
      rw [← wq_real] at key
      have keyq : |y * wq - (cosA f.a - D * (n - c))| ≤ ((f.r + (m.natAbs + 2) * h + R + 700000 : ℕ) : ℚ) := by
        push_cast
        exact_mod_cast key
      rw [show y * wq - (((cosA f.a : ℤ) : ℚ) + ((-D : ℤ) : ℚ) * (n - c)) = y * wq - (cosA f.a - D * (n - c)) by push_cast; ring]
      exact keyq
    · rw [Bool.not_eq_true] at e2
      rw [e2, cond_false]
      refine mk'_mem hn fun _ => ?_
      have key : |(y : ℝ) * w - cosA f.a| ≤ ρ + 300000 := by
        have e : (y : ℝ) * w - cosA f.a = w * (y - Real.cos x) + w * (Real.cos x - Real.cos (f.a / w + β)) +
            w * (Real.cos (f.a / w + β) - Real.cos (f.a / w)) - (cosA f.a - w * Real.cos (f.a / w)) := by
          ring
        rw [e]
        have a3 : |w * (Real.cos (f.a / w + β) - Real.cos (f.a / w))| ≤ b.natAbs * h := by
          rw [abs_mul, abs_of_pos hw]
          have t := Real.abs_cos_sub_cos_le ((f.a : ℝ) / w + β) (f.a / w)
          rw [add_sub_cancel_left] at t
          refine (mul_le_mul_of_nonneg_left (t.trans hβ1) hw.le).trans_eq ?_
          field_simp
        have t2 := abs_sub (w * (y - Real.cos x) + w * (Real.cos x - Real.cos (f.a / w + β)) +
            w * (Real.cos (f.a / w + β) - Real.cos (f.a / w))) (cosA f.a - w * Real.cos (f.a / w))
        have t3 := abs_add_le (w * (y - Real.cos x) + w * (Real.cos x - Real.cos (f.a / w + β)))
            (w * (Real.cos (f.a / w + β) - Real.cos (f.a / w)))
        have t4 := abs_add_le (w * (y - Real.cos x)) (w * (Real.cos x - Real.cos (f.a / w + β)))
        have hρR : (ρ : ℝ) = b.natAbs * h + f.r + (m.natAbs + 1) * h := by
          rw [hρ, Nat.cast_add, Nat.cast_add, Nat.cast_mul, Nat.cast_mul, Nat.cast_add, Nat.cast_one]
        rw [hρR]
        linarith
      rw [← wq_real] at key
      have : |y * wq - cosA f.a| ≤ ((ρ + 300000 : ℕ) : ℚ) := by
        push_cast
        exact_mod_cast key
      simpa using this
  · rw [Bool.not_eq_true] at e
    rw [e, cond_false]
    intro _
    show |y * wq - (((0 : ℤ) : ℚ) + ((0 : ℤ) : ℚ) * (n - c))| ≤ ((W : ℕ) : ℚ)
    rw [W_cast]
    simp only [Int.cast_zero, zero_mul, add_zero, sub_zero]
    rw [abs_mul, abs_of_pos wq_pos]
    nlinarith [wq_pos]

theorem cos_mem (hn : |n - c| ≤ h) {M : Libm} (hM : M.Good) {f : Aff c h θ} {x : ℚ} (hf : f.Mem n x) :
    (cos f).Mem n (M.cos x) :=
  cos_mem' hn hf ((hM.cos_err x).trans (by have : 0 < 1 / w := by have := w_pos; positivity
                                           linarith)) (hM.cos_le x)

theorem sin_mem (hn : |n - c| ≤ h) {M : Libm} (hM : M.Good) {f : Aff c h θ} {x : ℚ} (hf : f.Mem n x) :
    (sin f).Mem n (M.sin x) := by
  have hw := w_pos
  refine cos_mem' (x := x - QP / wq) hn ?_ ?_ (hM.sin_le x)
  · intro ok
    have := hf ok
    simp only [Nat.add_eq]
    push_cast
    have hq : QP / wq * wq = (QP : ℚ) := by have := wq_pos; field_simp
    rw [sub_mul, hq]
    rw [show x * wq - QP - ((f.a : ℚ) - QP + f.b * (n - c)) = x * wq - (f.a + f.b * (n - c)) by ring]
    linarith
  · push_cast
    rw [wq_real]
    have e : Real.sin (x : ℝ) = Real.cos (x - Real.pi / 2) := by rw [Real.cos_sub_pi_div_two]
    have h1 := hM.sin_err x
    rw [e] at h1
    have h2 := Real.abs_cos_sub_cos_le ((x : ℝ) - Real.pi / 2) (x - QP / w)
    have h3 : |(x : ℝ) - Real.pi / 2 - (x - QP / w)| ≤ 1 / w := by
      have pi1 := Real.pi_gt_d20
      have pi2 := Real.pi_lt_d20
      have hQ : ((QP : ℤ) : ℝ) = 15707963267948966272 := by norm_num [QP]
      rw [hQ, abs_le]
      norm_num [w]
      constructor <;> linarith
    calc |(M.sin x : ℝ) - Real.cos (x - QP / w)|
        = |((M.sin x : ℝ) - Real.cos (x - Real.pi / 2)) + (Real.cos (x - Real.pi / 2) - Real.cos (x - QP / w))| := by ring_nf
      _ ≤ _ := abs_add_le _ _
      _ ≤ _ := add_le_add h1 (h2.trans h3)

end Aff
