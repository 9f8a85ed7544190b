import Verif.Proof.Aff
import Verif.Proof.F64
import Mathlib.Tactic.Linarith
import Mathlib.Tactic.Ring
import Mathlib.Tactic.Positivity
import Mathlib.Tactic.GCongr
import Mathlib.Tactic.FieldSimp
import Mathlib.Tactic.NormNum

/-! # The enclosures are sound: arithmetic -/

open Aff0

/-- the unit -/
def wq : ℚ := 10000000000000000051

theorem wq_pos : 0 < wq := by norm_num [wq]
theorem W_cast : ((W : ℕ) : ℚ) = wq := by norm_num [W, wq]
theorem WI_cast : ((WI : ℤ) : ℚ) = wq := by
  have : (WI : ℤ) = 10000000000000000051 := rfl
  rw [this]; norm_num [wq]

/-- the set of numbers `f` stands for, at `n` -/
def Aff.Mem {c : ℤ} {h θ : ℕ} (n : ℤ) (f : Aff c h θ) (x : ℚ) : Prop :=
  f.ok = true → |x * wq - (f.a + f.b * (n - c))| ≤ f.r

namespace Aff
variable {c : ℤ} {h θ : ℕ} {n : ℤ}

theorem mk'_eq (a b : ℤ) (r : ℕ) (ok : Bool) :
    (mk' a b r ok : Aff c h θ) = ⟨a, if h = 0 then 0 else b, r, ok⟩ := by
  unfold mk'
  simp only [forceI_eq, forceN_eq]
  have : (bif Nat.beq h 0 then 0 else b) = if h = 0 then 0 else b := by
    cases h <;> rfl
  rw [this]
  cases ok <;> rfl

theorem round_eq (a b : ℤ) (r : ℕ) (ok : Bool) : (round a b r ok : Aff c h θ) =
    ⟨a, if h = 0 then 0 else b, r + (a.natAbs + ((if h = 0 then 0 else b).natAbs * h + r)) / 9007199254740992 + 1, ok⟩ := by
  unfold round
  simp only [forceI_eq, forceN_eq]
  have : (bif Nat.beq h 0 then 0 else b) = if h = 0 then 0 else b := by
    cases h <;> rfl
  rw [this]
  cases ok <;> rfl

theorem b_zero (hn : |n - c| ≤ h) (b : ℤ) : ((if h = 0 then 0 else b : ℤ) : ℚ) * (n - c) = b * (n - c) := by
  split_ifs with e
  · have : n - c = 0 := by rw [e] at hn; simpa using hn
    have : (n : ℚ) - c = 0 := by exact_mod_cast this
    rw [this]; simp
  · rfl

theorem mk'_mem (hn : |n - c| ≤ h) {a b : ℤ} {r : ℕ} {ok : Bool} {x : ℚ}
    (H : ok = true → |x * wq - (a + b * (n - c))| ≤ r) : (mk' a b r ok : Aff c h θ).Mem n x := by
  rw [mk'_eq]
  intro e
  show |x * wq - (a + ((if h = 0 then 0 else b : ℤ) : ℚ) * (n - c))| ≤ r
  rw [b_zero hn]
  exact H e

theorem abs_affine (hn : |n - c| ≤ h) (b : ℤ) : |(b : ℚ) * (n - c)| ≤ b.natAbs * h := by
  rw [abs_mul, Nat.cast_natAbs, Int.cast_abs]
  have : |(n : ℚ) - c| ≤ h := by exact_mod_cast hn
  exact mul_le_mul_of_nonneg_left this (abs_nonneg _)

theorem round_mem (hn : |n - c| ≤ h) {a b : ℤ} {r : ℕ} {ok : Bool} {z : ℚ}
    (H : ok = true → |z * wq - (a + b * (n - c))| ≤ r) : (round a b r ok : Aff c h θ).Mem n (F64.rnd z) := by
  rw [round_eq]
  intro e
  have H := H e
  set b' : ℤ := if h = 0 then 0 else b with hb'
  have hb : (b' : ℚ) * (n - c) = b * (n - c) := b_zero hn b
  show |F64.rnd z * wq - (a + (b' : ℚ) * (n - c))| ≤ ((r + (a.natAbs + (b'.natAbs * h + r)) / 9007199254740992 + 1 : ℕ) : ℚ)
  rw [← hb] at H
  set m : ℕ := a.natAbs + (b'.natAbs * h + r) with hm
  have hz : |z * wq| ≤ m := by
    have h1 := abs_affine hn b'
    have h2 : |(a : ℚ)| = a.natAbs := by rw [Nat.cast_natAbs, Int.cast_abs]
    rw [hm]; push_cast
    calc |z * wq| = |(z * wq - (a + b' * (n - c))) + (a + b' * (n - c))| := by ring_nf
      _ ≤ _ := abs_add_le _ _
      _ ≤ r + (|(a : ℚ)| + |(b' : ℚ) * (n - c)|) := add_le_add H (abs_add_le _ _)
      _ ≤ _ := by linarith
  have hr := F64.abs_rnd_sub_le_rel z
  have e1 : |F64.rnd z - z| * wq ≤ m / 2 ^ 53 := by
    rw [abs_mul, abs_of_pos wq_pos] at hz
    calc |F64.rnd z - z| * wq ≤ |z| / 2 ^ 53 * wq := mul_le_mul_of_nonneg_right hr wq_pos.le
      _ = |z| * wq / 2 ^ 53 := by ring
      _ ≤ _ := by gcongr
  have e2 : (m : ℚ) / 2 ^ 53 ≤ (m / 9007199254740992 : ℕ) + 1 := by
    have : m < 9007199254740992 * (m / 9007199254740992 + 1) := by omega
    have : (m : ℚ) < 9007199254740992 * ((m / 9007199254740992 : ℕ) + 1) := by exact_mod_cast this
    rw [div_le_iff₀ (by norm_num)]
    linarith
  have e3 : |(F64.rnd z - z) * wq| = |F64.rnd z - z| * wq := by rw [abs_mul, abs_of_pos wq_pos]
  calc |F64.rnd z * wq - (a + b' * (n - c))|
      = |(F64.rnd z - z) * wq + (z * wq - (a + b' * (n - c)))| := by ring_nf
    _ ≤ _ := abs_add_le _ _
    _ ≤ _ := by rw [e3]; push_cast; linarith

theorem spread_eq (f : Aff c h θ) : spread f = f.b.natAbs * h + f.r := rfl
theorem mag_eq (f : Aff c h θ) : mag f = f.a.natAbs + (f.b.natAbs * h + f.r) := rfl

theorem spread_le (hn : |n - c| ≤ h) {f : Aff c h θ} {x : ℚ} (H : f.Mem n x) (ok : f.ok = true) :
    |x * wq - f.a| ≤ spread f := by
  have h1 := abs_affine hn f.b
  have h2 := H ok
  rw [spread_eq]; push_cast
  calc |x * wq - f.a| = |(x * wq - (f.a + f.b * (n - c))) + f.b * (n - c)| := by ring_nf
    _ ≤ _ := abs_add_le _ _
    _ ≤ _ := by linarith

theorem mag_le (hn : |n - c| ≤ h) {f : Aff c h θ} {x : ℚ} (H : f.Mem n x) (ok : f.ok = true) :
    |x * wq| ≤ mag f := by
  have h2 := spread_le hn H ok
  have h3 : |(f.a : ℚ)| = f.a.natAbs := by rw [Nat.cast_natAbs, Int.cast_abs]
  rw [spread_eq] at h2
  rw [mag_eq]; push_cast at h2 ⊢
  calc |x * wq| = |(x * wq - f.a) + f.a| := by ring_nf
    _ ≤ _ := abs_add_le _ _
    _ ≤ _ := by linarith

theorem add_mem (hn : |n - c| ≤ h) {f g : Aff c h θ} {x y : ℚ} (hf : f.Mem n x) (hg : g.Mem n y) :
    (f.add g).Mem n (F64.add x y) := by
  refine round_mem hn fun ok => ?_
  simp only [Bool.and_eq_true] at ok
  have h1 := hf ok.1
  have h2 := hg ok.2
  simp only [Nat.add_eq]
  push_cast
  calc |(x + y) * wq - (f.a + g.a + (f.b + g.b) * (n - c))|
      = |(x * wq - (f.a + f.b * (n - c))) + (y * wq - (g.a + g.b * (n - c)))| := by ring_nf
    _ ≤ _ := abs_add_le _ _
    _ ≤ _ := add_le_add h1 h2

theorem sub_mem (hn : |n - c| ≤ h) {f g : Aff c h θ} {x y : ℚ} (hf : f.Mem n x) (hg : g.Mem n y) :
    (f.sub g).Mem n (F64.sub x y) := by
  refine round_mem hn fun ok => ?_
  simp only [Bool.and_eq_true] at ok
  have h1 := hf ok.1
  have h2 := hg ok.2
  simp only [Nat.add_eq]
  push_cast
  calc |(x - y) * wq - (f.a - g.a + (f.b - g.b) * (n - c))|
      = |(x * wq - (f.a + f.b * (n - c))) - (y * wq - (g.a + g.b * (n - c)))| := by ring_nf
    _ ≤ _ := abs_sub _ _
    _ ≤ _ := add_le_add h1 h2

/-- a floor quotient -/
theorem ediv_err (p : ℤ) {q : ℤ} (hq : q ≠ 0) : |(p : ℚ) / q - (p / q : ℤ)| ≤ 1 := by
  have h0 := Int.emod_nonneg p hq
  have h1 := Int.emod_lt_abs p hq
  have h2 := Int.mul_ediv_add_emod p q
  have h3 : (p : ℚ) / q - (p / q : ℤ) = (p % q : ℤ) / q := by
    have hq' : (q : ℚ) ≠ 0 := by exact_mod_cast hq
    field_simp
    have : (q : ℚ) * (p / q : ℤ) + (p % q : ℤ) = p := by exact_mod_cast h2
    linarith
  rw [h3, abs_div]
  have hq' : (0 : ℚ) < |(q : ℚ)| := by positivity
  rw [div_le_one hq']
  rw [abs_of_nonneg (by exact_mod_cast h0)]
  have : ((p % q : ℤ) : ℚ) < (|q| : ℤ) := by exact_mod_cast h1
  rw [Int.cast_abs] at this
  exact this.le

theorem ndiv_le (p q : ℕ) (hq : 0 < q) : (p : ℚ) / q ≤ (p / q : ℕ) + 1 := by
  have : p < q * (p / q + 1) := by
    have := Nat.lt_mul_div_succ p hq
    simpa using this
  have : (p : ℚ) < q * ((p / q : ℕ) + 1) := by exact_mod_cast this
  rw [div_le_iff₀ (by exact_mod_cast hq)]
  linarith

theorem mulBall_mem (hn : |n - c| ≤ h) {f : Aff c h θ} {x y : ℚ} (hf : f.Mem n x) {m : ℤ} {ρ : ℕ} {ok : Bool}
    (hy : ok = true → |y * wq - m| ≤ ρ) : (f.mulBall m ρ ok).Mem n (F64.rnd (x * y)) := by
  refine round_mem hn fun ok => ?_
  simp only [Bool.and_eq_true] at ok
  have h1 := hf ok.1
  have h2 := hy ok.2
  have h3 := mag_le hn hf ok.1
  have hW : (WI : ℤ) ≠ 0 := by norm_num [WI]
  have ea := ediv_err (f.a * m) hW
  have eb := ediv_err (f.b * m) hW
  have er := ndiv_le (f.r * m.natAbs + mag f * ρ) W (by norm_num [W])
  have hWI : ((WI : ℤ) : ℚ) = wq := rfl
  rw [hWI] at ea eb
  set w : ℚ := wq with hw
  have hw0 : 0 < w := wq_pos
  have hd : |(n : ℚ) - c| ≤ h := by exact_mod_cast hn
  set A : ℤ := f.a * m / WI
  set B : ℤ := f.b * m / WI
  set R : ℕ := (f.r * m.natAbs + mag f * ρ) / W with hR
  have hcast : (((f.r.mul m.natAbs).add ((mag f).mul ρ)).div W).add (Nat.add 2 h) = R + (2 + h) := rfl
  rw [hcast]
  push_cast at ea eb ⊢
  rw [Nat.cast_add, Nat.cast_mul, Nat.cast_mul] at er
  have hm : |(m : ℚ)| = m.natAbs := by rw [Nat.cast_natAbs, Int.cast_abs]
  have key : x * y * w - (A + B * (n - c)) =
      ((x * w - (f.a + f.b * (n - c))) * m + (x * w) * (y * w - m)) / w +
        ((f.a * m / w - A) + (f.b * m / w - B) * (n - c)) := by
    field_simp
    ring
  rw [key]
  have k1 : |(x * w - (f.a + f.b * (n - c))) * m + (x * w) * (y * w - m)| ≤ f.r * |(m : ℚ)| + mag f * ρ := by
    refine (abs_add_le _ _).trans ?_
    rw [abs_mul, abs_mul (x * w)]
    exact add_le_add (mul_le_mul_of_nonneg_right h1 (abs_nonneg _)) (mul_le_mul h3 h2 (abs_nonneg _) (by positivity))
  have k2 : |((x * w - (f.a + f.b * (n - c))) * m + (x * w) * (y * w - m)) / w| ≤ R + 1 := by
    rw [abs_div, abs_of_pos hw0]
    refine (div_le_div_of_nonneg_right k1 hw0.le).trans ?_
    rw [hm]
    rw [W_cast] at er
    exact er
  have k3 : |(f.b * m / w - B) * ((n : ℚ) - c)| ≤ h := by
    rw [abs_mul]
    calc _ ≤ 1 * (h : ℚ) := mul_le_mul eb hd (abs_nonneg _) (by norm_num)
      _ = h := one_mul _
  calc _ ≤ _ := abs_add_le _ _
    _ ≤ (R + 1) + (|f.a * m / w - A| + |(f.b * m / w - B) * ((n : ℚ) - c)|) := add_le_add k2 (abs_add_le _ _)
    _ ≤ _ := by linarith

theorem mulAff_mem (hn : |n - c| ≤ h) {f g : Aff c h θ} {x y : ℚ} (hf : f.Mem n x) (hg : g.Mem n y) :
    (round (f.a * g.a / WI) ((f.a * g.b + f.b * g.a) / WI)
      ((((((f.b.natAbs.mul g.b.natAbs).mul (h.mul h)).add (f.r.mul (mag g))).add ((f.a.natAbs.add (f.b.natAbs.mul h)).mul g.r)).div W).add
        (Nat.add 2 h)) (f.ok && g.ok) : Aff c h θ).Mem n (F64.rnd (x * y)) := by
  refine round_mem hn fun ok => ?_
  simp only [Bool.and_eq_true] at ok
  have h1 := hf ok.1
  have h2 := hg ok.2
  have h3 := mag_le hn hg ok.2
  have h4 := abs_affine hn f.b
  have h5 := abs_affine hn g.b
  have hW : (WI : ℤ) ≠ 0 := by norm_num [WI]
  have ea := ediv_err (f.a * g.a) hW
  have eb := ediv_err (f.a * g.b + f.b * g.a) hW
  have er := ndiv_le (f.b.natAbs * g.b.natAbs * (h * h) + f.r * mag g + (f.a.natAbs + f.b.natAbs * h) * g.r) W (by norm_num [W])
  have hWI : ((WI : ℤ) : ℚ) = wq := rfl
  rw [hWI] at ea eb
  set w : ℚ := wq with hw
  have hw0 : 0 < w := wq_pos
  have hd : |(n : ℚ) - c| ≤ h := by exact_mod_cast hn
  set A : ℤ := f.a * g.a / WI
  set B : ℤ := (f.a * g.b + f.b * g.a) / WI
  set R : ℕ := (f.b.natAbs * g.b.natAbs * (h * h) + f.r * mag g + (f.a.natAbs + f.b.natAbs * h) * g.r) / W with hR
  have hcast : (((((f.b.natAbs.mul g.b.natAbs).mul (h.mul h)).add (f.r.mul (mag g))).add ((f.a.natAbs.add (f.b.natAbs.mul h)).mul g.r)).div W).add
        (Nat.add 2 h) = R + (2 + h) := rfl
  rw [hcast]
  have hfa : |(f.a : ℚ)| = f.a.natAbs := by rw [Nat.cast_natAbs, Int.cast_abs]
  push_cast at ea eb ⊢
  rw [Nat.cast_add, Nat.cast_add, Nat.cast_mul, Nat.cast_mul, Nat.cast_mul, Nat.cast_mul, Nat.cast_mul, Nat.cast_add, Nat.cast_mul] at er
  set d : ℚ := (n : ℚ) - c with hdd
  have key : x * y * w - (A + B * d) =
      ((f.b * d) * (g.b * d) + (x * w - (f.a + f.b * d)) * (y * w) + (f.a + f.b * d) * (y * w - (g.a + g.b * d))) / w +
        ((f.a * g.a / w - A) + ((f.a * g.b + f.b * g.a) / w - B) * d) := by
    field_simp
    ring
  rw [key]
  have k0 : |(f.a : ℚ) + f.b * d| ≤ f.a.natAbs + f.b.natAbs * h := by
    refine (abs_add_le _ _).trans ?_
    rw [hfa]
    exact add_le_add le_rfl h4
  have k1 : |(f.b * d) * (g.b * d) + (x * w - (f.a + f.b * d)) * (y * w) + (f.a + f.b * d) * (y * w - (g.a + g.b * d))| ≤
      f.b.natAbs * g.b.natAbs * (h * h) + f.r * mag g + (f.a.natAbs + f.b.natAbs * h) * g.r := by
    refine (abs_add_le _ _).trans (add_le_add ((abs_add_le _ _).trans (add_le_add ?_ ?_)) ?_)
    · rw [abs_mul]
      refine (mul_le_mul h4 h5 (abs_nonneg _) (by positivity)).trans_eq ?_
      ring
    · rw [abs_mul]
      exact mul_le_mul h1 h3 (abs_nonneg _) (by positivity)
    · rw [abs_mul]
      exact mul_le_mul k0 h2 (abs_nonneg _) (by positivity)
  have k2 : |((f.b * d) * (g.b * d) + (x * w - (f.a + f.b * d)) * (y * w) + (f.a + f.b * d) * (y * w - (g.a + g.b * d))) / w| ≤ R + 1 := by
    rw [abs_div, abs_of_pos hw0]
    refine (div_le_div_of_nonneg_right k1 hw0.le).trans ?_
    rw [W_cast] at er
    exact er
  have k3 : |((f.a * g.b + f.b * g.a) / w - B) * d| ≤ h := by
    rw [abs_mul]
    calc _ ≤ 1 * (h : ℚ) := mul_le_mul eb hd (abs_nonneg _) (by norm_num)
      _ = h := one_mul _
  calc _ ≤ _ := abs_add_le _ _
    _ ≤ (R + 1) + (|f.a * g.a / w - A| + |((f.a * g.b + f.b * g.a) / w - B) * d|) := add_le_add k2 (abs_add_le _ _)
    _ ≤ _ := by linarith

theorem mul_mem (hn : |n - c| ≤ h) {f g : Aff c h θ} {x y : ℚ} (hf : f.Mem n x) (hg : g.Mem n y) :
    (f.mul g).Mem n (F64.mul x y) := by
  unfold mul F64.mul
  by_cases e1 : g.b = 0
  · have : Nat.beq g.b.natAbs 0 = true := by simp [e1]
    rw [this, cond_true]
    refine mulBall_mem hn hf fun ok => ?_
    have := hg ok
    rw [e1] at this
    simpa using this
  · have : Nat.beq g.b.natAbs 0 = false := by
      rw [← Bool.not_eq_true, Nat.beq_eq]; simpa using e1
    rw [this, cond_false]
    by_cases e2 : f.b = 0
    · have : Nat.beq f.b.natAbs 0 = true := by simp [e2]
      rw [this, cond_true, mul_comm x y]
      refine mulBall_mem hn hg fun ok => ?_
      have := hf ok
      rw [e2] at this
      simpa using this
    · have : Nat.beq f.b.natAbs 0 = false := by
        rw [← Bool.not_eq_true, Nat.beq_eq]; simpa using e2
      rw [this, cond_false]
      exact mulAff_mem hn hf hg

theorem div_mem (hn : |n - c| ≤ h) {f g : Aff c h θ} {x y : ℚ} (hf : f.Mem n x) (hg : g.Mem n y) :
    (f.div g).Mem n (F64.div x y) := by
  unfold div F64.div
  simp only [forceN_eq]
  refine round_mem hn fun ok => ?_
  simp only [Bool.and_eq_true, Nat.add_eq, Nat.mul_eq, Nat.sub_eq] at ok
  obtain ⟨⟨ok1, ok2⟩, ok3⟩ := ok
  have ok3 : spread g + 1 ≤ g.a.natAbs := Nat.le_of_ble_eq_true ok3
  have h1 := hf ok1
  have h2 := spread_le hn hg ok2
  have h3 := mag_le hn hf ok1
  have hd : |(n : ℚ) - c| ≤ h := by exact_mod_cast hn
  set w : ℚ := wq with hw
  have hw0 : 0 < w := wq_pos
  have hWI : ((WI : ℤ) : ℚ) = w := rfl
  set d : ℕ := g.a.natAbs with hdd
  set ρ : ℕ := spread g with hρ
  have hga : g.a ≠ 0 := by
    intro e; rw [e] at hdd; simp at hdd; omega
  have hga' : (g.a : ℚ) ≠ 0 := by exact_mod_cast hga
  have had : |(g.a : ℚ)| = d := by rw [hdd, Nat.cast_natAbs, Int.cast_abs]
  have ea := ediv_err (f.a * WI) hga
  have eb := ediv_err (f.b * WI) hga
  have hdpos : 0 < d := by omega
  have er1 := ndiv_le (f.r * W) d hdpos
  have er2 := ndiv_le (mag f * ρ * W) (d * (d - ρ)) (Nat.mul_pos hdpos (by omega))
  set A : ℤ := f.a * WI / g.a
  set B : ℤ := f.b * WI / g.a
  set R1 : ℕ := f.r * W / d with hR1
  set R2 : ℕ := mag f * ρ * W / (d * (d - ρ)) with hR2
  have hcast : (((f.r.mul W).div d).add ((((mag f).mul ρ).mul W).div (d.mul (d.sub ρ)))).add (Nat.add 4 h) = R1 + R2 + (4 + h) := rfl
  rw [hcast]
  push_cast at ea eb er1 er2 ⊢
  rw [hWI] at ea eb
  have hdq : (0 : ℚ) < d := by exact_mod_cast hdpos
  have hsub : ((d - ρ : ℕ) : ℚ) = d - ρ := by push_cast [Nat.cast_sub (by omega : ρ ≤ d)]; ring
  rw [hsub] at er2
  have hρd : (ρ : ℚ) + 1 ≤ d := by exact_mod_cast ok3
  have hyd : (d : ℚ) - ρ ≤ |y * w| := by
    have := abs_sub_abs_le_abs_sub (g.a : ℚ) (y * w)
    rw [abs_sub_comm] at this
    rw [had] at this
    linarith
  have hy0 : 0 < |y * w| := by linarith
  have hy1 : y * w ≠ 0 := abs_pos.mp hy0
  have hy2 : y ≠ 0 := by rintro rfl; simp at hy1
  have key : x / y * w - (A + B * (n - c)) =
      (x * w - (f.a + f.b * (n - c))) * w / g.a + (x * w) * (g.a - y * w) * w / (g.a * (y * w)) +
        ((f.a * w / g.a - A) + (f.b * w / g.a - B) * (n - c)) := by
    field_simp
    ring
  rw [key]
  have k1 : |(x * w - (f.a + f.b * (n - c))) * w / g.a| ≤ R1 + 1 := by
    rw [abs_div, abs_mul, had, abs_of_pos hw0]
    rw [W_cast] at er1
    refine le_trans ?_ er1
    gcongr
  have k2 : |(x * w) * (g.a - y * w) * w / (g.a * (y * w))| ≤ R2 + 1 := by
    rw [abs_div, abs_mul, abs_mul (x * w), abs_mul (g.a : ℚ), had, abs_of_pos hw0]
    rw [W_cast] at er2
    refine le_trans ?_ er2
    have : |(g.a : ℚ) - y * w| ≤ ρ := by rw [abs_sub_comm]; exact h2
    have hpos : (0 : ℚ) < d - ρ := by linarith
    gcongr
  have k3 : |(f.b * w / g.a - B) * ((n : ℚ) - c)| ≤ h := by
    rw [abs_mul]
    calc _ ≤ 1 * (h : ℚ) := mul_le_mul eb hd (abs_nonneg _) (by norm_num)
      _ = h := one_mul _
  calc _ ≤ _ := abs_add_le _ _
    _ ≤ ((R1 + 1) + (R2 + 1)) + (|f.a * w / g.a - A| + |(f.b * w / g.a - B) * ((n : ℚ) - c)|) :=
      add_le_add ((abs_add_le _ _).trans (add_le_add k1 k2)) (abs_add_le _ _)
    _ ≤ _ := by linarith

theorem lit_mem (hn : |n - c| ≤ h) (m : ℤ) (e : ℕ) : (lit m e : Aff c h θ).Mem n (F64.rnd (m / 10 ^ e)) := by
  unfold lit
  by_cases h0 : (Nat.beq e 0 && Nat.ble m.natAbs 9007199254740992) = true
  · rw [h0, cond_true]
    simp only [Bool.and_eq_true, Nat.beq_eq, Nat.ble_eq] at h0
    refine mk'_mem hn fun _ => ?_
    have : F64.rnd ((m : ℚ) / 10 ^ e) = m := by
      rw [h0.1, pow_zero, div_one]
      apply F64.rnd_int
      rw [Int.abs_eq_natAbs]
      exact_mod_cast h0.2
    rw [this]
    have hWI : ((WI : ℤ) : ℚ) = wq := rfl
    push_cast
    rw [hWI]
    simp
  · rw [Bool.not_eq_true] at h0
    rw [h0, cond_false]
    refine round_mem hn fun _ => ?_
    have hp : (Int.ofNat (Nat.pow 10 e)) ≠ 0 := by
      simp
    have := ediv_err (m * WI) hp
    have hp' : ((Int.ofNat (Nat.pow 10 e) : ℤ) : ℚ) = 10 ^ e := by simp
    rw [hp'] at this
    have hWI : ((WI : ℤ) : ℚ) = wq := rfl
    push_cast at this ⊢
    rw [hWI] at this
    have e2 : (m : ℚ) / 10 ^ e * wq = m * wq / 10 ^ e := by ring
    rw [e2]
    simpa using this

theorem sel_mem (hn : |n - c| ≤ h) {p q f g : Aff c h θ} {u v x y : ℚ} (hp : p.Mem n u) (hq : q.Mem n v)
    (hf : f.Mem n x) (hg : g.Mem n y) : (sel p q f g).Mem n (if u < v then x else y) := by
  unfold sel
  simp only [forceI_eq, forceN_eq, Nat.add_eq, Nat.mul_eq]
  have hu := fun ok => spread_le hn hp ok
  have hv := fun ok => spread_le hn hq ok
  by_cases e1 : Nat.ble (spread p + spread q + 1) (q.a - p.a).toNat = true
  · rw [e1, cond_true]
    refine mk'_mem hn fun ok => ?_
    simp only [Bool.and_eq_true] at ok
    have h1 := abs_le.mp (hu ok.1.2)
    have h2 := abs_le.mp (hv ok.2)
    have h3 : (spread p : ℤ) + spread q + 1 ≤ q.a - p.a := by
      have := Nat.le_of_ble_eq_true e1
      omega
    have h3 : (spread p : ℚ) + spread q + 1 ≤ q.a - p.a := by exact_mod_cast h3
    have : u * wq < v * wq := by linarith [h1.2, h2.1]
    rw [if_pos (lt_of_mul_lt_mul_right this wq_pos.le)]
    exact hf ok.1.1
  · rw [Bool.not_eq_true] at e1
    rw [e1, cond_false]
    by_cases e2 : Nat.ble (spread p + spread q) (-(q.a - p.a)).toNat = true
    · rw [e2, cond_true]
      refine mk'_mem hn fun ok => ?_
      simp only [Bool.and_eq_true] at ok
      have h1 := abs_le.mp (hu ok.1.2)
      have h2 := abs_le.mp (hv ok.2)
      by_cases hlt : u < v
      · have h4 : u * wq < v * wq := mul_lt_mul_of_pos_right hlt wq_pos
        have h3 : (spread p : ℤ) + spread q ≤ (-(q.a - p.a)).toNat := by
          have := Nat.le_of_ble_eq_true e2
          omega
        have h5 : p.a - spread p < q.a + (spread q : ℤ) := by
          have : (p.a : ℚ) - spread p < q.a + spread q := by linarith [h1.1, h2.2]
          exact_mod_cast this
        exfalso
        have e3 : spread p + spread q = 0 ∨ q.a - p.a ≤ -(spread p + spread q : ℤ) := by omega
        rcases e3 with e3 | e3
        · -- both spreads vanish
          have s1 : (spread p : ℚ) = 0 := by exact_mod_cast (by omega : spread p = 0)
          have s2 : (spread q : ℚ) = 0 := by exact_mod_cast (by omega : spread q = 0)
          rw [e3] at e1
          have : ¬ (1 ≤ (q.a - p.a).toNat) := by
            intro hh
            have := Nat.ble_eq_true_of_le hh
            simp [this] at e1
          have : (q.a : ℚ) ≤ p.a := by exact_mod_cast (by omega : q.a ≤ p.a)
          linarith [h1.1, h2.2]
        · have : (q.a : ℚ) - p.a ≤ -(spread p + spread q) := by exact_mod_cast e3
          linarith [h1.1, h2.2]
      · rw [if_neg hlt]
        exact hg ok.1.1
    · rw [Bool.not_eq_true] at e2
      rw [e2, cond_false]
      have key : ∀ r : ℕ, f.r ≤ r → (g.a - f.a).natAbs + (g.b - f.b).natAbs * h + g.r ≤ r →
          (mk' f.a f.b r (f.ok && g.ok) : Aff c h θ).Mem n (if u < v then x else y) := by
        intro r r1 r2
        refine mk'_mem hn fun ok => ?_
        simp only [Bool.and_eq_true] at ok
        have h1 := hf ok.1
        have h2 := hg ok.2
        have r1 : (f.r : ℚ) ≤ r := by exact_mod_cast r1
        have r2 : (((g.a - f.a).natAbs + (g.b - f.b).natAbs * h + g.r : ℕ) : ℚ) ≤ r := by exact_mod_cast r2
        rw [Nat.cast_add, Nat.cast_add, Nat.cast_mul, Nat.cast_natAbs, Nat.cast_natAbs, Int.cast_abs, Int.cast_abs,
          Int.cast_sub, Int.cast_sub] at r2
        split_ifs with hlt
        · linarith
        · have h3 := abs_affine hn (g.b - f.b)
          rw [Nat.cast_natAbs, Int.cast_abs] at h3
          push_cast at h3
          refine le_trans ?_ r2
          calc |y * wq - (f.a + f.b * (n - c))|
              = |(y * wq - (g.a + g.b * (n - c))) + (((g.a : ℚ) - f.a) + (g.b - f.b) * (n - c))| := by ring_nf
            _ ≤ _ := abs_add_le _ _
            _ ≤ g.r + (|(g.a : ℚ) - f.a| + |((g.b : ℚ) - f.b) * (n - c)|) := add_le_add h2 (abs_add_le _ _)
            _ ≤ _ := by linarith
      cases e3 : Nat.ble f.r ((g.a - f.a).natAbs + (g.b - f.b).natAbs * h + g.r)
      · rw [cond_false]
        have : ¬ f.r ≤ (g.a - f.a).natAbs + (g.b - f.b).natAbs * h + g.r := by
          intro hh
          rw [Nat.ble_eq_true_of_le hh] at e3
          cases e3
        exact key _ le_rfl (by omega)
      · rw [cond_true]
        exact key _ (Nat.le_of_ble_eq_true e3) le_rfl

theorem frac_mem (hn : |n - c| ≤ h) {f : Aff c h θ} {x : ℚ} (hf : f.Mem n x) :
    (frac f).Mem n (F64.rnd (x - ⌊x⌋)) := by
  unfold frac
  simp only [forceI_eq, forceN_eq]
  set s : ℕ := spread f with hs
  set m : ℤ := (f.a - Int.ofNat s) / WI with hm
  have hWI : (WI : ℤ) = wq := rfl
  have hWp : (0 : ℤ) < (W : ℕ) := by norm_num [W]
  by_cases e : Nat.beq ((f.a + Int.ofNat s) / WI - m).natAbs 0 = true
  · rw [e, cond_true]
    refine round_mem hn fun ok => ?_
    have h1 := abs_le.mp (spread_le hn hf ok)
    rw [← hs] at h1
    have e' : (f.a + (s : ℤ)) / (W : ℕ) = m := by
      rw [Nat.beq_eq] at e
      have : (f.a + Int.ofNat s) / WI - m = 0 := Int.natAbs_eq_zero.mp e
      have e3 : (f.a + Int.ofNat s) / WI = m := by omega
      exact e3
    have fl : ⌊x⌋ = m := by
      rw [Int.floor_eq_iff]
      have lo : m * ((W : ℕ) : ℤ) ≤ f.a - s := by
        have := Int.ediv_mul_le (f.a - (s : ℤ)) hWp.ne'
        exact this
      have hi : f.a + s < (m + 1) * ((W : ℕ) : ℤ) := by
        have := Int.lt_ediv_add_one_mul_self (f.a + (s : ℤ)) hWp
        rw [e'] at this
        exact this
      have lo' : (m : ℚ) * wq ≤ f.a - s := by rw [← W_cast]; exact_mod_cast lo
      have hi' : (f.a : ℚ) + s < (m + 1) * wq := by rw [← W_cast]; exact_mod_cast hi
      constructor
      · refine le_of_mul_le_mul_right ?_ wq_pos
        linarith [h1.1]
      · refine lt_of_mul_lt_mul_right ?_ wq_pos.le
        linarith [h1.2]
    rw [fl]
    have := hf ok
    push_cast
    have e2 : ((Int.ofNat 10000000000000000051 : ℤ) : ℚ) = wq := rfl
    rw [show ((WI : ℤ) : ℚ) = wq from rfl]
    rw [show (x - m) * wq - (f.a - m * wq + f.b * (n - c)) = x * wq - (f.a + f.b * (n - c)) by ring]
    exact this
  · rw [Bool.not_eq_true] at e
    rw [e, cond_false]
    intro _
    have f0 := Int.floor_le x
    have f1 := Int.lt_floor_add_one x
    have hr := abs_le.mp (F64.abs_rnd_sub_le (x := x - ⌊x⌋) (B := 1) (by rw [abs_le]; constructor <;> linarith))
    show |F64.rnd (x - ⌊x⌋) * ((10000000000000000051 : ℕ) : ℚ) - (((5000000000000000025 : ℤ) : ℚ) + ((0 : ℤ) : ℚ) * (n - c))| ≤ ((5000000000000010000 : ℕ) : ℚ)
    push_cast
    rw [abs_le]
    constructor <;> linarith [hr.1, hr.2]

end Aff
