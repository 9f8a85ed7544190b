import Verif.Model.F64
import Mathlib.Tactic.Linarith
import Mathlib.Tactic.Ring
import Mathlib.Tactic.NormNum
import Mathlib.Tactic.Positivity
import Mathlib.Tactic.FieldSimp

/-! Error bounds and exactness of the binary64 model. -/

namespace F64

theorem abs_roundHalfEven_sub (x : ℚ) : |(roundHalfEven x : ℚ) - x| ≤ 1 / 2 := by
  have h0 := Int.floor_le x
  have h1 := Int.lt_floor_add_one x
  unfold roundHalfEven
  simp only
  split_ifs with a b c <;> rw [abs_le] <;> push_cast <;> constructor <;> linarith

theorem roundHalfEven_int (n : ℤ) : roundHalfEven (n : ℚ) = n := by
  unfold roundHalfEven
  simp

/-- if `x` is within less than 1/2 of the integer `n`, it rounds to `n` -/
theorem roundHalfEven_eq {x : ℚ} {n : ℤ} (h : |x - n| < 1 / 2) : roundHalfEven x = n := by
  have h1 := abs_roundHalfEven_sub x
  rw [abs_lt] at h
  rw [abs_le] at h1
  have a : ((roundHalfEven x : ℤ) : ℚ) < (n + 1 : ℤ) := by push_cast; linarith
  have b : ((n - 1 : ℤ) : ℚ) < (roundHalfEven x : ℤ) := by push_cast; linarith
  rw [Int.cast_lt] at a b
  omega

theorem two_zpow_pos (k : ℤ) : (0 : ℚ) < 2 ^ k := zpow_pos (by norm_num) k

theorem abs_rnd_sub (x : ℚ) : |rnd x - x| ≤ 2 ^ ulpExp x / 2 := by
  have hp := two_zpow_pos (ulpExp x)
  have h := abs_roundHalfEven_sub (x / 2 ^ ulpExp x)
  have e : rnd x - x = ((roundHalfEven (x / 2 ^ ulpExp x) : ℚ) - x / 2 ^ ulpExp x) * 2 ^ ulpExp x := by
    unfold rnd
    rw [sub_mul, div_mul_cancel₀ _ hp.ne']
  rw [e, abs_mul, abs_of_pos hp]
  have := mul_le_mul_of_nonneg_right h hp.le
  linarith

@[simp] theorem rnd_zero : rnd 0 = 0 := by
  unfold rnd
  have : roundHalfEven ((0 : ℚ)) = 0 := by simpa using roundHalfEven_int 0
  simp [this]

theorem zpow_log_le {x : ℚ} (h : x ≠ 0) : (2 : ℚ) ^ Int.log 2 |x| ≤ |x| := by
  have := Int.zpow_log_le_self (b := 2) (by norm_num) (abs_pos.2 h)
  simpa using this

theorem lt_zpow_log_succ (x : ℚ) : |x| < (2 : ℚ) ^ (Int.log 2 |x| + 1) := by
  have := Int.lt_zpow_succ_log_self (b := 2) (by norm_num) |x|
  simpa using this

/-- relative error of one rounding -/
theorem abs_rnd_sub_le_rel (x : ℚ) : |rnd x - x| ≤ |x| / 2 ^ 53 := by
  by_cases h : x = 0
  · simp [h]
  · have h1 := abs_rnd_sub x
    have h2 := zpow_log_le h
    have e : (2 : ℚ) ^ ulpExp x / 2 = 2 ^ Int.log 2 |x| / 2 ^ 53 := by
      unfold ulpExp
      rw [zpow_sub₀ (by norm_num)]
      norm_num
      ring
    rw [e] at h1
    exact h1.trans (div_le_div_of_nonneg_right h2 (by positivity))

/-- absolute error of one rounding of a bounded quantity -/
theorem abs_rnd_sub_le {x B : ℚ} (h : |x| ≤ B) : |rnd x - x| ≤ B / 2 ^ 53 :=
  (abs_rnd_sub_le_rel x).trans (div_le_div_of_nonneg_right h (by positivity))

/-- representable numbers are not changed by rounding -/
theorem rnd_exact {x : ℚ} (m : ℤ) (e : ℤ) (hx : x = m * 2 ^ e) (hm : |m| ≤ 2 ^ 53) : rnd x = x := by
  by_cases h : x = 0
  · simp [h]
  have hL := zpow_log_le h
  have hmq : |(m : ℚ)| ≤ 2 ^ 53 := by
    have : ((|m| : ℤ) : ℚ) ≤ ((2 ^ 53 : ℤ) : ℚ) := by exact_mod_cast hm
    rw [Int.cast_abs] at this
    norm_num at this ⊢
    exact this
  have hp := two_zpow_pos e
  have habs : |x| = |(m : ℚ)| * 2 ^ e := by rw [hx, abs_mul, abs_of_pos hp]
  suffices hint : ∃ k : ℤ, x / 2 ^ ulpExp x = k by
    obtain ⟨k, hk⟩ := hint
    unfold rnd
    rw [hk, roundHalfEven_int, ← hk, div_mul_cancel₀ _ (two_zpow_pos _).ne']
  have hle : (2 : ℚ) ^ Int.log 2 |x| ≤ 2 ^ (53 + e) := by
    calc _ ≤ |x| := hL
      _ = |(m : ℚ)| * 2 ^ e := habs
      _ ≤ 2 ^ 53 * 2 ^ e := mul_le_mul_of_nonneg_right hmq hp.le
      _ = _ := by rw [zpow_add₀ (by norm_num)]; norm_num
  have hle' : Int.log 2 |x| ≤ 53 + e := (zpow_le_zpow_iff_right₀ (by norm_num)).1 hle
  by_cases hc : ulpExp x ≤ e
  · refine ⟨m * 2 ^ (e - ulpExp x).toNat, ?_⟩
    generalize hu : ulpExp x = u at *
    have h2 : e = ((e - u).toNat : ℤ) + u := by
      rw [Int.toNat_of_nonneg (by omega)]; ring
    generalize (e - u).toNat = k at *
    rw [hx, h2, zpow_add₀ (by norm_num), ← mul_assoc, mul_div_assoc, div_self (two_zpow_pos u).ne']
    push_cast
    rw [zpow_natCast, mul_one]
  · -- only possibility: |x| = 2^(53+e)
    have hlog : Int.log 2 |x| = 53 + e := by unfold ulpExp at hc; omega
    have hge : (2 : ℚ) ^ 53 * 2 ^ e ≤ |(m : ℚ)| * 2 ^ e := by
      rw [← habs]
      calc (2 : ℚ) ^ 53 * 2 ^ e = 2 ^ Int.log 2 |x| := by
            rw [hlog, zpow_add₀ (by norm_num)]; norm_num
        _ ≤ _ := hL
    have hm2 : |(m : ℚ)| = 2 ^ 53 := le_antisymm hmq (le_of_mul_le_mul_right hge hp)
    have hm3 : |m| = 2 ^ 53 := by
      have : ((|m| : ℤ) : ℚ) = ((2 ^ 53 : ℤ) : ℚ) := by rw [Int.cast_abs, hm2]; norm_num
      exact_mod_cast this
    have hu : ulpExp x = e + 1 := by unfold ulpExp; omega
    have hE : (2 : ℚ) ^ ulpExp x = 2 ^ e * 2 := by rw [hu, zpow_add₀ (by norm_num)]; norm_num
    rcases abs_choice m with h1 | h1
    · refine ⟨2 ^ 52, ?_⟩
      have : (m : ℚ) = 2 ^ 53 := by rw [h1] at hm3; rw [hm3]; norm_num
      rw [hE, hx, this]
      field_simp
      norm_num
    · refine ⟨-2 ^ 52, ?_⟩
      have : (m : ℚ) = -2 ^ 53 := by
        have : m = -2 ^ 53 := by omega
        rw [this]; norm_num
      rw [hE, hx, this]
      field_simp
      norm_num

theorem rnd_int {n : ℤ} (h : |n| ≤ 2 ^ 53) : rnd (n : ℚ) = n :=
  rnd_exact n 0 (by simp) h

/-- half-integers are exact -/
theorem rnd_half {n : ℤ} (h : |n| ≤ 2 ^ 53) : rnd ((n : ℚ) / 2) = n / 2 :=
  rnd_exact n (-1) (by rw [zpow_neg_one]; ring) h

theorem rnd_quarter {n : ℤ} (h : |n| ≤ 2 ^ 53) : rnd ((n : ℚ) / 4) = n / 4 :=
  rnd_exact n (-2) (by
    rw [show (2 : ℚ) ^ (-2 : ℤ) = 1 / 4 by norm_num]; ring) h

theorem trunc_of_nonneg {x : ℚ} (h : 0 ≤ x) : trunc x = ⌊x⌋ := by simp [trunc, h]

theorem trunc_eq {x : ℚ} {n : ℤ} (h0 : 0 ≤ n) (h : (n : ℚ) ≤ x) (h' : x < n + 1) : trunc x = n := by
  have : (0 : ℚ) ≤ n := by exact_mod_cast h0
  rw [trunc_of_nonneg (by linarith), Int.floor_eq_iff]
  exact ⟨h, h'⟩

theorem roundHalfEven_neg (x : ℚ) : roundHalfEven (-x) = -roundHalfEven x := by
  have h1 := abs_roundHalfEven_sub x
  by_cases hi : ∃ n : ℤ, x = n
  · obtain ⟨n, rfl⟩ := hi
    rw [← Int.cast_neg, roundHalfEven_int, roundHalfEven_int]
  have hlt : (⌊x⌋ : ℚ) < x := lt_of_le_of_ne (Int.floor_le x) (fun h => hi ⟨_, h.symm⟩)
  have hlt2 := Int.lt_floor_add_one x
  have hf : ⌊-x⌋ = -⌊x⌋ - 1 := by
    rw [Int.floor_eq_iff]; push_cast; constructor <;> linarith
  unfold roundHalfEven
  simp only [hf]
  push_cast
  split_ifs <;> first | omega | (exfalso; linarith)

theorem ulpExp_neg (x : ℚ) : ulpExp (-x) = ulpExp x := by simp [ulpExp]

theorem rnd_neg (x : ℚ) : rnd (-x) = -rnd x := by
  unfold rnd
  rw [ulpExp_neg, neg_div, roundHalfEven_neg]
  push_cast
  ring

theorem trunc_neg (x : ℚ) : trunc (-x) = -trunc x := by
  unfold trunc
  rcases lt_trichotomy x 0 with h | h | h
  · rw [if_pos (by linarith), if_neg (by linarith), Int.floor_neg]
  · subst h; simp
  · rw [if_neg (by linarith), if_pos (by linarith), Int.ceil_neg]

/-- `int(a / b)` through a double is exact truncated division for `0 ≤ a < 2^53`. -/
theorem trunc_div_nonneg {a b : ℤ} (h0 : 0 ≤ a) (ha : a < 2 ^ 53) (hb : 0 < b) :
    trunc (div a b) = a / b := by
  have hbq : (0 : ℚ) < b := by exact_mod_cast hb
  have haq : (0 : ℚ) ≤ a := by exact_mod_cast h0
  have haq2 : (a : ℚ) < 2 ^ 53 := by exact_mod_cast ha
  have herr := abs_rnd_sub_le_rel ((a : ℚ) / b)
  have hxn : (0 : ℚ) ≤ (a : ℚ) / b := by positivity
  rw [abs_of_nonneg hxn] at herr
  have herr2 : |rnd ((a : ℚ) / b) - a / b| < 1 / b := by
    refine herr.trans_lt ?_
    rw [div_div, div_lt_div_iff₀ (by positivity) hbq]
    nlinarith
  rw [abs_lt] at herr2
  have hdm := Int.emod_add_mul_ediv a b
  have hr0 := Int.emod_nonneg a hb.ne'
  have hr1 := Int.emod_lt_of_pos a hb
  have hk0 : 0 ≤ a / b := Int.ediv_nonneg h0 hb.le
  have hdq : (a : ℚ) / b = (a / b : ℤ) + ((a % b : ℤ) : ℚ) / b := by
    rw [eq_comm]
    field_simp
    have : ((a % b + b * (a / b) : ℤ) : ℚ) = (a : ℚ) := by rw [hdm]
    push_cast at this
    linarith
  have hrle : ((a % b : ℤ) : ℚ) / b ≤ 1 - 1 / b := by
    have h : ((a % b : ℤ) : ℚ) ≤ b - 1 := by exact_mod_cast (by omega : a % b ≤ b - 1)
    rw [div_le_iff₀ hbq, sub_mul, div_mul_cancel₀ _ hbq.ne']
    linarith
  unfold div
  apply trunc_eq hk0
  · rcases eq_or_lt_of_le hr0 with h | h
    · have hex : (a : ℚ) / b = (a / b : ℤ) := by rw [hdq, ← h]; simp
      rw [hex, rnd_int]
      rw [abs_of_nonneg hk0]
      exact (Int.ediv_le_self _ h0).trans ha.le
    · have : (1 : ℚ) / b ≤ ((a % b : ℤ) : ℚ) / b := by
        have : (1 : ℚ) ≤ (a % b : ℤ) := by exact_mod_cast h
        exact div_le_div_of_nonneg_right this hbq.le
      linarith
  · linarith

/-- `int(a / b)` through a double equals truncated integer division for `|a| < 2^53`:
the justification for modelling `int(a / b)` as `Int.tdiv`. -/
theorem trunc_div_eq_tdiv {a b : ℤ} (ha : |a| < 2 ^ 53) (hb : 0 < b) :
    trunc (div a b) = a.tdiv b := by
  rcases le_total 0 a with h | h
  · rw [abs_of_nonneg h] at ha
    rw [trunc_div_nonneg h ha hb, Int.tdiv_eq_ediv_of_nonneg h]
  · rw [abs_of_nonpos h] at ha
    have h1 := trunc_div_nonneg (a := -a) (by omega) ha hb
    have h2 : div ((-a : ℤ) : ℚ) b = - div a b := by
      unfold div
      rw [← rnd_neg]; congr 1; push_cast; ring
    rw [h2, trunc_neg] at h1
    have h3 : (-a).tdiv b = - a.tdiv b := Int.neg_tdiv a b
    rw [Int.tdiv_eq_ediv_of_nonneg (by omega)] at h3
    omega

end F64
