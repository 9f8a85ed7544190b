import Verif.Proof.SunDay.Days
import Verif.Proof.Ephem.Astro

/-! # The time of a single solar term -/

open ShouXing Block FloatLike

namespace SunDay

/-- term `n` is in part `N`, a day having `q` parts -/
def partOk (q n N : ℤ) : Bool := floorIs ((qiAccurate (Aff.var n 0 * (PI / int 12)) + lit 5 1) * int q : Aff 0 0 0) N

theorem part_mem {M : Libm} (hM : M.Good) {q n N : ℤ} (q1 : 1 ≤ q) (q2 : q ≤ 86400) (hk : |n| ≤ 24000) (h1 : 24 * (1961 - 2000) ≤ n) (H : partOk q n N = true) :
    (N : ℚ) - 1 / 1000 ≤ (termAt M n + 1 / 2) * q ∧ (termAt M n + 1 / 2) * q ≤ (N : ℚ) + 1 + 1 / 1000 := by
  have h0 : |(0 : ℤ) - 0| ≤ ((0 : ℕ) : ℤ) := by simp
  have e1 : Encl 0 (Aff.var n 0 : Aff 0 0 0) (int n : Fl M) := by
    have := Moon.var_mem (c := 0) (h := 0) (θ := 0) 0 n 0
    show Aff.Mem 0 _ _
    rw [int_v M (hk.trans (by norm_num))]
    simpa using this
  have f := floorIs_mem h0 (Encl.mul h0 (Encl.add h0 (Encl.qiAccurate h0 hM (Encl.mul h0 e1 (Encl.div h0 (Encl.PI h0) (Encl.int h0 12)))) (Encl.lit h0 5 1)) (Encl.int h0 q)) H
  obtain ⟨z, hz⟩ : ∃ z : Fl M, z = qiAccurate (int n * (PI / int 12)) := ⟨_, rfl⟩
  rw [← hz] at f
  have ez : termAt M n = z.v := by rw [hz]; rfl
  obtain ⟨-, ⟨b1, b2⟩, -⟩ := Ephem.sun_at hM h1 ((abs_le.1 hk).2.trans (by norm_num))
  have n1 : (24 * (1961 - 2000) : ℚ) ≤ n := by exact_mod_cast h1
  have n2 : (n : ℚ) ≤ 24000 := by exact_mod_cast (abs_le.1 hk).2
  have hb : |(z.v : ℝ)| ≤ 370000 := by
    have b1' : (-370000 : ℚ) ≤ z.v := by rw [← ez]; linarith
    have b2' : z.v ≤ (370000 : ℚ) := by rw [← ez]; linarith
    rw [abs_le]
    exact ⟨by exact_mod_cast b1', by exact_mod_cast b2'⟩
  have eh : (FloatLike.lit 5 1 : ℝ) = 1 / 2 := by show ((5 : ℤ) : ℝ) / 10 ^ 1 = _; norm_num
  have qr1 : (1 : ℝ) ≤ q := by exact_mod_cast q1
  have qr2 : (q : ℝ) ≤ 86400 := by exact_mod_cast q2
  have a := (((Near.self z hb).add (Near.lit (M := M) 5 1)).mono (m' := 370001) (e' := 1 / 10 ^ 9) (by norm_num) (by norm_num)).mul
    (Lunation.int_near (M := M) q (m := 86400) (by rw [abs_le]; constructor <;> linarith) (by rw [abs_le]; constructor <;> omega))
  rw [eh] at a
  have a := abs_le.1 (a.1.trans (by norm_num : _ ≤ (1 / 1000 : ℝ)))
  have f1 := Int.floor_le ((z + lit 5 1) * int q : Fl M).v
  have f2 := Int.lt_floor_add_one ((z + lit 5 1) * int q : Fl M).v
  rw [f] at f1 f2
  have f1' : (N : ℝ) ≤ ((z + lit 5 1) * int q : Fl M).v := by exact_mod_cast f1
  have f2' : (((z + lit 5 1) * int q : Fl M).v : ℝ) < N + 1 := by exact_mod_cast f2
  have k1 : (((N : ℚ) - 1 / 1000 : ℚ) : ℝ) ≤ (((z.v + 1 / 2) * q : ℚ) : ℝ) := by push_cast; linarith
  have k2 : (((z.v + 1 / 2) * q : ℚ) : ℝ) ≤ (((N : ℚ) + 1 + 1 / 1000 : ℚ) : ℝ) := by push_cast; linarith
  rw [ez]
  exact ⟨by exact_mod_cast k1, by exact_mod_cast k2⟩

/-- term `p.1 - 1000` is in half minute `p.2`, neither the first nor the last of a day -/
def nearOk (p : ℕ × ℤ) : Bool :=
  decide (64 ≤ p.1) && decide (p.1 ≤ 25000) && decide (1 ≤ p.2 % 2880) && decide (p.2 % 2880 ≤ 2878) && partOk 2880 (Int.ofNat p.1 - 1000) p.2

/-- the same by minutes -/
def minuteOk (p : ℕ × ℤ) : Bool :=
  decide (64 ≤ p.1) && decide (p.1 ≤ 25000) && decide (1 ≤ p.2 % 1440) && decide (p.2 % 1440 ≤ 1438) && partOk 1440 (Int.ofNat p.1 - 1000) p.2

/-- the instant of term `n` is off midnight -/
def Clear (M : Libm) (n : ℤ) : Prop := ∃ D : ℤ, (D : ℚ) + 25 / 86400 ≤ termAt M n + 1 / 2 ∧ termAt M n + 1 / 2 ≤ D + 1 - 25 / 86400

theorem nearOk_clear {M : Libm} (hM : M.Good) {p : ℕ × ℤ} (H : nearOk p = true) : Clear M (p.1 - 1000) := by
  obtain ⟨n, N⟩ := p
  simp only [nearOk, Bool.and_eq_true, decide_eq_true_eq] at H
  obtain ⟨⟨⟨⟨h1, h2⟩, h3⟩, h4⟩, h5⟩ := H
  have h := part_mem hM (by norm_num) (by norm_num) (by simp only [Int.ofNat_eq_natCast]; rw [abs_le]; constructor <;> omega) (by simp only [Int.ofNat_eq_natCast]; omega) h5
  simp only [Int.ofNat_eq_natCast] at h
  have e : (2880 * (N / 2880) + N % 2880 : ℤ) = N := Int.mul_ediv_add_emod N 2880
  have e' : (2880 * ((N / 2880 : ℤ) : ℚ) + ((N % 2880 : ℤ) : ℚ)) = N := by exact_mod_cast e
  have h3' : (1 : ℚ) ≤ ((N % 2880 : ℤ) : ℚ) := by exact_mod_cast h3
  have h4' : ((N % 2880 : ℤ) : ℚ) ≤ 2878 := by exact_mod_cast h4
  push_cast at h
  refine ⟨N / 2880, ?_, ?_⟩
  · linarith
  · linarith

theorem minuteOk_clear {M : Libm} (hM : M.Good) {p : ℕ × ℤ} (H : minuteOk p = true) : Clear M (p.1 - 1000) := by
  obtain ⟨n, N⟩ := p
  simp only [minuteOk, Bool.and_eq_true, decide_eq_true_eq] at H
  obtain ⟨⟨⟨⟨h1, h2⟩, h3⟩, h4⟩, h5⟩ := H
  have h := part_mem hM (by norm_num) (by norm_num) (by simp only [Int.ofNat_eq_natCast]; rw [abs_le]; constructor <;> omega) (by simp only [Int.ofNat_eq_natCast]; omega) h5
  simp only [Int.ofNat_eq_natCast] at h
  have e : (1440 * (N / 1440) + N % 1440 : ℤ) = N := Int.mul_ediv_add_emod N 1440
  have e' : (1440 * ((N / 1440 : ℤ) : ℚ) + ((N % 1440 : ℤ) : ℚ)) = N := by exact_mod_cast e
  have h3' : (1 : ℚ) ≤ ((N % 1440 : ℤ) : ℚ) := by exact_mod_cast h3
  have h4' : ((N % 1440 : ℤ) : ℚ) ≤ 1438 := by exact_mod_cast h4
  push_cast at h
  refine ⟨N / 1440, ?_, ?_⟩
  · linarith
  · linarith

end SunDay
