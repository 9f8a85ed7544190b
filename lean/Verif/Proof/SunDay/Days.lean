import Verif.Proof.SunDay.Times
import Verif.Proof.SunDay.Delta
import Verif.Proof.High.Lines

/-! # The day of a solar term and its instant -/

open ShouXing F64

namespace SunDay
open Lunation (int_near sel_fl dtT_le)
variable {M : Libm}

theorem arg_near {n : ℤ} (h : |n| ≤ 24000) : |((qiArg (int n) : Fl M).v : ℝ) - n * PI / 12| ≤ 1 / 10 ^ 9 ∧ |((int n * (PI / int 12) : Fl M).v : ℝ) - n * PI / 12| ≤ 1 / 10 ^ 9 := by
  have hr : |(n : ℝ)| ≤ 24000 := by exact_mod_cast h
  have a := int_near (M := M) n hr (h.trans (by norm_num))
  have t := int_near (M := M) 12 (m := 12) (by norm_num) (by norm_num)
  have p := Near.pi (M := M)
  have b := ((a.mul p).div t (l := 12) (by norm_num) (by norm_num)).1
  have c := (a.mul (p.div t (l := 12) (by norm_num) (by norm_num))).1
  push_cast at b c
  constructor
  · exact b.trans (by norm_num)
  · rw [mul_div_assoc]
    exact c.trans (by norm_num)

theorem third : Near (ONE_THIRD : Fl M) (1 / 3) 1 (1 / 10 ^ 15) := by
  have := (int_near (M := M) 1 (m := 1) (by norm_num) (by norm_num)).div (int_near (M := M) 3 (m := 3) (by norm_num) (by norm_num)) (l := 3) (by norm_num) (by norm_num)
  push_cast at this
  exact ⟨this.1.trans (by norm_num), by norm_num⟩

/-- from a time in centuries to days -/
theorem to_days {T d : Fl M} (hT : |(T.v : ℝ)| ≤ 10.02) (hd : |(d.v : ℝ)| ≤ 0.38) :
    |((T * int 36525 : Fl M).v : ℝ) - T.v * 36525| ≤ 1 / 10 ^ 9 ∧ |((T * int 36525 - d + ONE_THIRD : Fl M).v : ℝ) - (T.v * 36525 - d.v + 1 / 3)| ≤ 1 / 10 ^ 9 := by
  have a := ((Near.self T hT).mul (int_near (M := M) 36525 (m := 36525) (by norm_num) (by norm_num))).mono (m' := 366000) (e' := 1 / 10 ^ 10) (by norm_num) (by norm_num)
  have b := ((a.sub (Near.self d hd)).add third).1
  push_cast at a b
  exact ⟨a.1.trans (by norm_num), b.trans (by norm_num)⟩

theorem frac_near (x : Fl M) : |((FloatLike.frac x * SECOND_PER_DAY : Fl M).v : ℝ) - ((x.v : ℝ) - ⌊x.v⌋) * 86400| ≤ 1 / 10 ^ 6 := by
  have h1 := Int.floor_le x.v
  have h2 := Int.lt_floor_add_one x.v
  have k : |((x.v - ⌊x.v⌋ : ℚ) : ℝ) - ((x.v : ℝ) - ⌊x.v⌋)| ≤ 0 := by push_cast; simp
  have b : |(x.v : ℝ) - ⌊x.v⌋| ≤ 1 := by
    have h1' : ((⌊x.v⌋ : ℤ) : ℝ) ≤ x.v := by exact_mod_cast h1
    have h2' : (x.v : ℝ) < ⌊x.v⌋ + 1 := by exact_mod_cast h2
    rw [abs_le]; constructor <;> linarith
  have a : Near (FloatLike.frac x) ((x.v : ℝ) - ⌊x.v⌋) 1 (1 / 2 ^ 53) := ⟨(Near.of_rnd k b).trans (by norm_num), b⟩
  have c := (a.mul (int_near (M := M) 86400 (m := 86400) (by norm_num) (by norm_num))).1
  push_cast at c
  exact c.trans (by norm_num)

theorem half {z : Fl M} (hz : |(z.v : ℝ)| ≤ 370000) : |((z + FloatLike.lit 5 1 : Fl M).v : ℝ) - (z.v + 1 / 2)| ≤ 1 / 10 ^ 9 := by
  have e : (FloatLike.lit 5 1 : ℝ) = 1 / 2 := by show ((5 : ℤ) : ℝ) / 10 ^ 1 = _; norm_num
  have a := ((Near.self z hz).add (Near.lit (M := M) 5 1)).1
  rw [e] at a
  exact a.trans (by norm_num)

/-- the choice `qiHigh` makes -/
theorem pick {t g A : Fl M} (H : |(t.v : ℝ)| ≤ 370000) (G : |(g.v : ℝ)| ≤ 370000) (r1 : |(t.v : ℝ) - A.v| ≤ 1115.5 / 86400) (r2 : |(g.v : ℝ) - A.v| ≤ 18.98 / 86400) :
    let U : Fl M := FloatLike.sel (FloatLike.frac (t + FloatLike.lit 5 1) * SECOND_PER_DAY) (int 1200) g
      (FloatLike.sel (int (86400 - 1200)) (FloatLike.frac (t + FloatLike.lit 5 1) * SECOND_PER_DAY) g t) + FloatLike.lit 5 1
    |(U.v : ℝ) - (A.v + 1 / 2)| ≤ 19 / 86400 ∨
    |(U.v : ℝ) - (A.v + 1 / 2)| ≤ 1116 / 86400 ∧ (⌊U.v⌋ : ℝ) + 1199 / 86400 ≤ U.v ∧ (U.v : ℝ) ≤ ⌊U.v⌋ + 1 - 1199 / 86400 := by
  simp only
  have hd := frac_near (t + FloatLike.lit 5 1 : Fl M)
  obtain ⟨F, hF⟩ : ∃ F : Fl M, F = FloatLike.frac (t + FloatLike.lit 5 1) * SECOND_PER_DAY := ⟨_, rfl⟩
  rw [← hF] at hd ⊢
  have hd := abs_le.1 hd
  have u1 := abs_le.1 (half H)
  have u2 := abs_le.1 (half G)
  have r1 := abs_le.1 r1
  have r2 := abs_le.1 r2
  have hi : |((g + FloatLike.lit 5 1 : Fl M).v : ℝ) - (A.v + 1 / 2)| ≤ 19 / 86400 := by rw [abs_le]; constructor <;> linarith
  rw [sel_fl, sel_fl, Block.int_v M (by norm_num), Block.int_v M (by norm_num)]
  by_cases c : F.v < ((1200 : ℤ) : ℚ)
  · rw [if_pos c]
    exact Or.inl hi
  rw [if_neg c]
  by_cases c' : (((86400 - 1200 : ℤ) : ℤ) : ℚ) < F.v
  · rw [if_pos c']
    exact Or.inl hi
  rw [if_neg c']
  push Not at c c'
  have c : (1200 : ℝ) ≤ F.v := by exact_mod_cast c
  have c' : (F.v : ℝ) ≤ 85200 := by
    have : F.v ≤ (85200 : ℚ) := c'.trans (by norm_num)
    exact_mod_cast this
  refine Or.inr ⟨?_, ?_, ?_⟩
  · rw [abs_le]; constructor <;> linarith
  · linarith
  · linarith

section
variable (hM : M.Good)
include hM

/-- the instant whose day `qiHigh` tells, plus half a day: off the midnights by 1199 seconds and within 1116 seconds of
`qiAccurate`, or within 19 seconds of it -/
theorem instant_near {n : ℤ} (h1 : 24 * (1961 - 2000) ≤ n) (h2 : n ≤ 24000) :
    |(termU M n : ℝ) - (termAt M n + 1 / 2)| ≤ 19 / 86400 ∨
    |(termU M n : ℝ) - (termAt M n + 1 / 2)| ≤ 1116 / 86400 ∧ (⌊termU M n⌋ : ℝ) + 1199 / 86400 ≤ termU M n ∧ (termU M n : ℝ) ≤ ⌊termU M n⌋ + 1 - 1199 / 86400 := by
  obtain ⟨a, a'⟩ := arg_near (M := M) (n := n) (by rw [abs_le]; constructor <;> omega)
  obtain ⟨w, hw⟩ : ∃ w : Fl M, w = qiArg (int n) := ⟨_, rfl⟩
  obtain ⟨w', hw'⟩ : ∃ w' : Fl M, w' = int n * (PI / int 12) := ⟨_, rfl⟩
  have eU : termU M n = (qiHigh w + FloatLike.lit 5 1 : Fl M).v := by rw [hw]; rfl
  have eA : termAt M n = (qiAccurate w' : Fl M).v := by rw [hw']; rfl
  rw [← hw] at a
  rw [← hw'] at a'
  rw [eU, eA]
  have n1 : (24 * (1961 - 2000) : ℝ) ≤ n := by exact_mod_cast h1
  have n2 : (n : ℝ) ≤ 24000 := by exact_mod_cast h2
  have p := pi_le
  have q1 : -245.046 ≤ (n : ℝ) * PI / 12 := by
    have := mul_le_mul_of_nonneg_right n1 (by linarith [p.1] : (0 : ℝ) ≤ PI)
    linarith [p.2]
  have q2 : (n : ℝ) * PI / 12 ≤ 6283.3 := by
    have := mul_le_mul_of_nonneg_right n2 (by linarith [p.1] : (0 : ℝ) ≤ PI)
    linarith [p.2]
  have a := abs_le.1 a
  have a' := abs_le.1 a'
  clear hw hw' eU eA h1 h2 n1 n2
  generalize (n : ℝ) * PI / 12 = X at *
  have b : |(w.v : ℝ)| ≤ 6284 := by rw [abs_le]; constructor <;> linarith
  have b' : |(w'.v : ℝ)| ≤ 6284 := by rw [abs_le]; constructor <;> linarith
  obtain ⟨s1, s2⟩ := same hM b b' (by rw [abs_le]; constructor <;> linarith)
  obtain ⟨l1, -, l3⟩ := short hM b
  obtain ⟨m1, -, m3⟩ := long hM b
  obtain ⟨k1, -, k3⟩ := long hM b'
  have z := abs_le.1 (t0_near b).1
  have z' := abs_le.1 (t0_near b').1
  unfold v at z z'
  obtain ⟨S, hS⟩ : ∃ S : Fl M, S = saLonT2 w := ⟨_, rfl⟩
  obtain ⟨T, hT⟩ : ∃ T : Fl M, T = saLonT w := ⟨_, rfl⟩
  obtain ⟨T', hT'⟩ : ∃ T' : Fl M, T' = saLonT w' := ⟨_, rfl⟩
  rw [← hS] at s1 l1 l3
  rw [← hT] at s2 m1 m3
  rw [← hT'] at s1 s2 k1 k3
  have l3 := abs_le.1 l3
  have m3 := abs_le.1 m3
  have k3 := abs_le.1 k3
  have S0 : -0.398 ≤ (S.v : ℝ) := by linarith [p.2]
  have T0 : -0.398 ≤ (T'.v : ℝ) := by linarith [p.2]
  clear l3 m3 k3 z z' p q1 q2 a a' b b'
  have l1' := abs_le.1 l1
  have k1' := abs_le.1 k1
  have c0 : |((0 : ℚ) : ℝ)| ≤ 0.38 := by norm_num
  obtain ⟨x, hx⟩ : ∃ x : Fl M, x = S * int 36525 := ⟨_, rfl⟩
  obtain ⟨x', hx'⟩ : ∃ x' : Fl M, x' = T' * int 36525 := ⟨_, rfl⟩
  have d0 := abs_le.1 (to_days (d := ⟨0⟩) l1 c0).1
  have d0' := abs_le.1 (to_days (d := ⟨0⟩) k1 c0).1
  rw [← hx] at d0
  rw [← hx'] at d0'
  have s1 := abs_le.1 s1
  have s2 := abs_le.1 s2
  have e1 : |((dtT x : Fl M).v : ℝ)| ≤ 0.38 := dtT_le (by linarith) (by linarith)
  have e1' : |((dtT x' : Fl M).v : ℝ)| ≤ 0.38 := dtT_le (by linarith) (by linarith)
  obtain ⟨t, ht⟩ : ∃ t : Fl M, t = x - dtT x + ONE_THIRD := ⟨_, rfl⟩
  have d1 := abs_le.1 (to_days l1 e1).2
  have d1' := abs_le.1 (to_days k1 e1').2
  rw [← hx, ← ht] at d1
  rw [← hx'] at d1'
  have E1 := abs_le.1 e1
  have e2 : |((dtT t : Fl M).v : ℝ)| ≤ 0.38 := dtT_le (by linarith) (by linarith)
  have d2 := abs_le.1 (to_days m1 e2).2
  have f1 := abs_le.1 (dtT_close (x := x) (x' := x') (by linarith) (by linarith) (by linarith) (by linarith) (by rw [abs_le]; constructor <;> linarith))
  have f2 := abs_le.1 (dtT_close (x := t) (x' := x') (by linarith) (by linarith) (by linarith) (by linarith) (by rw [abs_le]; constructor <;> linarith))
  have eA : (qiAccurate w' : Fl M) = x' - dtT x' + ONE_THIRD := by rw [hx', hT']; rfl
  rw [eA]
  obtain ⟨g, hg⟩ : ∃ g : Fl M, g = T * int 36525 - dtT t + ONE_THIRD := ⟨_, rfl⟩
  obtain ⟨A, hA⟩ : ∃ A : Fl M, A = x' - dtT x' + ONE_THIRD := ⟨_, rfl⟩
  have eU : (qiHigh w : Fl M) = FloatLike.sel (FloatLike.frac (t + FloatLike.lit 5 1) * SECOND_PER_DAY) (int 1200) g
      (FloatLike.sel (int (86400 - 1200)) (FloatLike.frac (t + FloatLike.lit 5 1) * SECOND_PER_DAY) g t) := by
    rw [hg, ht, hx, hS, hT]; rfl
  rw [← hA] at d1' ⊢
  rw [← hg] at d2
  rw [eU]
  have G : |(g.v : ℝ)| ≤ 370000 := by rw [abs_le]; constructor <;> linarith [(abs_le.1 e2).1, (abs_le.1 e2).2, (abs_le.1 m1).1, (abs_le.1 m1).2]
  have H : |(t.v : ℝ)| ≤ 370000 := by rw [abs_le]; constructor <;> linarith
  refine pick H G ?_ ?_
  · clear d2 f2 s2 e2 m1 G H
    rw [abs_le]; constructor <;> linarith
  · clear d1 f1 s1 e1 l1 G H
    rw [abs_le]; constructor <;> linarith

/-- **the day of a solar term holds its instant, but for 19 seconds about midnight** -/
theorem day_near {n : ℤ} (h1 : 24 * (1961 - 2000) ≤ n) (h2 : n ≤ 24000) :
    (termDay M n : ℚ) - 19 / 86400 ≤ termAt M n + 1 / 2 ∧ termAt M n + 1 / 2 < termDay M n + 1 + 19 / 86400 := by
  have a := instant_near hM h1 h2
  have f1 := Int.floor_le (termU M n)
  have f2 := Int.lt_floor_add_one (termU M n)
  rw [termDay_eq]
  have g1 : ((⌊termU M n⌋ : ℤ) : ℝ) ≤ termU M n := by exact_mod_cast f1
  have g2 : (termU M n : ℝ) < ⌊termU M n⌋ + 1 := by exact_mod_cast f2
  generalize ⌊termU M n⌋ = D at *
  have k : (D : ℝ) - 19 / 86400 ≤ termAt M n + 1 / 2 ∧ (termAt M n + 1 / 2 : ℝ) < D + 1 + 19 / 86400 := by
    rcases a with a | ⟨a, b, c⟩
    · have a := abs_le.1 a
      constructor <;> linarith
    · have a := abs_le.1 a
      constructor <;> linarith
  have k1 : (((D : ℚ) - 19 / 86400 : ℚ) : ℝ) ≤ ((termAt M n + 1 / 2 : ℚ) : ℝ) := by push_cast; exact k.1
  have k2 : ((termAt M n + 1 / 2 : ℚ) : ℝ) < (((D : ℚ) + 1 + 19 / 86400 : ℚ) : ℝ) := by push_cast; exact k.2
  exact ⟨by exact_mod_cast k1, by exact_mod_cast k2⟩
end

end SunDay
