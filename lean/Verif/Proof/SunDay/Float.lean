import Verif.Proof.SunDay.Steps
import Verif.Proof.Lunation.Times

/-! # The times `saLonT` and `saLonT2` find -/

open ShouXing F64

namespace Near
variable {M : Libm} (hM : M.Good)

/-- the weight of a row in the rounding of a sum: the constant rows are nearly exact -/
def weight (x : ℤ × ℤ × ℤ) : ℤ := if x.2.2 = 0 then x.1 else 100000 * x.1

theorem amplW : ampl weight (XL0 0) ≤ 34080492404567 ∧ ampl weight (XL0 1) ≤ 64952532674749 ∧ ampl weight (XL0 2) ≤ 91752391887 ∧
    ampl weight (XL0 3) ≤ 3500000000 ∧ ampl weight (XL0 4) ≤ 1300000000 ∧ ampl weight (XL0 5) ≤ 12000000 := by decide +kernel

include hM

/-- the sum of a group, with smaller bounds for the rounding -/
theorem eGroup_fine {t : Fl M} {T : ℝ} (ht : Near t T 3.1 (1 / 10 ^ 15)) (k : ℤ) (i : ℕ) :
    Near (FloatLike.eGroup k i t) (FloatLike.eGroup k i T) (ampl (fun x => x.1) (XL0 i)) (ampl weight (XL0 i) * (1.01 / 10 ^ 12)) := by
  obtain ⟨hl, hb⟩ := Rows.eBound i
  refine ⟨?_, (eGroup hM ht k i).2⟩
  set l := (XL0 i).take (eCount k i (XL0 i).length) with hl'
  have hA : ((ampl weight l : ℤ) : ℝ) ≤ ampl weight (XL0 i) := by
    exact_mod_cast ampl_take _ _ _
  have hA0 : (0 : ℝ) ≤ ampl weight l := by exact_mod_cast ampl_nonneg _ _
  have := sum_near l (by rw [hl', List.length_take]; omega) (Fl.eTerm t) (realE T) weight (D := 1) (c := 7 / 10 ^ 15) one_pos
    (by norm_num) (by norm_num) (by
      rintro ⟨a, p, q⟩ hx
      obtain ⟨_, b2, b3⟩ := hb _ (List.mem_of_mem_take hx)
      simp only at b2 b3
      have e1 : ((Fl.eTerm t (a, p, q) : ℚ) : ℝ) = ((FloatLike.lit a 0 * FloatLike.cos (FloatLike.lit p 9 + t * FloatLike.lit q 9) : Fl M).v : ℝ) := by
        show ((F64.mul (rnd a) _ : ℚ) : ℝ) = ((F64.mul (rnd (a / 10 ^ 0)) _ : ℚ) : ℝ)
        rw [pow_zero, div_one]; rfl
      have e2 : realE T (a, p, q) = (FloatLike.lit a 0 : ℝ) * FloatLike.cos ((FloatLike.lit p 9 : ℝ) + T * FloatLike.lit q 9) := by
        show (a : ℝ) * _ = (a : ℝ) / 10 ^ 0 * _
        rw [pow_zero, div_one]; rfl
      rw [e1, e2]
      have hp := lit_le (M := M) (B := 6.3) (abs_le_of_int (C := 6.3 * 10 ^ 9) b2 (by norm_num))
      by_cases hq0 : q = 0
      · have hw : weight (a, p, q) = a := by simp [weight, hq0]
        have h1 : Near (FloatLike.lit p 9 + t * FloatLike.lit q 9) ((FloatLike.lit p 9 : ℝ) + T * FloatLike.lit q 9) 6.3 (2 / 10 ^ 15) := by
          have hq : Near (FloatLike.lit q 9 : Fl M) (FloatLike.lit q 9) 0 0 := by
            rw [hq0]; exact (Near.lit 0 9).mono (by norm_num) (by norm_num)
          apply Near.mono
          · exact hp.add (ht.mul hq)
          · norm_num
          · norm_num
        have h2 := row a 0 (h1.cos hM) (by norm_num)
        simp only [pow_zero, div_one] at h2 ⊢
        rw [hw]
        refine ⟨h2.1.trans ?_, h2.2⟩
        gcongr
        norm_num
      · have hw : ((weight (a, p, q) : ℤ) : ℝ) = 100000 * a := by simp [weight, hq0]
        have h1 : Near (FloatLike.lit p 9 + t * FloatLike.lit q 9) ((FloatLike.lit p 9 : ℝ) + T * FloatLike.lit q 9) 800000 (6 / 10 ^ 10) := by
          have hq := lit_le (M := M) (B := 244288) (abs_le_of_int (C := 244288 * 10 ^ 9) b3 (by norm_num))
          apply Near.mono
          · exact hp.add (ht.mul hq)
          · norm_num
          · norm_num
        have h2 := row a 0 (h1.cos hM) (by norm_num)
        simp only [pow_zero, div_one] at h2 ⊢
        rw [hw, abs_mul, abs_of_pos (by norm_num : (0 : ℝ) < 100000)]
        have a0 := abs_nonneg (a : ℝ)
        constructor
        · refine h2.1.trans ?_
          rw [mul_comm 100000, mul_assoc]
          gcongr
          norm_num
        · linarith [h2.2])
  rw [div_one] at this
  refine this.1.trans ?_
  calc _ ≤ (ampl weight (XL0 i) : ℝ) * (7 / 10 ^ 15 + 1 / 10 ^ 12) := by gcongr
    _ ≤ _ := by
      have : (0 : ℝ) ≤ ampl weight (XL0 i) := hA0.trans hA
      gcongr
      norm_num

theorem eSeries_fine {x : Fl M} {X : ℝ} (h : Near x X 1.003 (1 / 10 ^ 15)) (n : ℤ) : Near (eSeries n x) (eSeries n X) 6310 (11 / 10 ^ 9) := by
  have g := fun i => Near.eGroup_fine hM (h.mono (m' := 3.1) (by norm_num) le_rfl) n i
  obtain ⟨a0, a1, a2, a3, a4, a5⟩ := amplE
  obtain ⟨w0, w1, w2, w3, w4, w5⟩ := amplW
  have cast : ∀ {a b : ℤ} {c : ℝ}, a ≤ b → (b : ℝ) ≤ c → (a : ℝ) ≤ c := by
    intro a b c h h'
    have : (a : ℝ) ≤ b := by exact_mod_cast h
    exact this.trans h'
  have casw : ∀ {a b : ℤ} {c : ℝ}, a ≤ b → (b : ℝ) * (1.01 / 10 ^ 12) ≤ c → (a : ℝ) * (1.01 / 10 ^ 12) ≤ c := by
    intro a b c h h'
    have : (a : ℝ) ≤ b := by exact_mod_cast h
    exact (mul_le_mul_of_nonneg_right this (by norm_num)).trans h'
  have g0 := (g 0).mono (cast a0 (c := 17900000000) (by norm_num)) (casw w0 (c := 34.5) (by norm_num))
  have g1 := (g 1).mono (cast a1 (c := 62833220000000) (by norm_num)) (casw w1 (c := 65.7) (by norm_num))
  have g2 := (g 2).mono (cast a2 (c := 6300000) (by norm_num)) (casw w2 (c := 0.1) (by norm_num))
  have g3 := (g 3).mono (cast a3 (c := 40000) (by norm_num)) (casw w3 (c := 0.1) (by norm_num))
  have g4 := (g 4).mono (cast a4 (c := 13000) (by norm_num)) (casw w4 (c := 0.1) (by norm_num))
  have g5 := (g 5).mono (cast a5 (c := 120) (by norm_num)) (casw w5 (c := 0.1) (by norm_num))
  clear cast casw g a0 a1 a2 a3 a4 a5 w0 w1 w2 w3 w4 w5
  have i0 : Near (int 0 : Fl M) (int 0) 0 0 := (Near.lit 0 0).mono (by norm_num) (by norm_num)
  have i1 : Near (int 1 : Fl M) (int 1) 1 (1 / 2 ^ 53) := (Near.lit 1 0).mono (by norm_num) (by norm_num)
  have h1 := (i1.mul h).mono (m' := 1.003) (e' := 1 / 10 ^ 14) (by norm_num) (by norm_num)
  have h2 := (h1.mul h).mono (m' := 1.007) (e' := 1 / 10 ^ 13) (by norm_num) (by norm_num)
  have h3 := (h2.mul h).mono (m' := 1.011) (e' := 1 / 10 ^ 12) (by norm_num) (by norm_num)
  have h4 := (h3.mul h).mono (m' := 1.015) (e' := 1 / 10 ^ 11) (by norm_num) (by norm_num)
  have h5 := (h4.mul h).mono (m' := 1.02) (e' := 1 / 10 ^ 10) (by norm_num) (by norm_num)
  have r0 := (i0.add (g0.mul i1)).mono (m' := 1.79 * 10 ^ 10) (e' := 34.6) (by norm_num) (by norm_num)
  have r1 := (r0.add (g1.mul h1)).mono (m' := 6.304 * 10 ^ 13) (e' := 102) (by norm_num) (by norm_num)
  have r2 := (r1.add (g2.mul h2)).mono (m' := 6.305 * 10 ^ 13) (e' := 103) (by norm_num) (by norm_num)
  have r3 := (r2.add (g3.mul h3)).mono (m' := 6.306 * 10 ^ 13) (e' := 104) (by norm_num) (by norm_num)
  have r4 := (r3.add (g4.mul h4)).mono (m' := 6.307 * 10 ^ 13) (e' := 105) (by norm_num) (by norm_num)
  have r5 := (r4.add (g5.mul h5)).mono (m' := 6.308 * 10 ^ 13) (e' := 106) (by norm_num) (by norm_num)
  exact (r5.div_lit 10000000000 0 10000000000 (by norm_num) (by norm_num)).mono (by norm_num) (by norm_num)

theorem eLon_fine {x : Fl M} (hx : |(x.v : ℝ)| ≤ 10.02) (n : ℤ) : Near (ShouXing.eLon x n) (ShouXing.eLon (x.v : ℝ) n) 6311 (12 / 10 ^ 9) := by
  have h0 := Near.self x hx
  have h := (h0.div_lit 10 0 10 (by norm_num) (by norm_num)).mono (m' := 1.003) (e' := 1 / 10 ^ 15) (by norm_num) (by norm_num)
  rw [eLon_eq, eLon_eq]
  exact ((eSeries_fine hM h n).add (ePoly_near (h.mono (by norm_num) le_rfl))).mono (by norm_num) (by norm_num)

/-- a row of `__NUT_B` -/
theorem nutRow {x x2 : Fl M} (hx : |(x.v : ℝ)| ≤ 10.02) (hx2 : Near x2 ((x.v : ℝ) * x.v) 101 (1 / 10 ^ 13)) {A : Fl M} {B : ℝ} (hA : Near A B 1800 (1 / 10 ^ 9)) (p q r : ℤ)
    (hp : |p| ≤ 60000) (hq : |q| ≤ 2600000000) (hr : |r| ≤ 100) :
    Near (A * FloatLike.sin (FloatLike.lit p 4 + FloatLike.lit q 5 * x + FloatLike.lit r 6 * x2))
      (B * FloatLike.sin (FloatLike.lit p 4 + FloatLike.lit q 5 * (x.v : ℝ) + FloatLike.lit r 6 * ((x.v : ℝ) * x.v))) 1800 (1 / 10 ^ 5) := by
  have h0 := Near.self x hx
  have lp := lit_le (M := M) (k := p) (j := 4) (B := 6) (abs_le_of_int hp (by norm_num))
  have lq := lit_le (M := M) (k := q) (j := 5) (B := 26000) (abs_le_of_int hq (by norm_num))
  have lr := lit_le (M := M) (k := r) (j := 6) (B := 1) (abs_le_of_int hr (by norm_num))
  have a := (lp.add (lq.mul h0)).mono (m' := 261000) (e' := 1 / 10 ^ 9) (by norm_num) (by norm_num)
  have b := (a.add (lr.mul hx2)).mono (m' := 262000) (e' := 2 / 10 ^ 9) (by norm_num) (by norm_num)
  exact (hA.mul (b.sin hM)).mono (by norm_num) (by norm_num)

theorem nutLoop {x x2 : Fl M} (hx : |(x.v : ℝ)| ≤ 10.02) (hx2 : Near x2 ((x.v : ℝ) * x.v) 101 (1 / 10 ^ 13)) : ∀ (l : List (ℤ × ℤ × ℤ × ℤ)),
    (∀ r ∈ l, |r.1| ≤ 60000 ∧ |r.2.1| ≤ 2600000000 ∧ |r.2.2.1| ≤ 100 ∧ |r.2.2.2| ≤ 1000) → ∀ (m : ℕ) (d : Fl M) (D : ℝ), m + l.length ≤ 20 → Near d D (1800 * m) (m * (2 / 10 ^ 5)) →
    Near (ShouXing.nutLoop x x2 false l d) (ShouXing.nutLoop (x.v : ℝ) ((x.v : ℝ) * x.v) false l D) (1800 * 20) (20 * (2 / 10 ^ 5))
  | [], _, m, d, D, hm, h => by
    have : (m : ℝ) ≤ 20 := by exact_mod_cast (by simpa using hm : m ≤ 20)
    exact h.mono (by linarith) (by linarith)
  | (p, q, r, s) :: l, hl, m, d, D, hm, h => by
    obtain ⟨hp, hq, hr, hs⟩ := hl (p, q, r, s) List.mem_cons_self
    refine nutLoop hx hx2 l (fun y hy => hl y (List.mem_cons_of_mem _ hy)) (m + 1) _ _ (by simp at hm; omega) ?_
    have i0 : Near (int 0 : Fl M) (int 0) 0 0 := (Near.lit 0 0).mono (by norm_num) (by norm_num)
    have is := lit_le (M := M) (k := s) (j := 0) (B := 1000) (abs_le_of_int hs (by norm_num))
    have b := nutRow hM hx hx2 ((is.add i0).mono (m' := 1800) (e' := 1 / 10 ^ 9) (by norm_num) (by norm_num)) p q r hp hq hr
    have hm' : (m : ℝ) ≤ 20 := by exact_mod_cast (by simp at hm; omega : m ≤ 20)
    exact (h.add b).mono (by push_cast; linarith) (by push_cast; linarith)

theorem nut {x : Fl M} (hx : |(x.v : ℝ)| ≤ 10.02) : Near (nutationLon2 x) (nutationLon2 (x.v : ℝ)) 1 (1 / 10 ^ 9) := by
  have h0 := Near.self x hx
  have hx2 := (h0.mul h0).mono (m' := 101) (e' := 1 / 10 ^ 13) (by norm_num) (by norm_num)
  have i0 : Near (int 0 : Fl M) (int 0) 0 0 := (Near.lit 0 0).mono (by norm_num) (by norm_num)
  have a : Near (int (-1720) + FloatLike.lit (-1742) 3 * x) (int (-1720) + FloatLike.lit (-1742) 3 * (x.v : ℝ)) 1800 (1 / 10 ^ 9) := by
    unfold int
    apply Near.mono
    · near
    · norm_num
    · norm_num
  have b := nutRow hM hx hx2 a 21824 (-3375705) 36 (by norm_num) (by norm_num) (by norm_num)
  have c := nutLoop hM hx hx2 (NUT_B.drop 1) (by decide +kernel) 1 _ _ (by decide +kernel) ((i0.add b).mono (by norm_num) (by norm_num))
  have d := c.div_lit 100 0 100 (by norm_num) (by norm_num)
  exact (d.div_rad).mono (by norm_num) (by norm_num)

theorem saLon {x : Fl M} (hx : |(x.v : ℝ)| ≤ 10.02) (n : ℤ) : Near (ShouXing.saLon x n) (ShouXing.saLon (x.v : ℝ) n) 6320 (16 / 10 ^ 9) :=
  ((((eLon_fine hM hx n).add (nut hM hx)).add (gxcSunLon hM (by linarith))).add pi).mono (by norm_num) (by norm_num)

end Near
