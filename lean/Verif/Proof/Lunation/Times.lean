import Verif.Proof.Lunation.Month

/-! # The times `msaLonT` and `msaLonT2` find -/

open ShouXing F64

namespace Lunation
open Near (R R_eq)
variable {M : Libm}

/-- a step of Newton in doubles -/
theorem step_float {x w F v : Fl M} {FR VR : ℝ} (hx : |(x.v : ℝ)| ≤ 31) (hw : |(w.v : ℝ)| ≤ 240000) (hF : Near F FR 330000 (2 / 10 ^ 5))
    (hv : Near v VR 10700 (3 / 10 ^ 5)) (hV : 6000 ≤ VR) (hd : |(w.v : ℝ) - FR| ≤ 1) :
    |VR * (((x + (w - F) / v : Fl M).v : ℝ) - x.v) - (w.v - FR)| ≤ 0.00005 := by
  have h1 := (Near.self w hw).sub hF
  have h2 : Near (w - F) (w.v - FR) 1 (21 / 10 ^ 6) := ⟨h1.1.trans (by norm_num), hd⟩
  have h3 := (h2.div hv (l := 6000) (by norm_num) hV).mono (m' := 1) (e' := 36 / 10 ^ 10) (by norm_num) (by norm_num)
  have h4 := ((Near.self x hx).add h3).1
  have V0 : 0 < VR := by linarith
  have V1 : VR ≤ 10700 := (abs_le.1 hv.2).2
  have e : VR * (((x + (w - F) / v : Fl M).v : ℝ) - x.v) - (w.v - FR) = VR * (((x + (w - F) / v : Fl M).v : ℝ) - (x.v + (w.v - FR) / VR)) := by
    field_simp
    ring
  rw [e, abs_mul, abs_of_pos V0]
  have h5 : |((x + (w - F) / v : Fl M).v : ℝ) - (x.v + (w.v - FR) / VR)| ≤ 46 / 10 ^ 10 := h4.trans (by norm_num)
  calc VR * _ ≤ 10700 * (46 / 10 ^ 10) := mul_le_mul V1 h5 (abs_nonneg _) (by norm_num)
    _ ≤ _ := by norm_num

theorem v0_near : Near (FloatLike.lit 777137714500204 11 : Fl M) v0 7772 (1 / 10 ^ 12) := by
  have h := Near.lit (M := M) 777137714500204 11
  have e : (FloatLike.lit 777137714500204 11 : ℝ) = v0 := by
    show ((777137714500204 : ℤ) : ℝ) / 10 ^ 11 = v0
    unfold v0; norm_num
  rw [e] at h
  exact h.mono (by norm_num) (by norm_num)

/-- the start of both functions -/
theorem t0_near {w : Fl M} (h0 : -3200 ≤ (w.v : ℝ)) (h1 : (w.v : ℝ) ≤ 233500) :
    |v0 * (Moon.t0 w : Fl M).v - (w.v + 1.08472)| ≤ 0.000001 ∧ |((Moon.t0 w : Fl M).v : ℝ)| ≤ 30.06 ∧ -0.42 ≤ ((Moon.t0 w : Fl M).v : ℝ) := by
  have hw : |(w.v : ℝ)| ≤ 233500 := by rw [abs_le]; constructor <;> linarith
  have a := (Near.self w hw).add (Near.lit (M := M) 108472 5)
  have e : (FloatLike.lit 108472 5 : ℝ) = 1.08472 := by show ((108472 : ℤ) : ℝ) / 10 ^ 5 = _; norm_num
  rw [e] at a
  have b := (a.mono (m' := 233502) (e' := 1 / 10 ^ 10) (by norm_num) (by norm_num)).div v0_near (l := 7771) (by norm_num) v0_pos
  have b := b.mono (m' := 31) (e' := 1 / 10 ^ 13) (by norm_num) (by norm_num)
  have h : |((Moon.t0 w : Fl M).v : ℝ) - (w.v + 1.08472) / v0| ≤ 1 / 10 ^ 13 := b.1
  have v0' : (0 : ℝ) < v0 := by linarith [v0_pos]
  have h2 : |v0 * (Moon.t0 w : Fl M).v - (w.v + 1.08472)| ≤ 0.000001 := by
    have e : v0 * ((Moon.t0 w : Fl M).v : ℝ) - (w.v + 1.08472) = v0 * (((Moon.t0 w : Fl M).v : ℝ) - (w.v + 1.08472) / v0) := by field_simp
    rw [e]
    refine (mul_le (abs_of_pos v0').le h).trans ?_
    unfold v0; norm_num
  refine ⟨h2, ?_, ?_⟩
  · have h2 := abs_le.1 h2
    by_contra hc
    push Not at hc
    have : v0 * 30.06 < |v0 * (Moon.t0 w : Fl M).v| := by
      rw [abs_mul, abs_of_pos v0']
      exact mul_lt_mul_of_pos_left hc v0'
    have k : |v0 * ((Moon.t0 w : Fl M).v : ℝ)| ≤ 233502 := by rw [abs_le]; constructor <;> linarith
    unfold v0 at this k
    linarith
  · have h2 := abs_le.1 h2
    by_contra hc
    push Not at hc
    have := mul_lt_mul_of_pos_left hc v0'
    have e : v0 * -0.42 ≤ -3263 := by unfold v0; norm_num
    linarith

theorem lower {τ t w : ℝ} (h0 : |v0 * τ - (w + 1.08472)| ≤ 0.000001) (h : τ - 0.0001 ≤ t) : w ≤ v0 * t := by
  have h0 := abs_le.1 h0
  have v0' : (0 : ℝ) < v0 := by linarith [v0_pos]
  have := mul_le_mul_of_nonneg_left h v0'.le
  have e : v0 * 0.0001 ≤ 0.8 := by unfold v0; norm_num
  rw [mul_sub] at this
  linarith

section
variable (hM : M.Good)
include hM

theorem t1_float {x : Fl M} (hx : |(x.v : ℝ)| ≤ 30.06) : |((Moon.t1 x : Fl M).v : ℝ) - Moon.t1 (x.v : ℝ)| ≤ 0.0000000001 := by
  have h0 := Near.self x hx
  have h2 := (h0.mul h0).mono (m' := 904) (e' := 2 / 10 ^ 13) (by norm_num) (by norm_num)
  have a : Near (FloatLike.lit (-3309) 8 * (x * x) + FloatLike.lit 10976 5 * FloatLike.cos (FloatLike.lit 784758 6 + FloatLike.lit 83286914246 7 * x + FloatLike.lit 152292 9 * (x * x)) +
      FloatLike.lit 2224 5 * FloatLike.cos (FloatLike.lit 18740 5 + FloatLike.lit 72140628654 7 * x - FloatLike.lit 21848 8 * (x * x)) -
      FloatLike.lit 3342 5 * FloatLike.cos (FloatLike.lit 4669257 6 + FloatLike.lit 628307585 6 * x))
      (FloatLike.lit (-3309) 8 * ((x.v : ℝ) * x.v) + FloatLike.lit 10976 5 * FloatLike.cos (FloatLike.lit 784758 6 + FloatLike.lit 83286914246 7 * (x.v : ℝ) + FloatLike.lit 152292 9 * ((x.v : ℝ) * x.v)) +
      FloatLike.lit 2224 5 * FloatLike.cos (FloatLike.lit 18740 5 + FloatLike.lit 72140628654 7 * (x.v : ℝ) - FloatLike.lit 21848 8 * ((x.v : ℝ) * x.v)) -
      FloatLike.lit 3342 5 * FloatLike.cos (FloatLike.lit 4669257 6 + FloatLike.lit 628307585 6 * (x.v : ℝ))) 1 (1 / 10 ^ 9) := by
    apply Near.mono
    · near
    · norm_num
    · norm_num
  have b := (a.div_lit 777137714500204 11 7771 (by norm_num) (by norm_num)).mono (m' := 1) (e' := 1 / 10 ^ 12) (by norm_num) (by norm_num)
  exact (h0.sub b).1.trans (by norm_num)

/-- the time `msaLonT2` finds -/
theorem short {w : Fl M} (h0 : -3200 ≤ (w.v : ℝ)) (h1 : (w.v : ℝ) ≤ 233500) :
    |((msaLonT2 w : Fl M).v : ℝ)| ≤ 30.09 ∧ (w.v : ℝ) ≤ v0 * ((msaLonT2 w : Fl M).v : ℝ) ∧ |G ((msaLonT2 w : Fl M).v : ℝ) - w.v| ≤ 0.0055 := by
  obtain ⟨a0, a1, a2⟩ := t0_near h0 h1
  have hw : |(w.v : ℝ)| ≤ 240000 := by rw [abs_le]; constructor <;> linarith
  have hw' : |(w.v : ℝ)| ≤ 233500 := by rw [abs_le]; constructor <;> linarith
  rw [Moon.msaLonT2_eq]
  obtain ⟨τ, hτ⟩ : ∃ τ, τ = (Moon.t0 w : Fl M) := ⟨_, rfl⟩
  rw [← hτ] at a0 a1 a2 ⊢
  have b := t1_float hM a1
  obtain ⟨t, ht⟩ : ∃ t, t = (Moon.t1 τ : Fl M) := ⟨_, rfl⟩
  rw [← ht] at b ⊢
  obtain ⟨c1, c2⟩ := t1_near a1 a0 b
  have t1 : |(t.v : ℝ)| ≤ 30.07 := by
    have := abs_add_le ((t.v : ℝ) - τ.v) τ.v
    rw [sub_add_cancel] at this
    linarith
  have n := Near.nT2 hM (x := t) (by linarith)
  have v := Near.vT2 hM (x := t) (by linarith)
  have nG := abs_le.1 (nT2_near (t := t.v) (by linarith))
  have vb := vT2_bounds (t.v : ℝ)
  have c2' := abs_le.1 c2
  have s := step_float (x := t) (w := w) (by linarith) hw (n.mono (by norm_num) (by norm_num)) (v.mono (by norm_num) (by norm_num))
    (by linarith) (by rw [abs_le]; constructor <;> linarith)
  obtain ⟨d1, d2⟩ := step_short (by linarith) c2 s
  refine ⟨?_, ?_, d2⟩
  · have := abs_add_le (((t + (w - Moon.nT2 t) / Moon.vT2 t : Fl M).v : ℝ) - t.v) t.v
    rw [sub_add_cancel] at this
    linarith
  · have := abs_le.1 c1
    have := abs_le.1 d1
    exact lower a0 (by linarith)

omit hM in
theorem msaLonT_eq (w : Fl M) : ∃ ta tb tc v : Fl M, ta = Moon.t0 w ∧ tb = ta + (w - msaLon ta 3 3) / FloatLike.lit 777137714500204 11 ∧
    v = mv tb - ev tb ∧ tc = tb + (w - msaLon tb 20 10) / v ∧ msaLonT w = tc + (w - msaLon tc (-1) 60) / v :=
  ⟨_, _, _, _, rfl, rfl, rfl, rfl, rfl⟩

theorem v_float {x : Fl M} (hx : |(x.v : ℝ)| ≤ 30.07) : Near (mv x - ev x) (mv (x.v : ℝ) - ev (x.v : ℝ)) 10700 (3 / 10 ^ 5) :=
  ((Near.mv hM (by linarith)).sub (Near.ev hM (by linarith))).mono (by norm_num) (by norm_num)

/-- the time `msaLonT` finds -/
theorem long {w : Fl M} (h0 : -3200 ≤ (w.v : ℝ)) (h1 : (w.v : ℝ) ≤ 233500) :
    |((msaLonT w : Fl M).v : ℝ)| ≤ 30.09 ∧ (w.v : ℝ) ≤ v0 * ((msaLonT w : Fl M).v : ℝ) ∧ |G ((msaLonT w : Fl M).v : ℝ) - w.v| ≤ 0.0055 := by
  obtain ⟨a0, a1, a2⟩ := t0_near h0 h1
  have hw : |(w.v : ℝ)| ≤ 240000 := by rw [abs_le]; constructor <;> linarith
  obtain ⟨ta, tb, tc, v, ea, eb, ev', ec, ed⟩ := msaLonT_eq w
  rw [ed]
  rw [← ea] at a0 a1 a2
  have s := step_a a1 a0
  have sa := step_float (x := ta) (w := w) (by linarith) hw (Near.msaLon hM (by linarith) 3 3) (v0_near.mono (by norm_num) (by norm_num))
    (by linarith [v0_pos]) (by linarith)
  rw [← eb] at sa
  obtain ⟨b1, b2, b3⟩ := step_a' (tb := tb.v) a1 a0 (sa.trans (by norm_num))
  have vb := vT2_bounds (tb.v : ℝ)
  have hV := v_near (t := tb.v) (by linarith)
  have hV' := abs_le.1 hV
  have vn := v_float hM (x := tb) (by linarith)
  rw [← ev'] at vn
  have m2 := abs_le.1 (msaLon20_near (t := tb.v) (by linarith))
  have b3' := abs_le.1 b3
  have sb := step_float (x := tb) (w := w) (by linarith) hw (Near.msaLon hM (by linarith) 20 10) vn
    (by linarith) (by rw [abs_le]; constructor <;> linarith)
  rw [← ec] at sb
  obtain ⟨c1, c2, c3⟩ := step_b (tc := tc.v) b2 b3 hV (sb.trans (by norm_num))
  have m3 := abs_le.1 (msaLon60_near (t := tc.v) (by linarith))
  have c3' := abs_le.1 c3
  have sc := step_float (x := tc) (w := w) (by linarith) hw (Near.msaLon hM (by linarith) (-1) 60) vn
    (by linarith) (by rw [abs_le]; constructor <;> linarith)
  obtain ⟨d1, d2, d3⟩ := step_c b2 c1 c2 c3 hV sc
  have d1 := abs_le.1 d1
  have c1 := abs_le.1 c1
  have b1 := abs_le.1 b1
  exact ⟨by linarith, lower a0 (by linarith), d3⟩

end

end Lunation
