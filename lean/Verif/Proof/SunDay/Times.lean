import Verif.Proof.SunDay.Float

/-! # The times `saLonT` and `saLonT2` find -/

open ShouXing F64

namespace SunDay
open Near (R)
open Lunation (Su lit_real sin_real cos_real)
variable {M : Libm}

/-- a step of Newton in doubles -/
theorem step_float {x D u : Fl M} {DR VR : ℝ} (hx : |(x.v : ℝ)| ≤ 10.02) (hD : Near D DR 0.05 (25 / 10 ^ 9)) (hv : Near u VR 660 (1 / 10 ^ 6)) (hV : 605 ≤ VR) :
    |VR * (((x + D / u : Fl M).v : ℝ) - x.v) - DR| ≤ 0.00000003 := by
  have h3 := (hD.div hv (l := 605) (by norm_num) hV).mono (m' := 1) (e' := 42 / 10 ^ 12) (by norm_num) (by norm_num)
  have h4 := ((Near.self x hx).add h3).1
  have V0 : 0 < VR := by linarith
  have V1 : VR ≤ 660 := (abs_le.1 hv.2).2
  have e : VR * (((x + D / u : Fl M).v : ℝ) - x.v) - DR = VR * (((x + D / u : Fl M).v : ℝ) - (x.v + DR / VR)) := by
    field_simp
    ring
  rw [e, abs_mul, abs_of_pos V0]
  have h5 : |((x + D / u : Fl M).v : ℝ) - (x.v + DR / VR)| ≤ 43 / 10 ^ 12 := h4.trans (by norm_num)
  calc VR * _ ≤ 660 * (43 / 10 ^ 12) := mul_le_mul V1 h5 (abs_nonneg _) (by norm_num)
    _ ≤ _ := by norm_num

theorem v_near : Near (FloatLike.lit 6283319653318 10 : Fl M) v 629 (1 / 10 ^ 12) := by
  have h := Near.lit (M := M) 6283319653318 10
  have e : (FloatLike.lit 6283319653318 10 : ℝ) = v := by
    show ((6283319653318 : ℤ) : ℝ) / 10 ^ 10 = v
    unfold v; norm_num
  rw [e] at h
  exact h.mono (by norm_num) (by norm_num)

theorem pi_le : (3.14159 : ℝ) ≤ PI ∧ (PI : ℝ) ≤ 3.1416 := by
  have e : (PI : ℝ) = 3.141592653589793 := by show ((3141592653589793 : ℤ) : ℝ) / 10 ^ 15 = _; norm_num
  rw [e]; norm_num

/-- the start of both functions -/
def t0 (w : Fl M) : Fl M := (w - FloatLike.lit 175347 5 - PI) / FloatLike.lit 6283319653318 10

theorem t0_near {w : Fl M} (hw : |(w.v : ℝ)| ≤ 6284) : |v * (t0 w).v - (w.v - 1.75347 - PI)| ≤ 0.00000001 ∧ |((t0 w).v : ℝ)| ≤ 10.01 := by
  have a := ((Near.self w hw).sub (Near.lit (M := M) 175347 5)).sub Near.pi
  have e : (FloatLike.lit 175347 5 : ℝ) = 1.75347 := by show ((175347 : ℤ) : ℝ) / 10 ^ 5 = _; norm_num
  rw [e] at a
  have b := ((a.mono (m' := 6289) (e' := 1 / 10 ^ 11) (by norm_num) (by norm_num)).div v_near (l := 628) (by norm_num) v_pos).mono (m' := 11) (e' := 1 / 10 ^ 13) (by norm_num) (by norm_num)
  have h : |((t0 w : Fl M).v : ℝ) - (w.v - 1.75347 - PI) / v| ≤ 1 / 10 ^ 13 := b.1
  have v0' : (0 : ℝ) < v := by linarith [v_pos]
  have h2 : |v * (t0 w : Fl M).v - (w.v - 1.75347 - PI)| ≤ 0.00000001 := by
    have e : v * ((t0 w : Fl M).v : ℝ) - (w.v - 1.75347 - PI) = v * (((t0 w : Fl M).v : ℝ) - (w.v - 1.75347 - PI) / v) := by field_simp
    rw [e]
    refine (Lunation.mul_le (abs_of_pos v0').le h).trans ?_
    unfold v; norm_num
  refine ⟨h2, ?_⟩
  have h2 := abs_le.1 h2
  have hw := abs_le.1 hw
  have p := pi_le
  unfold v at h2
  rw [abs_le]
  constructor <;> linarith

section
variable (hM : M.Good)
include hM

/-- the first step of `saLonT2` -/
theorem t1_float {x : Fl M} (hx : |(x.v : ℝ)| ≤ 10.01) :
    |v * ((x.v : ℝ) - (x - (FloatLike.lit 5297 9 * x * x + FloatLike.lit 334166 7 * FloatLike.cos (FloatLike.lit 4669257 6 + FloatLike.lit 628307585 6 * x) +
      FloatLike.lit 2061 7 * FloatLike.cos (FloatLike.lit 267823 5 + FloatLike.lit 628307585 6 * x) * x) / FloatLike.lit 6283319653318 10 : Fl M).v) -
      (0.000005297 * ((x.v : ℝ) * x.v) + Su x.v)| ≤ 0.00000001 := by
  have h0 := Near.self x hx
  have a : Near (FloatLike.lit 5297 9 * x * x + FloatLike.lit 334166 7 * FloatLike.cos (FloatLike.lit 4669257 6 + FloatLike.lit 628307585 6 * x) +
      FloatLike.lit 2061 7 * FloatLike.cos (FloatLike.lit 267823 5 + FloatLike.lit 628307585 6 * x) * x)
      (FloatLike.lit 5297 9 * (x.v : ℝ) * x.v + FloatLike.lit 334166 7 * FloatLike.cos (FloatLike.lit 4669257 6 + FloatLike.lit 628307585 6 * (x.v : ℝ)) +
      FloatLike.lit 2061 7 * FloatLike.cos (FloatLike.lit 267823 5 + FloatLike.lit 628307585 6 * (x.v : ℝ)) * x.v) 1 (1 / 10 ^ 10) := by
    apply Near.mono
    · near
    · norm_num
    · norm_num
  have e : (FloatLike.lit 5297 9 * (x.v : ℝ) * x.v + FloatLike.lit 334166 7 * FloatLike.cos (FloatLike.lit 4669257 6 + FloatLike.lit 628307585 6 * (x.v : ℝ)) +
      FloatLike.lit 2061 7 * FloatLike.cos (FloatLike.lit 267823 5 + FloatLike.lit 628307585 6 * (x.v : ℝ)) * x.v) = 0.000005297 * ((x.v : ℝ) * x.v) + Su x.v := by
    simp only [lit_real, cos_real]
    unfold Su
    push_cast
    norm_num
    ring
  rw [e] at a
  have b := (a.div v_near (l := 628) (by norm_num) v_pos).mono (m' := 1) (e' := 1 / 10 ^ 12) (by norm_num) (by norm_num)
  have c := (h0.sub b).1.trans (c := 2 / 10 ^ 12) (by norm_num)
  have v0' : (0 : ℝ) < v := by linarith [v_pos]
  generalize ((x - (FloatLike.lit 5297 9 * x * x + FloatLike.lit 334166 7 * FloatLike.cos (FloatLike.lit 4669257 6 + FloatLike.lit 628307585 6 * x) +
      FloatLike.lit 2061 7 * FloatLike.cos (FloatLike.lit 267823 5 + FloatLike.lit 628307585 6 * x) * x) / FloatLike.lit 6283319653318 10 : Fl M).v : ℝ) = y at *
  generalize 0.000005297 * ((x.v : ℝ) * x.v) + Su x.v = P at *
  have e2 : v * ((x.v : ℝ) - y) - P = -(v * (y - (x.v - P / v))) := by field_simp; ring
  rw [e2, abs_neg]
  refine (Lunation.mul_le (abs_of_pos v0').le c).trans ?_
  unfold v; norm_num

/-- what the second step of `saLonT2` adds -/
theorem d_float {x w : Fl M} (hx : |(x.v : ℝ)| ≤ 10.02) (hw : |(w.v : ℝ)| ≤ 6284) (hd : |(w.v : ℝ) - G8 x.v| ≤ 0.05) :
    Near (w - eLon x 8 - PI + (FloatLike.lit 205 1 + FloatLike.lit 172 1 * FloatLike.sin (FloatLike.lit 21824 4 - FloatLike.lit 3375705 5 * x)) / SECOND_PER_RAD)
      (w.v - G8 x.v) 0.05 (25 / 10 ^ 9) := by
  have h0 := Near.self x hx
  have r : Near (FloatLike.lit 205 1 + FloatLike.lit 172 1 * FloatLike.sin (FloatLike.lit 21824 4 - FloatLike.lit 3375705 5 * x))
      (FloatLike.lit 205 1 + FloatLike.lit 172 1 * FloatLike.sin (FloatLike.lit 21824 4 - FloatLike.lit 3375705 5 * (x.v : ℝ))) 40 (1 / 10 ^ 9) := by
    apply Near.mono
    · near
    · norm_num
    · norm_num
  have k := ((((Near.self w hw).sub (Near.eLon_fine hM hx 8)).sub Near.pi).add r.div_rad).1
  refine ⟨?_, hd⟩
  have e : (w.v : ℝ) - eLon (x.v : ℝ) 8 - PI + (FloatLike.lit 205 1 + FloatLike.lit 172 1 * FloatLike.sin (FloatLike.lit 21824 4 - FloatLike.lit 3375705 5 * (x.v : ℝ))) / R =
      w.v - G8 x.v := by
    unfold G8
    simp only [lit_real, sin_real]
    push_cast
    norm_num
    ring
  rw [e] at k
  exact k.trans (by norm_num)

/-- the time `saLonT2` finds -/
theorem short {w : Fl M} (hw : |(w.v : ℝ)| ≤ 6284) : |((saLonT2 w : Fl M).v : ℝ)| ≤ 10.02 ∧ |saLon ((saLonT2 w : Fl M).v : ℝ) (-1) - w.v| ≤ 0.000206 ∧
    |((saLonT2 w : Fl M).v : ℝ) - (t0 w).v| ≤ 0.0001 := by
  obtain ⟨a0, a1⟩ := t0_near hw
  obtain ⟨τ, hτ⟩ : ∃ τ : Fl M, τ = t0 w := ⟨_, rfl⟩
  rw [← hτ] at a0 a1
  have b := t1_float hM a1
  obtain ⟨s, hs⟩ : ∃ s : Fl M, s = τ - (FloatLike.lit 5297 9 * τ * τ + FloatLike.lit 334166 7 * FloatLike.cos (FloatLike.lit 4669257 6 + FloatLike.lit 628307585 6 * τ) +
      FloatLike.lit 2061 7 * FloatLike.cos (FloatLike.lit 267823 5 + FloatLike.lit 628307585 6 * τ) * τ) / FloatLike.lit 6283319653318 10 := ⟨_, rfl⟩
  rw [← hs] at b
  have sd : |(s.v : ℝ) - τ.v| ≤ 0.00006 := by
    have b' := abs_le.1 b
    have a1' := abs_le.1 a1
    have tt := abs_le.1 (Lunation.mul_le a1 a1)
    have c1 := abs_le.1 (Real.abs_cos_le_one (4.669257 + 628.307585 * (τ.v : ℝ)))
    have c2 := abs_le.1 (Lunation.mul_le (Real.abs_cos_le_one (2.67823 + 628.307585 * (τ.v : ℝ))) a1)
    unfold Su v at b'
    rw [abs_le]
    constructor <;> linarith
  have sb : |(s.v : ℝ)| ≤ 10.011 := by
    have := abs_add_le ((s.v : ℝ) - τ.v) τ.v
    rw [sub_add_cancel] at this
    linarith
  have r := r_bound a1 (by linarith) a0 b
  have d := d_float hM (x := s) (w := w) (by linarith) hw (r.trans (by norm_num))
  have st := step_float (x := s) (by linarith) d (v_near.mono (by norm_num) (by norm_num)) (by linarith [v_pos])
  have e : saLonT2 w = s + (w - eLon s 8 - PI + (FloatLike.lit 205 1 + FloatLike.lit 172 1 * FloatLike.sin (FloatLike.lit 21824 4 - FloatLike.lit 3375705 5 * s)) / SECOND_PER_RAD) /
      FloatLike.lit 6283319653318 10 := by rw [hs, hτ]; rfl
  rw [← e] at st
  obtain ⟨k1, k2⟩ := short_step (by linarith) r st
  refine ⟨?_, k2, ?_⟩
  · have := abs_add_le (((saLonT2 w : Fl M).v : ℝ) - s.v) s.v
    rw [sub_add_cancel] at this
    linarith
  · rw [← hτ]
    have k1 := abs_le.1 k1
    have sd := abs_le.1 sd
    rw [abs_le]; constructor <;> linarith

/-- the time `saLonT` finds -/
theorem long {w : Fl M} (hw : |(w.v : ℝ)| ≤ 6284) : |((saLonT w : Fl M).v : ℝ)| ≤ 10.02 ∧ |saLon ((saLonT w : Fl M).v : ℝ) (-1) - w.v| ≤ 0.0000008 ∧
    |((saLonT w : Fl M).v : ℝ) - (t0 w).v| ≤ 0.0001 := by
  obtain ⟨a0, a1⟩ := t0_near hw
  obtain ⟨τ, hτ⟩ : ∃ τ : Fl M, τ = t0 w := ⟨_, rfl⟩
  rw [← hτ] at a0 a1
  have near : ∀ {x : Fl M} {n : ℤ}, |(x.v : ℝ)| ≤ 10.02 → |(w.v : ℝ) - saLon (x.v : ℝ) n| ≤ 0.05 → Near (w - saLon x n) (w.v - saLon (x.v : ℝ) n) 0.05 (25 / 10 ^ 9) := by
    intro x n hx hd
    exact ⟨((Near.self w hw).sub (Near.saLon hM hx n)).1.trans (by norm_num), hd⟩
  have s := start_near a1 a0
  have b := step_float (x := τ) (by linarith) (near (n := 10) (by linarith) (s.trans (by norm_num))) (⟨(Near.ev hM (by linarith)).1,
    abs_le.2 ⟨by linarith [(ev_bounds (t := (τ.v : ℝ)) (by linarith)).1], by linarith [(ev_bounds (t := (τ.v : ℝ)) (by linarith)).2]⟩⟩)
    (ev_bounds (by linarith)).1
  obtain ⟨t, ht⟩ : ∃ t : Fl M, t = τ + (w - saLon τ 10) / ev τ := ⟨_, rfl⟩
  rw [← ht] at b
  have tb : |(t.v : ℝ)| ≤ 10.0102 ∧ |(w.v : ℝ) - saLon (t.v : ℝ) (-1)| ≤ 0.05 := by
    have h := long_steps (t' := t.v + (w.v - saLon (t.v : ℝ) (-1)) / ev (t.v : ℝ)) a1 a0 b (by
      have e0 : (ev (t.v : ℝ) : ℝ) ≠ 0 := by
        have l1 : |((t.v : ℝ)) - τ.v| ≤ 0.001 := by
          have := ev_bounds (t := (τ.v : ℝ)) (by linarith)
          have b' := abs_le.1 b
          have s' := abs_le.1 s
          by_contra hc
          push Not at hc
          have k : |ev (τ.v : ℝ) * ((t.v : ℝ) - τ.v)| ≤ 0.04 := by rw [abs_le]; constructor <;> linarith
          rw [abs_mul, abs_of_nonneg (a := ev (τ.v : ℝ)) (by linarith)] at k
          have := mul_le_mul this.1 hc.le (by norm_num) (by linarith)
          linarith
        have := ev_bounds (t := (t.v : ℝ)) (by
          have := abs_add_le ((t.v : ℝ) - τ.v) τ.v
          rw [sub_add_cancel] at this
          linarith)
        exact ne_of_gt (by linarith)
      rw [add_sub_cancel_left, mul_div_cancel₀ _ e0, sub_self, abs_zero]
      norm_num)
    refine ⟨?_, ?_⟩
    · have := abs_add_le ((t.v : ℝ) - τ.v) τ.v
      rw [sub_add_cancel] at this
      linarith [h.1]
    · rw [abs_sub_comm]
      linarith [h.2.1]
  have c := step_float (x := t) (by linarith [tb.1]) (near (n := -1) (by linarith [tb.1]) tb.2) (⟨(Near.ev hM (by linarith [tb.1])).1,
    abs_le.2 ⟨by linarith [(ev_bounds (t := (t.v : ℝ)) (by linarith [tb.1])).1], by linarith [(ev_bounds (t := (t.v : ℝ)) (by linarith [tb.1])).2]⟩⟩)
    (ev_bounds (by linarith [tb.1])).1
  have e : saLonT w = t + (w - saLon t (-1)) / ev t := by rw [ht, hτ]; rfl
  rw [← e] at c
  obtain ⟨k0, _, k1, k2⟩ := long_steps a1 a0 b c
  refine ⟨?_, k2, ?_⟩
  · have := abs_add_le (((saLonT w : Fl M).v : ℝ) - t.v) t.v
    rw [sub_add_cancel] at this
    linarith [tb.1]
  · rw [← hτ]
    have k0 := abs_le.1 k0
    have k1 := abs_le.1 k1
    rw [abs_le]; constructor <;> linarith

/-- both functions find nearly the same time -/
theorem same {w w' : Fl M} (hw : |(w.v : ℝ)| ≤ 6284) (hw' : |(w'.v : ℝ)| ≤ 6284) (h : |(w'.v : ℝ) - w.v| ≤ 0.00000001) :
    |((saLonT2 w : Fl M).v : ℝ) - (saLonT w' : Fl M).v| ≤ 0.00000035 ∧ |((saLonT w : Fl M).v : ℝ) - (saLonT w' : Fl M).v| ≤ 0.0000000027 := by
  obtain ⟨a1, a2, _⟩ := short hM hw
  obtain ⟨b1, b2, _⟩ := long hM hw
  obtain ⟨c1, c2, _⟩ := long hM hw'
  have a2 := abs_le.1 a2
  have b2 := abs_le.1 b2
  have c2 := abs_le.1 c2
  have h := abs_le.1 h
  have k1 := close (d := 0.000207) c1 a1 (by rw [abs_le]; constructor <;> linarith)
  have k2 := close (d := 0.00000162) c1 b1 (by rw [abs_le]; constructor <;> linarith)
  constructor <;> linarith

end

end SunDay
