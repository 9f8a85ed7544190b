import Verif.Proof.Lunation.Groups
import Verif.Proof.Blocks

/-! # The series of `util/ShouXingUtil.py` are near their values on real numbers -/

open ShouXing F64

namespace Near
variable {M : Libm}

theorem amplE : ampl (fun x => x.1) (XL0 0) ≤ 17900000000 ∧ ampl (fun x => x.1) (XL0 1) ≤ 62833220000000 ∧ ampl (fun x => x.1) (XL0 2) ≤ 6300000 ∧
    ampl (fun x => x.1) (XL0 3) ≤ 40000 ∧ ampl (fun x => x.1) (XL0 4) ≤ 13000 ∧ ampl (fun x => x.1) (XL0 5) ≤ 120 := by decide +kernel

theorem amplM : ampl (fun x => x.1) (XL1 0) ≤ 345000000000 ∧ ampl (fun x => x.1) (XL1 1) ≤ 42000000 ∧ ampl (fun x => x.1) (XL1 2) ≤ 141000 ∧
    ampl (fun x => x.1) (XL1 3) ≤ 138 := by decide +kernel

/-- seconds of arc in a radian, with the `PI` of the program -/
noncomputable abbrev R : ℝ := SECOND_PER_RAD

theorem R_eq : R = 648000 * 10 ^ 15 / 3141592653589793 := by
  show ((648000 : ℤ) : ℝ) / 10 ^ 0 / (((3141592653589793 : ℤ) : ℝ) / 10 ^ 15) = _
  norm_num

theorem rad : Near (SECOND_PER_RAD : Fl M) R 206265 (1 / 10 ^ 10) := by
  have h1 := Near.lit (M := M) 648000 0
  have h2 := Near.lit (M := M) 3141592653589793 15
  have hl : (3.14159265 : ℝ) ≤ FloatLike.lit 3141592653589793 15 := by
    show (3.14159265 : ℝ) ≤ ((3141592653589793 : ℤ) : ℝ) / 10 ^ 15
    norm_num
  apply Near.mono
  · exact h1.div h2 (l := 3.14159265) (by norm_num) hl
  · norm_num
  · norm_num

/-- division by `SECOND_PER_RAD` -/
theorem div_rad {x : Fl M} {X m e : ℝ} (h : Near x X m e) : Near (x / SECOND_PER_RAD) (X / R) (m / 206264)
    ((e + m / 206264 * (1 / 10 ^ 10)) / (206264 - 1 / 10 ^ 10) + (m / 206264 + (e + m / 206264 * (1 / 10 ^ 10)) / (206264 - 1 / 10 ^ 10)) / 2 ^ 53) :=
  h.div rad (by norm_num) (by rw [R_eq]; norm_num)

/-- division by a literal -/
theorem div_lit {x : Fl M} {X m e : ℝ} (h : Near x X m e) (k : ℤ) (j : ℕ) (l : ℝ) (hl : l ≤ (k : ℝ) / 10 ^ j) (hl0 : |(k : ℝ)| / 10 ^ j / 2 ^ 53 < l) :
    Near (x / FloatLike.lit k j) (X / FloatLike.lit k j) (m / l) ((e + m / l * (|(k : ℝ)| / 10 ^ j / 2 ^ 53)) / (l - |(k : ℝ)| / 10 ^ j / 2 ^ 53) +
      (m / l + (e + m / l * (|(k : ℝ)| / 10 ^ j / 2 ^ 53)) / (l - |(k : ℝ)| / 10 ^ j / 2 ^ 53)) / 2 ^ 53) :=
  h.div (lit k j) hl0 hl

/-- the difference of two doubles is positive when it is -/
theorem sub_pos_iff {x : Fl M} (h : |(x.v : ℝ)| ≤ 31) : (int 0 : Fl M).v < (x - int 10 : Fl M).v ↔ (int 0 : ℝ) < (x.v : ℝ) - int 10 := by
  have e0 : (int 0 : Fl M).v = 0 := Block.int_v M (by norm_num)
  have e1 : (int 10 : Fl M).v = 10 := by rw [Block.int_v M (by norm_num)]; norm_num
  have f0 : (int 0 : ℝ) = 0 := by show ((0 : ℤ) : ℝ) / 10 ^ 0 = 0; norm_num
  have f1 : (int 10 : ℝ) = 10 := by show ((10 : ℤ) : ℝ) / 10 ^ 0 = 10; norm_num
  rw [e0, f0, f1]
  have e2 : (x - int 10 : Fl M).v = rnd (x.v - 10) := by
    show rnd (x.v - (int 10 : Fl M).v) = _
    rw [e1]
  rw [e2]
  have key := abs_le.1 (abs_rnd_sub_le_rel (x.v - 10))
  have : (0 : ℝ) < (x.v : ℝ) - 10 ↔ 0 < x.v - 10 := by
    rw [← Rat.cast_lt (K := ℝ)]; push_cast; rfl
  rw [this]
  constructor
  · intro h
    by_contra hc
    rw [not_lt] at hc
    rw [abs_of_nonpos hc] at key
    have : (x.v - 10) / 2 ^ 53 ≤ 0 := div_nonpos_of_nonpos_of_nonneg hc (by norm_num)
    rw [neg_div] at key
    nlinarith [key.1, key.2]
  · intro h
    rw [abs_of_pos h] at key
    have : (x.v - 10) / 2 ^ 53 ≤ (x.v - 10) / 2 := by gcongr; norm_num
    linarith [key.1]

/-! ## `mLon` -/

section
variable {α : Type} [FloatLike α]

/-- the mean longitude of the moon without precession, in seconds -/
def mPoly1 (t : α) : α :=
  int 0 + (FloatLike.lit 381034409 8 + FloatLike.lit 8399684730072 9 * t - FloatLike.lit 3319 8 * (t * t) + FloatLike.lit 311 10 * (t * t * t) -
    FloatLike.lit 2033 13 * (t * t * t * t)) * SECOND_PER_RAD

/-- the precession, in seconds -/
def mPoly2 (t : α) : α :=
  FloatLike.lit 5028792262 6 * t + FloatLike.lit 11124406 7 * (t * t) + FloatLike.lit 7699 8 * (t * t * t) - FloatLike.lit 23479 9 * (t * t * t * t) -
    FloatLike.lit 178 10 * (t * t * t * t * t)

/-- the term of the mean longitude from the year 3000 on, in seconds -/
def mPoly3 (tx : α) : α := FloatLike.lit (-866) 3 + FloatLike.lit 143 2 * tx + FloatLike.lit 54 3 * tx * tx

/-- the mean longitude of the moon in seconds -/
def mPoly (t : α) : α := FloatLike.sel (int 0) (t - int 10) (mPoly1 t + mPoly2 t + mPoly3 (t - int 10)) (mPoly1 t + mPoly2 t)

/-- a group of the moon at a time -/
def mAt (n : ℤ) (i : ℕ) (t : α) : α :=
  FloatLike.mGroup n i t (t * t / int 10000) (t * t * t / int 100000000) (t * t * t * t / int 100000000)

theorem mLon_eq (t : α) (n : ℤ) : ShouXing.mLon t n =
    (mPoly t + mAt n 0 t * int 1 + mAt n 1 t * (int 1 * t) + mAt n 2 t * (int 1 * t * t) + mAt n 3 t * (int 1 * t * t * t)) / SECOND_PER_RAD := rfl

end

theorem mPoly1_near {x : Fl M} (hx : |(x.v : ℝ)| ≤ 31) : Near (mPoly1 x) (mPoly1 (x.v : ℝ)) 53711000000 (1 / 10 ^ 4) := by
  have h0 := Near.self x hx
  have h2 := (h0.mul h0).mono (m' := 961) (e' := 2 / 10 ^ 13) (by norm_num) (by norm_num)
  have h3 := (h2.mul h0).mono (m' := 29791) (e' := 1 / 10 ^ 11) (by norm_num) (by norm_num)
  have h4 := (h3.mul h0).mono (m' := 923521) (e' := 5 / 10 ^ 10) (by norm_num) (by norm_num)
  have hr := rad (M := M)
  unfold mPoly1 int
  apply Near.mono
  · near
  · norm_num
  · norm_num

theorem mPoly2_near {x : Fl M} (hx : |(x.v : ℝ)| ≤ 31) : Near (mPoly2 x) (mPoly2 (x.v : ℝ)) 200000 (1 / 10 ^ 9) := by
  have h0 := Near.self x hx
  have h2 := (h0.mul h0).mono (m' := 961) (e' := 2 / 10 ^ 13) (by norm_num) (by norm_num)
  have h3 := (h2.mul h0).mono (m' := 29791) (e' := 1 / 10 ^ 11) (by norm_num) (by norm_num)
  have h4 := (h3.mul h0).mono (m' := 923521) (e' := 5 / 10 ^ 10) (by norm_num) (by norm_num)
  have h5 := (h4.mul h0).mono (m' := 28629151) (e' := 2 / 10 ^ 8) (by norm_num) (by norm_num)
  unfold mPoly2
  apply Near.mono
  · near
  · norm_num
  · norm_num

theorem mPoly3_near {x : Fl M} {X : ℝ} (h0 : Near x X 41 (1 / 10 ^ 14)) : Near (mPoly3 x) (mPoly3 X) 160 (1 / 10 ^ 10) := by
  unfold mPoly3
  apply Near.mono
  · near
  · norm_num
  · norm_num

theorem mPoly_near {x : Fl M} (hx : |(x.v : ℝ)| ≤ 31) : Near (mPoly x) (mPoly (x.v : ℝ)) 53711300000 (1 / 10 ^ 3) := by
  have h0 := Near.self x hx
  have hx' : Near (x - int 10) ((x.v : ℝ) - int 10) 41 (1 / 10 ^ 14) := by
    unfold int
    apply Near.mono
    · near
    · norm_num
    · norm_num
  have s1 := (mPoly1_near hx).add (mPoly2_near hx)
  have s2 := s1.add (mPoly3_near hx')
  exact (s2.mono (by norm_num) (by norm_num)).sel (s1.mono (by norm_num) (by norm_num)) (sub_pos_iff hx)

section
variable (hM : M.Good)
include hM

theorem mAt_near {x : Fl M} (hx : |(x.v : ℝ)| ≤ 31) (n : ℤ) (i : ℕ) : Near (mAt n i x) (mAt n i (x.v : ℝ))
    ((ampl (fun x => x.1) (XL1 i) : ℝ) / 10 ^ 7) ((ampl (fun x => x.1) (XL1 i) : ℝ) / 10 ^ 7 * (2 / 10 ^ 9)) := by
  have h0 := Near.self x hx
  have h2 := (h0.mul h0).mono (m' := 961) (e' := 2 / 10 ^ 13) (by norm_num) (by norm_num)
  have h3 := (h2.mul h0).mono (m' := 29791) (e' := 1 / 10 ^ 11) (by norm_num) (by norm_num)
  have h4 := (h3.mul h0).mono (m' := 923521) (e' := 5 / 10 ^ 10) (by norm_num) (by norm_num)
  have k2 := (h2.div_lit 10000 0 10000 (by norm_num) (by norm_num)).mono (m' := 1) (e' := 1 / 10 ^ 12) (by norm_num) (by norm_num)
  have k3 := (h3.div_lit 100000000 0 100000000 (by norm_num) (by norm_num)).mono (m' := 1 / 100) (e' := 1 / 10 ^ 12) (by norm_num) (by norm_num)
  have k4 := (h4.div_lit 100000000 0 100000000 (by norm_num) (by norm_num)).mono (m' := 1 / 10) (e' := 1 / 10 ^ 12) (by norm_num) (by norm_num)
  exact Near.mGroup hM h0 k2 k3 k4 n i

theorem mLon {x : Fl M} (hx : |(x.v : ℝ)| ≤ 31) (n : ℤ) : Near (ShouXing.mLon x n) (ShouXing.mLon (x.v : ℝ) n) 300000 (1 / 10 ^ 8) := by
  have g := fun i => mAt_near hM hx n i
  obtain ⟨a0, a1, a2, a3⟩ := amplM
  have cast : ∀ {a b : ℤ} {c : ℝ}, a ≤ b → (b : ℝ) / 10 ^ 7 ≤ c → (a : ℝ) / 10 ^ 7 ≤ c ∧ (a : ℝ) / 10 ^ 7 * (2 / 10 ^ 9) ≤ c * (2 / 10 ^ 9) := by
    intro a b c h h'
    have : (a : ℝ) ≤ b := by exact_mod_cast h
    have h1 : (a : ℝ) / 10 ^ 7 ≤ c := le_trans (by gcongr) h'
    exact ⟨h1, by gcongr⟩
  obtain ⟨p, q⟩ := cast a0 (c := 34500) (by norm_num)
  have g0 := (g 0).mono p q
  obtain ⟨p, q⟩ := cast a1 (c := 4.2) (by norm_num)
  have g1 := (g 1).mono p q
  obtain ⟨p, q⟩ := cast a2 (c := 0.0141) (by norm_num)
  have g2 := (g 2).mono p q
  obtain ⟨p, q⟩ := cast a3 (c := 0.000014) (by norm_num)
  have g3 := (g 3).mono p q
  clear cast g a0 a1 a2 a3
  have h0 := Near.self x hx
  have i1 : Near (int 1 : Fl M) (int 1) 1 (1 / 2 ^ 53) := (Near.lit 1 0).mono (by norm_num) (by norm_num)
  have h1 := (i1.mul h0).mono (m' := 31) (e' := 1 / 10 ^ 14) (by norm_num) (by norm_num)
  have h2 := (h1.mul h0).mono (m' := 961) (e' := 1 / 10 ^ 12) (by norm_num) (by norm_num)
  have h3 := (h2.mul h0).mono (m' := 29791) (e' := 1 / 10 ^ 10) (by norm_num) (by norm_num)
  have s4 := mPoly_near hx
  have r0 := (s4.add (g0.mul i1)).mono (m' := 53711900000) (e' := 11 / 10 ^ 4) (by norm_num) (by norm_num)
  have r1 := (r0.add (g1.mul h1)).mono (m' := 53712000000) (e' := 12 / 10 ^ 4) (by norm_num) (by norm_num)
  have r2 := (r1.add (g2.mul h2)).mono (m' := 53713000000) (e' := 13 / 10 ^ 4) (by norm_num) (by norm_num)
  have r3 := (r2.add (g3.mul h3)).mono (m' := 53714000000) (e' := 14 / 10 ^ 4) (by norm_num) (by norm_num)
  rw [mLon_eq, mLon_eq]
  exact r3.div_rad.mono (by norm_num) (by norm_num)

end

end Near
