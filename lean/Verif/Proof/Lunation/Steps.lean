import Verif.Proof.Lunation.Series
import Verif.Proof.MoonBlock

/-! # The functions in the steps of `msaLonT` and `msaLonT2` are near their values on real numbers -/

open ShouXing F64

namespace Near
variable {M : Libm}

/-! ## `eLon` -/

section
variable {α : Type} [FloatLike α]

/-- the last summand of `eLon` -/
def ePoly (t : α) : α :=
  (FloatLike.lit (-728) 4 - FloatLike.lit 27702 4 * t - FloatLike.lit 11019 4 * (t * t) - FloatLike.lit 996 4 * (t * t * t)) / SECOND_PER_RAD

/-- the series of `eLon` -/
def eSeries (n : ℤ) (t : α) : α :=
  (int 0 + FloatLike.eGroup n 0 t * int 1 + FloatLike.eGroup n 1 t * (int 1 * t) + FloatLike.eGroup n 2 t * (int 1 * t * t) +
    FloatLike.eGroup n 3 t * (int 1 * t * t * t) + FloatLike.eGroup n 4 t * (int 1 * t * t * t * t) +
    FloatLike.eGroup n 5 t * (int 1 * t * t * t * t * t)) / int 10000000000

theorem eLon_eq (t : α) (n : ℤ) : ShouXing.eLon t n = eSeries n (t / int 10) + ePoly (t / int 10) := rfl

end

theorem ePoly_near {x : Fl M} {X : ℝ} (h : Near x X 3.1 (1 / 10 ^ 15)) : Near (ePoly x) (ePoly X) 1 (1 / 10 ^ 10) := by
  have h2 := (h.mul h).mono (m' := 9.61) (e' := 1 / 10 ^ 13) (by norm_num) (by norm_num)
  have h3 := (h2.mul h).mono (m' := 30) (e' := 1 / 10 ^ 12) (by norm_num) (by norm_num)
  have r : Near (FloatLike.lit (-728) 4 - FloatLike.lit 27702 4 * x - FloatLike.lit 11019 4 * (x * x) - FloatLike.lit 996 4 * (x * x * x))
      (FloatLike.lit (-728) 4 - FloatLike.lit 27702 4 * X - FloatLike.lit 11019 4 * (X * X) - FloatLike.lit 996 4 * (X * X * X)) 30 (1 / 10 ^ 11) := by
    apply Near.mono
    · near
    · norm_num
    · norm_num
  exact r.div_rad.mono (by norm_num) (by norm_num)

section
variable (hM : M.Good)
include hM

theorem eSeries_near {x : Fl M} {X : ℝ} (h : Near x X 3.1 (1 / 10 ^ 15)) (n : ℤ) : Near (eSeries n x) (eSeries n X) 20000 (17 / 10 ^ 6) := by
  have g := fun i => Near.eGroup hM h n i
  obtain ⟨a0, a1, a2, a3, a4, a5⟩ := amplE
  have cast : ∀ {a b : ℤ} {c : ℝ}, a ≤ b → (b : ℝ) ≤ c → (a : ℝ) ≤ c ∧ (a : ℝ) * (8 / 10 ^ 10) ≤ c * (8 / 10 ^ 10) := by
    intro a b c h h'
    have : (a : ℝ) ≤ b := by exact_mod_cast h
    have h1 : (a : ℝ) ≤ c := this.trans h'
    exact ⟨h1, by gcongr⟩
  obtain ⟨p, q⟩ := cast a0 (c := 17900000000) (by norm_num)
  have g0 := (g 0).mono p q
  obtain ⟨p, q⟩ := cast a1 (c := 62833220000000) (by norm_num)
  have g1 := (g 1).mono p q
  obtain ⟨p, q⟩ := cast a2 (c := 6300000) (by norm_num)
  have g2 := (g 2).mono p q
  obtain ⟨p, q⟩ := cast a3 (c := 40000) (by norm_num)
  have g3 := (g 3).mono p q
  obtain ⟨p, q⟩ := cast a4 (c := 13000) (by norm_num)
  have g4 := (g 4).mono p q
  obtain ⟨p, q⟩ := cast a5 (c := 120) (by norm_num)
  have g5 := (g 5).mono p q
  clear cast g a0 a1 a2 a3 a4 a5
  have i0 : Near (int 0 : Fl M) (int 0) 0 0 := (Near.lit 0 0).mono (by norm_num) (by norm_num)
  have i1 : Near (int 1 : Fl M) (int 1) 1 (1 / 2 ^ 53) := (Near.lit 1 0).mono (by norm_num) (by norm_num)
  have h1 := (i1.mul h).mono (m' := 3.1) (e' := 1 / 10 ^ 14) (by norm_num) (by norm_num)
  have h2 := (h1.mul h).mono (m' := 9.61) (e' := 1 / 10 ^ 12) (by norm_num) (by norm_num)
  have h3 := (h2.mul h).mono (m' := 30) (e' := 1 / 10 ^ 11) (by norm_num) (by norm_num)
  have h4 := (h3.mul h).mono (m' := 100) (e' := 1 / 10 ^ 10) (by norm_num) (by norm_num)
  have h5 := (h4.mul h).mono (m' := 310) (e' := 1 / 10 ^ 9) (by norm_num) (by norm_num)
  have r0 := (i0.add (g0.mul i1)).mono (m' := 2 * 10 ^ 10) (e' := 100) (by norm_num) (by norm_num)
  have r1 := (r0.add (g1.mul h1)).mono (m' := 19.6 * 10 ^ 13) (e' := 160000) (by norm_num) (by norm_num)
  have r2 := (r1.add (g2.mul h2)).mono (m' := 19.7 * 10 ^ 13) (e' := 161000) (by norm_num) (by norm_num)
  have r3 := (r2.add (g3.mul h3)).mono (m' := 19.8 * 10 ^ 13) (e' := 162000) (by norm_num) (by norm_num)
  have r4 := (r3.add (g4.mul h4)).mono (m' := 19.9 * 10 ^ 13) (e' := 163000) (by norm_num) (by norm_num)
  have r5 := (r4.add (g5.mul h5)).mono (m' := 20 * 10 ^ 13) (e' := 164000) (by norm_num) (by norm_num)
  exact (r5.div_lit 10000000000 0 10000000000 (by norm_num) (by norm_num)).mono (by norm_num) (by norm_num)

theorem eLon {x : Fl M} (hx : |(x.v : ℝ)| ≤ 31) (n : ℤ) : Near (ShouXing.eLon x n) (ShouXing.eLon (x.v : ℝ) n) 20001 (18 / 10 ^ 6) := by
  have h0 := Near.self x hx
  have h := (h0.div_lit 10 0 10 (by norm_num) (by norm_num)).mono (m' := 3.1) (e' := 1 / 10 ^ 15) (by norm_num) (by norm_num)
  rw [eLon_eq, eLon_eq]
  exact ((eSeries_near hM h n).add (ePoly_near h)).mono (by norm_num) (by norm_num)

/-! ## The other functions -/

theorem gxcSunLon {x : Fl M} (hx : |(x.v : ℝ)| ≤ 31) : Near (ShouXing.gxcSunLon x) (ShouXing.gxcSunLon (x.v : ℝ)) 1 (1 / 10 ^ 9) := by
  have h0 := Near.self x hx
  have r : Near (FloatLike.lit (-2049552) 5 * (int 1 + (FloatLike.lit 16708634 9 - FloatLike.lit 42037 9 * x - FloatLike.lit 1267 10 * x * x) *
        FloatLike.cos (FloatLike.lit (-43126) 6 + FloatLike.lit 628301955 6 * x - FloatLike.lit 2732 9 * x * x)))
      (FloatLike.lit (-2049552) 5 * (int 1 + (FloatLike.lit 16708634 9 - FloatLike.lit 42037 9 * (x.v : ℝ) - FloatLike.lit 1267 10 * (x.v : ℝ) * x.v) *
        FloatLike.cos (FloatLike.lit (-43126) 6 + FloatLike.lit 628301955 6 * (x.v : ℝ) - FloatLike.lit 2732 9 * (x.v : ℝ) * x.v))) 30 (1 / 10 ^ 8) := by
    unfold int
    apply Near.mono
    · near
    · norm_num
    · norm_num
  exact r.div_rad.mono (by norm_num) (by norm_num)

theorem ev {x : Fl M} (hx : |(x.v : ℝ)| ≤ 31) : Near (ShouXing.ev x) (ShouXing.ev (x.v : ℝ)) 700 (1 / 10 ^ 6) := by
  have h0 := Near.self x hx
  unfold ShouXing.ev int
  dsimp only
  apply Near.mono
  · near
  · norm_num
  · norm_num

theorem arg {x : Fl M} (hx : |(x.v : ℝ)| ≤ 31) (p : ℤ) (j : ℕ) (q : ℤ) (k : ℕ) (hp : |(p : ℝ)| / 10 ^ j ≤ 10) (hq : |(q : ℝ)| / 10 ^ k ≤ 30000) :
    Near (FloatLike.sin (FloatLike.lit p j + FloatLike.lit q k * x)) (FloatLike.sin (FloatLike.lit p j + FloatLike.lit q k * (x.v : ℝ))) 1 (1 / 10 ^ 9) := by
  have h0 := Near.self x hx
  have h1 : Near (FloatLike.lit p j : Fl M) (FloatLike.lit p j) 10 (10 / 2 ^ 53) := (Near.lit p j).mono hp (by gcongr)
  have h2 : Near (FloatLike.lit q k : Fl M) (FloatLike.lit q k) 30000 (30000 / 2 ^ 53) := (Near.lit q k).mono hq (by gcongr)
  exact ((h1.add (h2.mul h0)).sin hM).mono (by norm_num) (by norm_num)

theorem mv {x : Fl M} (hx : |(x.v : ℝ)| ≤ 31) : Near (ShouXing.mv x) (ShouXing.mv (x.v : ℝ)) 10000 (2 / 10 ^ 5) := by
  have h0 := Near.self x hx
  have g : Near (FloatLike.lit 839971 2 - FloatLike.lit 914 0 * FloatLike.sin (FloatLike.lit 7848 4 + FloatLike.lit 8328691425 6 * x + FloatLike.lit 1523 7 * x * x))
      (FloatLike.lit 839971 2 - FloatLike.lit 914 0 * FloatLike.sin (FloatLike.lit 7848 4 + FloatLike.lit 8328691425 6 * (x.v : ℝ) + FloatLike.lit 1523 7 * (x.v : ℝ) * x.v))
      9400 (1 / 10 ^ 6) := by
    apply Near.mono
    · near
    · norm_num
    · norm_num
  have g1 := arg hM hx 2543 3 155427543 4 (by norm_num) (by norm_num)
  have g2 := arg hM hx 1874 4 72140629 4 (by norm_num) (by norm_num)
  have g3 := arg hM hx 314 2 166573828 4 (by norm_num) (by norm_num)
  have g4 := arg hM hx 4827 3 168669323 4 (by norm_num) (by norm_num)
  have g5 := arg hM hx 49 1 238714457 4 (by norm_num) (by norm_num)
  have g6 := arg hM hx 259 2 149144523 4 (by norm_num) (by norm_num)
  have g7 := arg hM hx 23 2 65857609 4 (by norm_num) (by norm_num)
  have g8 := arg hM hx 9 1 25195624 3 (by norm_num) (by norm_num)
  have g9 : Near (FloatLike.sin (FloatLike.lit 232 2 - FloatLike.lit 77003895 4 * x)) (FloatLike.sin (FloatLike.lit 232 2 - FloatLike.lit 77003895 4 * (x.v : ℝ)))
      1 (1 / 10 ^ 9) := by
    apply Near.mono
    · near
    · norm_num
    · norm_num
  have g10 := arg hM hx 388 2 89569934 4 (by norm_num) (by norm_num)
  have g11 := arg hM hx 49 2 77713771 4 (by norm_num) (by norm_num)
  have s1 := ((Near.lit (M := M) 179 0).mul g1).mono (m' := 179) (e' := 1 / 2 / 10 ^ 6) (by norm_num) (by norm_num)
  have k2 := ((Near.lit (M := M) 160 0).mul g2).mono (m' := 160) (e' := 1 / 2 / 10 ^ 6) (by norm_num) (by norm_num)
  have s2 := (s1.add k2).mono (m' := 339) (e' := 2 / 10 ^ 6) (by norm_num) (by norm_num)
  have k3 := ((Near.lit (M := M) 62 0).mul g3).mono (m' := 62) (e' := 1 / 2 / 10 ^ 6) (by norm_num) (by norm_num)
  have s3 := (s2.add k3).mono (m' := 401) (e' := 3 / 10 ^ 6) (by norm_num) (by norm_num)
  have k4 := ((Near.lit (M := M) 34 0).mul g4).mono (m' := 34) (e' := 1 / 2 / 10 ^ 6) (by norm_num) (by norm_num)
  have s4 := (s3.add k4).mono (m' := 435) (e' := 4 / 10 ^ 6) (by norm_num) (by norm_num)
  have k5 := ((Near.lit (M := M) 22 0).mul g5).mono (m' := 22) (e' := 1 / 2 / 10 ^ 6) (by norm_num) (by norm_num)
  have s5 := (s4.add k5).mono (m' := 457) (e' := 5 / 10 ^ 6) (by norm_num) (by norm_num)
  have k6 := ((Near.lit (M := M) 12 0).mul g6).mono (m' := 12) (e' := 1 / 2 / 10 ^ 6) (by norm_num) (by norm_num)
  have s6 := (s5.add k6).mono (m' := 469) (e' := 6 / 10 ^ 6) (by norm_num) (by norm_num)
  have k7 := ((Near.lit (M := M) 7 0).mul g7).mono (m' := 7) (e' := 1 / 2 / 10 ^ 6) (by norm_num) (by norm_num)
  have s7 := (s6.add k7).mono (m' := 476) (e' := 7 / 10 ^ 6) (by norm_num) (by norm_num)
  have k8 := ((Near.lit (M := M) 5 0).mul g8).mono (m' := 5) (e' := 1 / 2 / 10 ^ 6) (by norm_num) (by norm_num)
  have s8 := (s7.add k8).mono (m' := 481) (e' := 8 / 10 ^ 6) (by norm_num) (by norm_num)
  have k9 := ((Near.lit (M := M) 5 0).mul g9).mono (m' := 5) (e' := 1 / 2 / 10 ^ 6) (by norm_num) (by norm_num)
  have s9 := (s8.add k9).mono (m' := 486) (e' := 9 / 10 ^ 6) (by norm_num) (by norm_num)
  have k10 := ((Near.lit (M := M) 5 0).mul g10).mono (m' := 5) (e' := 1 / 2 / 10 ^ 6) (by norm_num) (by norm_num)
  have s10 := (s9.add k10).mono (m' := 491) (e' := 10 / 10 ^ 6) (by norm_num) (by norm_num)
  have k11 := ((Near.lit (M := M) 5 0).mul g11).mono (m' := 5) (e' := 1 / 2 / 10 ^ 6) (by norm_num) (by norm_num)
  have s11 := (s10.add k11).mono (m' := 496) (e' := 11 / 10 ^ 6) (by norm_num) (by norm_num)
  exact (g.sub s11).mono (by norm_num) (by norm_num)

omit hM in
theorem pi : Near (ShouXing.PI : Fl M) ShouXing.PI 3.2 (1 / 10 ^ 15) := (Near.lit _ _).mono (by norm_num) (by norm_num)

theorem msaLon {x : Fl M} (hx : |(x.v : ℝ)| ≤ 31) (n s : ℤ) :
    Near (ShouXing.msaLon x n s) (ShouXing.msaLon (x.v : ℝ) n s) 330000 (2 / 10 ^ 5) := by
  have h1 := mLon hM hx n
  have h2 := eLon hM hx s
  have h3 := gxcSunLon hM hx
  have h4 := pi (M := M)
  unfold ShouXing.msaLon
  apply Near.mono
  · near
  · norm_num
  · norm_num

theorem nT2 {x : Fl M} (hx : |(x.v : ℝ)| ≤ 31) : Near (Moon.nT2 x) (Moon.nT2 (x.v : ℝ)) 330000 (1 / 10 ^ 7) := by
  have h0 := Near.self x hx
  have h1 := mLon hM hx 20
  have h2 := (Near.lit (M := M) 205 1).div_rad.mono (m' := 1) (e' := 1 / 10 ^ 10) (by norm_num) (by norm_num)
  unfold Moon.nT2
  apply Near.mono
  · near
  · norm_num
  · norm_num

theorem vT2 {x : Fl M} (hx : |(x.v : ℝ)| ≤ 31) : Near (Moon.vT2 x) (Moon.vT2 (x.v : ℝ)) 10000 (1 / 10 ^ 6) := by
  have h0 := Near.self x hx
  unfold Moon.vT2 int
  apply Near.mono
  · near
  · norm_num
  · norm_num

end

end Near
