import Verif.Proof.SunDay.Root
import Verif.Props.Library

/-! # C118: the solar terms are where the sun stands at multiples of fifteen degrees

`saLonT` starts from the mean sun and makes two steps of Newton, the first with ten terms of the series; nothing in it tests whether
the place has been reached.  Here it is shown to be, over a thousand years to either side of 2000, and what follows for the table. -/

section
open Spec ShouXing

variable {M : Libm}

/-- **C118** the place of the sun at the time found is the place asked for: within 0.000001 rad (a fifth of a second of arc) for the long
function, within 0.00021 rad for the short one -/
theorem C118_longitude (hM : M.Good) (w : Fl M) (hw : |(w.v : ℝ)| ≤ 6284) :
    |((saLon (saLonT w) (-1) : Fl M).v : ℝ) - w.v| ≤ 0.000001 ∧ |((saLon (saLonT2 w) (-1) : Fl M).v : ℝ) - w.v| ≤ 0.00021 := by
  obtain ⟨a, b, -⟩ := SunDay.long hM hw
  obtain ⟨c, d, -⟩ := SunDay.short hM hw
  have f := abs_le.1 (Near.saLon hM a (-1)).1
  have g := abs_le.1 (Near.saLon hM c (-1)).1
  have b := abs_le.1 b
  have d := abs_le.1 d
  constructor
  · rw [abs_le]; constructor <;> linarith
  · rw [abs_le]; constructor <;> linarith

/-- **C118** the sun never stands still nor goes back: of two times more than a third of a second apart the later one has the greater longitude -/
theorem C118_forward (hM : M.Good) (x y : Fl M) (hx : |(x.v : ℝ)| ≤ 10.02) (hy : |(y.v : ℝ)| ≤ 10.02)
    (h : 1 / 3 ≤ ((y.v : ℝ) - x.v) * 36525 * 86400) : (saLon x (-1) : Fl M).v < (saLon y (-1) : Fl M).v := by
  have f := abs_le.1 (Near.saLon hM hx (-1)).1
  have g := abs_le.1 (Near.saLon hM hy (-1)).1
  have k := SunDay.grows hx hy (by linarith)
  have : ((saLon x (-1) : Fl M).v : ℝ) < (saLon y (-1) : Fl M).v := by linarith
  exact_mod_cast this

/-- **C118** by the series without rounding there is one instant at which the sun is at the place asked for; the long function finds it to 4.2 seconds,
the short one to 18 minutes -/
theorem C118_instant (hM : M.Good) (w : Fl M) (hw : |(w.v : ℝ)| ≤ 6284) :
    ∃ t, SunAt w.v t ∧ (∀ t', SunAt w.v t' → t' = t) ∧ |((saLonT w : Fl M).v : ℝ) - t| * 36525 * 86400 ≤ 4.2 ∧
      |((saLonT2 w : Fl M).v : ℝ) - t| * 36525 * 86400 ≤ 1080 := by
  obtain ⟨t, ht, k⟩ := SunDay.sunAt_exists (W := w.v) (d := 0.000000001328) (by norm_num) (by norm_num) (SunDay.long_bound hM hw)
    ((SunDay.long hM hw).2.1.trans (by norm_num))
  obtain ⟨t', ht', k'⟩ := SunDay.sunAt_exists (W := w.v) (d := 0.000000342) (by norm_num) (by norm_num) (SunDay.short_bound hM hw)
    ((SunDay.short hM hw).2.1.trans (by norm_num))
  rw [SunDay.sunAt_unique ht' ht] at k'
  exact ⟨t, ht, fun t' h => SunDay.sunAt_unique h ht, by linarith, by linarith⟩

/-- **C118** the entries of the table of a moment: entry `i` of the table of year `Y` is the moment, in the time of 120° east, at which the longitude
of the sun is `24 * (Y - 2000) + 17 + i` times 15°, to 5.3 seconds.  `x` is that instant in days, as the library has it, and `dtT x` the difference of
dynamical and universal time there -/
theorem C118_terms (hM : M.Good) (s : Solar) (hs : s.Valid) (h1 : 1585 ≤ s.year) (h2 : s.year ≤ 2997) (l : Lunar)
    (hl : Lunar.fromSolar (astro M) s = .ok l) (i : ℕ) (hi : i < 31) (p : Solar) (hp : l.jieQi[i]? = some p) :
    ∃ t, SunAt ((24 * (s.year - 2000) + 17 + i) * Real.pi / 12) t ∧ ∃ x : Fl M, |(x.v : ℝ) - 36525 * t| * 86400 ≤ 4.2 ∧
      ∀ d, IsDay d p.date → |(86400 * (d - 2451545) + p.hour * 3600 + p.minute * 60 + p.second - 43200 : ℝ) -
        86400 * (36525 * t - (dtT x : Fl M).v + 1 / 3)| ≤ 5.3 := by
  obtain ⟨-, -, -, -, tab⟩ := Ephem.made hM hs (by omega) (by omega) hl
  rw [tab _ hi] at hp
  have hp := Option.some.inj hp
  obtain ⟨n, hn⟩ : ∃ n : ℤ, n = 24 * (s.year - 2000) + 17 + i := ⟨_, rfl⟩
  rw [← hn] at hp
  obtain ⟨t, ht, x, k1, k2, -⟩ := SunDay.term_place hM (n := n) (by omega) (by omega)
  obtain ⟨-, v, e⟩ := Ephem.moment_spec (Ephem.full hM) (n := n) (by omega) (by omega)
  rw [hp] at v e
  refine ⟨t, ?_, x, by linarith, fun d hd => ?_⟩
  · have : (24 * (s.year - 2000) + 17 + i : ℝ) = n := by rw [hn]; push_cast; ring
    rw [this]; exact ht
  · rw [isDay_iff v.1] at hd
    have hs : Cal.secNo p + 86400 * 1721057 = 86400 * d + p.hour * 3600 + p.minute * 60 + p.second := by
      rw [hd, JD.jdn_eq v.1]
      unfold Cal.secNo
      ring
    have e' : |(Cal.secNo p : ℝ) + 86400 * 1721057 - 86400 * ((termAt M n : ℝ) + 1 / 2 + 2451545)| ≤ 1 := by
      have := (Rat.cast_le (K := ℝ)).2 e
      push_cast at this
      exact this
    have hr : (Cal.secNo p : ℝ) + 86400 * 1721057 = 86400 * d + p.hour * 3600 + p.minute * 60 + p.second := by exact_mod_cast hs
    rw [hr] at e'
    have e' := abs_le.1 e'
    have k2 := abs_le.1 k2
    rw [abs_le]; constructor <;> linarith

/-- the spring equinox of 2028, entry 7 of its table: 29 turns and the longitude 0 -/
example : ∃ l p t, Lunar.fromSolar (astro Libm.cut) ⟨2028, 7, 1, 12, 0, 0⟩ = .ok l ∧ l.jieQi[7]? = some p ∧ SunAt (29 * (2 * Real.pi)) t ∧
    ∃ x : Fl Libm.cut, |(x.v : ℝ) - 36525 * t| * 86400 ≤ 4.2 ∧
      ∀ d, IsDay d p.date → |(86400 * (d - 2451545) + p.hour * 3600 + p.minute * 60 + p.second - 43200 : ℝ) -
        86400 * (36525 * t - (dtT x : Fl Libm.cut).v + 1 / 3)| ≤ 5.3 := by
  obtain ⟨l, e, -⟩ := C84_round_trip Libm.cut_good ⟨2028, 7, 1, 12, 0, 0⟩ (by decide) (by decide) (by decide)
  obtain ⟨-, -, -, -, tab⟩ := Ephem.made Libm.cut_good (by decide) (by decide) (by decide) e
  obtain ⟨t, a, b⟩ := C118_terms Libm.cut_good _ (by decide) (by decide) (by decide) l e 7 (by norm_num) _ (tab 7 (by norm_num))
  refine ⟨l, _, t, e, tab 7 (by norm_num), ?_, b⟩
  have : (24 * (((2028 : ℤ) : ℝ) - 2000) + 17 + ((7 : ℕ) : ℝ)) * Real.pi / 12 = 29 * (2 * Real.pi) := by push_cast; ring
  rw [← this]
  exact a

/-- the spring equinox of 1644, entry 7 of its table: 355 turns before that of 2000 -/
example : ∃ l p t, Lunar.fromSolar (astro Libm.cut) ⟨1644, 7, 1, 12, 0, 0⟩ = .ok l ∧ l.jieQi[7]? = some p ∧ SunAt (-355 * (2 * Real.pi)) t ∧
    ∃ x : Fl Libm.cut, |(x.v : ℝ) - 36525 * t| * 86400 ≤ 4.2 ∧
      ∀ d, IsDay d p.date → |(86400 * (d - 2451545) + p.hour * 3600 + p.minute * 60 + p.second - 43200 : ℝ) -
        86400 * (36525 * t - (dtT x : Fl Libm.cut).v + 1 / 3)| ≤ 5.3 := by
  obtain ⟨l, e, -⟩ := C84_round_trip Libm.cut_good ⟨1644, 7, 1, 12, 0, 0⟩ (by decide) (by decide) (by decide)
  obtain ⟨-, -, -, -, tab⟩ := Ephem.made Libm.cut_good (by decide) (by decide) (by decide) e
  obtain ⟨t, a, b⟩ := C118_terms Libm.cut_good _ (by decide) (by decide) (by decide) l e 7 (by norm_num) _ (tab 7 (by norm_num))
  refine ⟨l, _, t, e, tab 7 (by norm_num), ?_, b⟩
  have : (24 * (((1644 : ℤ) : ℝ) - 2000) + 17 + ((7 : ℕ) : ℝ)) * Real.pi / 12 = -355 * (2 * Real.pi) := by push_cast; ring
  rw [← this]
  exact a

/-- the place 2 rad is found -/
example : ∃ t, SunAt 2 t ∧ |((saLonT (int 2) : Fl Libm.cut).v : ℝ) - t| * 36525 * 86400 ≤ 4.2 := by
  have e : ((int 2 : Fl Libm.cut).v : ℝ) = 2 := by
    have := Block.int_v Libm.cut (k := 2) (by norm_num)
    rw [this]; norm_num
  obtain ⟨t, a, -, b, -⟩ := C118_instant Libm.cut_good (int 2) (by rw [e]; norm_num)
  rw [e] at a
  exact ⟨t, a, b⟩

end
