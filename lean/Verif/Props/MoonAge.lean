import Verif.Proof.Lunation.Age
import Verif.Props.Library

/-! # C119: the day of the lunar month is the age of the moon

The months are cut by days computed with `msaLonT2`, or `msaLonT` near midnight, which make two or three steps of Newton without a test.  Here the
moon is shown to be at the sun then, as the series have it, and its phase on every day of a month follows. -/

section
open Spec ShouXing LunarYear

variable {M : Libm}

/-- **C119** at the time found the moon is ahead of the sun by the angle asked for, to 0.01 rad, which it covers in 68 minutes -/
theorem C119_found (hM : M.Good) (w : Fl M) (h0 : -3200 ≤ (w.v : ℝ)) (h1 : (w.v : ℝ) ≤ 233500) :
    |((msaLon (msaLonT w) (-1) 60 : Fl M).v : ℝ) - w.v| ≤ 0.01 ∧ |((msaLon (msaLonT2 w) (-1) 60 : Fl M).v : ℝ) - w.v| ≤ 0.01 := by
  have one : ∀ t : Fl M, |(t.v : ℝ)| ≤ 30.09 → |Lunation.G t.v - w.v| ≤ 0.0055 → |((msaLon t (-1) 60 : Fl M).v : ℝ) - w.v| ≤ 0.01 := by
    intro t ht h
    have a := abs_le.1 (Near.msaLon hM (x := t) (by linarith) (-1) 60).1
    have b := abs_le.1 (Lunation.msaLon60_near (t := t.v) (by linarith))
    have h := abs_le.1 h
    rw [abs_le]; constructor <;> linarith
  obtain ⟨a, -, b⟩ := Lunation.long hM h0 h1
  obtain ⟨c, -, d⟩ := Lunation.short hM h0 h1
  exact ⟨one _ a b, one _ c d⟩

/-- **C119** the months of a list begin on the days of new moons, one after the other: month `i` on a day that holds an instant `t` at which the moon is at
the sun to 0.01 rad, after `k + i` turns.  `x` is `t` in days, to a day, and `dtT x` the difference of dynamical and universal time -/
theorem C119_new_moons (hM : M.Good) (Y : ℤ) (h1 : 1961 ≤ Y) (h2 : Y ≤ 4980) : ∃ k : ℤ, ∀ i : ℕ, i < 15 → ∀ m, (make (astro M) Y).months[i]? = some m →
    ∃ (t : ℝ) (x : Fl M), |elongation t - (k + i) * (2 * Real.pi)| ≤ 0.01 ∧ |(x.v : ℝ) - 36525 * t| ≤ 1 ∧
      (m.firstJulianDay : ℝ) - 1 / 10 ^ 6 ≤ 36525 * t - (dtT x : Fl M).v + 1 / 3 + 2451545.5 ∧
      36525 * t - (dtT x : Fl M).v + 1 / 3 + 2451545.5 ≤ m.firstJulianDay + 1 + 1 / 10 ^ 6 := by
  have B := (Ephem.full hM).toFacts
  refine ⟨Ephem.start B Y, fun i hi m hm => ?_⟩
  obtain ⟨m', e, -, f, -⟩ := Ephem.window B (Y := Y) (by omega) (by omega) hi
  rw [hm] at e
  cases e
  obtain ⟨-, -, s1, s2, -⟩ := Ephem.start_spec B (Y := Y) (by omega) (by omega)
  have y1 : (1961 : ℚ) ≤ Y := by exact_mod_cast h1
  have y2 : (Y : ℚ) ≤ 4980 := by exact_mod_cast h2
  have a1 : ((-490 : ℤ) : ℚ) < (Ephem.start B Y : ℤ) := by push_cast; linarith
  have a2 : ((Ephem.start B Y : ℤ) : ℚ) < ((36980 : ℤ) : ℚ) := by push_cast; linarith
  have a1 := Int.cast_lt.1 a1
  have a2 := Int.cast_lt.1 a2
  have e1 := Ephem.first_eq B (Y := Y) (by omega) (by omega) (i := i) (by omega) (by omega)
  rw [Ephem.dayN_high hM (by omega)] at e1
  obtain ⟨T, x, T1, T2, -, x1, u1, u2⟩ := Lunation.moon_time hM (k := Ephem.start B Y + i) (by omega) (by omega)
  have b := abs_le.1 (Lunation.msaLon60_near (t := T) (by linarith))
  have T2 := abs_le.1 T2
  have eJ : (LunarYear.J2000 : ℤ) = 2451545 := rfl
  have hf : (m.firstJulianDay : ℝ) = moonDay M (Ephem.start B Y + i) + 2451545 := by
    rw [f, e1, eJ]; push_cast; ring
  push_cast at T2
  refine ⟨T, x, ?_, x1, by rw [hf]; linarith, by rw [hf]; linarith⟩
  unfold elongation
  rw [abs_le]; constructor <;> linarith

/-- **C119** the elongation at a moment of the day `l.day` of its lunar month: by the mean motion of 0.21277 rad a day, to 0.42 rad.  `k` counts the new
moons; `x` is, to 33 days, the instant in days, and `δ` may be any difference of dynamical and universal time within 14 minutes of `dtT x` -/
theorem C119_age (hM : M.Good) (s : Solar) (hs : s.Valid) (h1 : 1961 ≤ s.year) (h2 : s.year ≤ 4980) (l : Lunar) (hl : Lunar.fromSolar (astro M) s = .ok l) :
    ∃ (k : ℤ) (x : Fl M), ∀ δ t : ℝ, |δ - (dtT x : Fl M).v| ≤ 0.01 → Instant s δ t → |(x.v : ℝ) - 36525 * t| ≤ 33 ∧
      0.21277 * (l.day - 2) - 0.42 ≤ elongation t - k * (2 * Real.pi) ∧ elongation t - k * (2 * Real.pi) ≤ 0.21277 * l.day + 0.42 :=
  Lunation.age hM hs h1 h2 hl

/-- **C119** so on the first day (朔) the moon is within 38° of the sun, on the fifteenth (望) within 47° of the place opposite to it; from the fourth to the
twelfth it is waxing, from the nineteenth to the twenty-seventh waning -/
theorem C119_phase (hM : M.Good) (s : Solar) (hs : s.Valid) (h1 : 1961 ≤ s.year) (h2 : s.year ≤ 4980) (l : Lunar) (hl : Lunar.fromSolar (astro M) s = .ok l) :
    ∃ x : Fl M, ∀ δ t : ℝ, |δ - (dtT x : Fl M).v| ≤ 0.01 → Instant s δ t → |(x.v : ℝ) - 36525 * t| ≤ 33 ∧
      (l.day = 1 → 0.79 ≤ Real.cos (elongation t)) ∧ (l.day = 15 → Real.cos (elongation t) ≤ -0.68) ∧
      (4 ≤ l.day ∧ l.day ≤ 12 → 0 < Real.sin (elongation t)) ∧ (19 ≤ l.day ∧ l.day ≤ 27 → Real.sin (elongation t) < 0) := by
  obtain ⟨k, x, h⟩ := C119_age hM s hs h1 h2 l hl
  refine ⟨x, fun δ t hδ ht => ?_⟩
  obtain ⟨a, b, c⟩ := h δ t hδ ht
  have p1 := Real.pi_gt_d4
  have p2 := Real.pi_lt_d4
  obtain ⟨E, hE⟩ : ∃ E, E = elongation t - k * (2 * Real.pi) := ⟨_, rfl⟩
  rw [← Real.cos_sub_int_mul_two_pi (elongation t) k, ← Real.sin_sub_int_mul_two_pi (elongation t) k]
  rw [← hE] at b c ⊢
  refine ⟨a, fun d => ?_, fun d => ?_, fun d => ?_, fun d => ?_⟩
  · rw [d] at b c
    push_cast at b c
    have := Real.one_sub_sq_div_two_le_cos (x := E)
    have : E ^ 2 ≤ 0.633 ^ 2 := sq_le_sq' (by linarith) (by linarith)
    linarith
  · rw [d] at b c
    push_cast at b c
    have := Real.one_sub_sq_div_two_le_cos (x := E - Real.pi)
    rw [Real.cos_sub_pi] at this
    have : (E - Real.pi) ^ 2 ≤ 0.796 ^ 2 := sq_le_sq' (by linarith) (by linarith)
    linarith
  · have d1 : (4 : ℝ) ≤ l.day := by exact_mod_cast d.1
    have d2 : (l.day : ℝ) ≤ 12 := by exact_mod_cast d.2
    exact Real.sin_pos_of_pos_of_lt_pi (by linarith) (by linarith)
  · have d1 : (19 : ℝ) ≤ l.day := by exact_mod_cast d.1
    have d2 : (l.day : ℝ) ≤ 27 := by exact_mod_cast d.2
    have := Real.sin_pos_of_pos_of_lt_pi (x := E - Real.pi) (by linarith) (by linarith)
    rw [Real.sin_sub_pi] at this
    linarith

/-- a moment has an instant, whatever the difference of the times -/
private theorem instant_exists (s : Solar) (hs : s.Valid) (δ : ℝ) : ∃ t, Instant s δ t :=
  ⟨((86400 * ((JD.jdn s.date : ℤ) - 2451545) + s.hour * 3600 + s.minute * 60 + s.second - 43200 : ℝ) / 86400 + δ - 1 / 3) / 36525, JD.jdn s.date,
    (isDay_iff hs.1).2 rfl, by ring⟩

/-- the moon on 1 July 2028, at noon -/
example : ∃ l t, Lunar.fromSolar (astro Libm.cut) ⟨2028, 7, 1, 12, 0, 0⟩ = .ok l ∧ (∃ x : Fl Libm.cut, |(x.v : ℝ) - 36525 * t| ≤ 33 ∧
    Instant ⟨2028, 7, 1, 12, 0, 0⟩ (dtT x : Fl Libm.cut).v t) ∧
    ∃ k : ℤ, 0.21277 * (l.day - 2) - 0.42 ≤ elongation t - k * (2 * Real.pi) ∧ elongation t - k * (2 * Real.pi) ≤ 0.21277 * l.day + 0.42 := by
  obtain ⟨l, e, -⟩ := C84_round_trip Libm.cut_good ⟨2028, 7, 1, 12, 0, 0⟩ (by decide) (by decide) (by decide)
  obtain ⟨k, x, h⟩ := C119_age Libm.cut_good ⟨2028, 7, 1, 12, 0, 0⟩ (by decide) (by decide) (by decide) l e
  obtain ⟨t, ht⟩ := instant_exists ⟨2028, 7, 1, 12, 0, 0⟩ (by decide) (dtT x : Fl Libm.cut).v
  obtain ⟨a, b⟩ := h _ t (by rw [sub_self, abs_zero]; norm_num) ht
  exact ⟨l, t, e, ⟨x, a, ht⟩, k, b⟩

/-- an elongation of 62 rad, nearly ten turns, is found -/
example : ∃ w : Fl Libm.cut, |((msaLon (msaLonT w) (-1) 60 : Fl Libm.cut).v : ℝ) - w.v| ≤ 0.01 ∧ (w.v : ℝ) = 62 := by
  have e : ((int 62 : Fl Libm.cut).v : ℝ) = 62 := by
    rw [Block.int_v Libm.cut (k := 62) (by norm_num)]; norm_num
  exact ⟨int 62, (C119_found Libm.cut_good (int 62) (by rw [e]; norm_num) (by rw [e]; norm_num)).1, e⟩

end
