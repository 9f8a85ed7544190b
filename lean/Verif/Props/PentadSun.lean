import Verif.Proof.SunDay.Between
import Verif.Props.Pentads
import Verif.Spec.MoonAge

/-! # C122: the pentads divide the way of the sun

The pentads of C113 are counted in days from the day of a term, five, five and the rest.  Each of them belongs to five degrees of the longitude
of the sun. -/

section
open Spec ShouXing

variable {M : Libm}

/-- **C122** in pentad number `c` (0 begins at 立春 of 2000, at 315°) the longitude of the sun is between `c + 63` and `c + 64` times 5°, to 1.5° at the
beginning and 0.25° at the end.  The longitude is counted on from year to year; `x` is, to 31 days, the instant in days, and `δ` may be any difference of
dynamical and universal time within 14 minutes of `dtT x` -/
theorem C122_pentad (hM : M.Good) (s : Solar) (hs : s.Valid) (h1 : 1585 ≤ s.year) (h2 : s.year ≤ 2997) (l : Lunar)
    (hl : Lunar.fromSolar (astro M) s = .ok l) :
    ∃ (c : ℤ) (x : Fl M), l.getWuHou = .ok (pentads72.getD (c % 72).toNat "").toList ∧
      l.getHou = .ok ((springTerms.getD (c / 3 % 24).toNat "").toList ++ ' ' :: (["初候", "二候", "三候"].getD (c % 3).toNat "").toList) ∧
      ∀ δ t : ℝ, |δ - (dtT x : Fl M).v| ≤ 0.01 → Instant s δ t → |(x.v : ℝ) - 36525 * t| ≤ 31 ∧
        (c + 63) * (Real.pi / 36) - 0.0262 ≤ saLon t (-1) ∧ saLon t (-1) ≤ (c + 64) * (Real.pi / 36) + 0.0044 := by
  obtain ⟨P, m, hP, hn, -⟩ := pentads_count hM
  obtain ⟨n, en⟩ : ∃ n, n = JD.jdn s.date := ⟨_, rfl⟩
  obtain ⟨w, o, -⟩ := hn s hs (by omega) (by omega) n ((isDay_iff hs.1).2 en) l hl
  have ins := inside_terms hM hs.1 (by change 1585 ≤ s.year; omega) (by change s.year ≤ 6889; omega)
  rw [← en] at ins
  change tDay hM (24 * (s.year - 2000) + 18) ≤ n ∧ n < tDay hM (24 * (s.year - 2000) + 43) at ins
  have n1 : 2299970 ≤ n := by
    by_contra c
    have fb := Str.valid_field_bounds hs
    have := (JD.jdn_lt_iff hs.1 (show Date.Valid ⟨1585, 1, 1⟩ by decide)).1 (by rw [← en]; exact lt_of_lt_of_eq (not_le.1 c) (by decide))
    unfold Cal.DateLt at this
    simp only [Solar.date] at this
    omega
  have n2 : n ≤ 4237581 := by
    by_contra c
    have := (JD.jdn_lt_iff (show Date.Valid ⟨6889, 12, 31⟩ by decide) hs.1).1 (by rw [← en]; exact lt_of_eq_of_lt (by decide) (not_le.1 c))
    unfold Cal.DateLt at this
    simp only [Solar.date] at this
    omega
  obtain ⟨⟨r1, r2⟩, t1, t2, e⟩ := hP n n1 n2
  generalize P n = c at *
  generalize m n = k at *
  have mono : ∀ a b, -9943 ≤ a → a ≤ b → b ≤ 117390 → tDay hM a ≤ tDay hM b := by
    intro a b x y z
    rcases y.eq_or_lt with rfl | y
    · exact le_rfl
    · exact (Ephem.moment_lt hM (by omega) y (by omega)).le
  have k1 : 24 * (s.year - 2000) + 18 ≤ k := by
    by_contra h
    have := mono (k + 1) (24 * (s.year - 2000) + 18) (by omega) (by omega) (by omega)
    omega
  have k2 : k < 24 * (s.year - 2000) + 43 := by
    by_contra h
    have := mono (24 * (s.year - 2000) + 43) k (by omega) (by omega) (by omega)
    omega
  have gp := term_days_gap hM (m := k) (by omega) (by omega)
  obtain ⟨-, v, u⟩ := Ephem.moment_spec (Ephem.full hM) (n := k) (by omega) (by omega)
  obtain ⟨-, v', u'⟩ := Ephem.moment_spec (Ephem.full hM) (n := k + 1) (by omega) (by omega)
  have eA : tDay hM k = JD.jdn (Ephem.moment (Ephem.full hM) k).date := rfl
  have eB : tDay hM (k + 1) = JD.jdn (Ephem.moment (Ephem.full hM) (k + 1)).date := rfl
  rw [JD.jdn_eq v.1] at eA
  rw [JD.jdn_eq v'.1] at eB
  have cp := Cal.clock_bounds v
  have cq := Cal.clock_bounds v'
  have cs := Cal.clock_bounds hs
  have sp : 86400 * tDay hM k ≤ Cal.secNo (Ephem.moment (Ephem.full hM) k) + 86400 * 1721057 ∧
      Cal.secNo (Ephem.moment (Ephem.full hM) k) + 86400 * 1721057 ≤ 86400 * tDay hM k + 86399 := by unfold Cal.secNo; omega
  have sq : 86400 * tDay hM (k + 1) ≤ Cal.secNo (Ephem.moment (Ephem.full hM) (k + 1)) + 86400 * 1721057 := by unfold Cal.secNo; omega
  generalize Cal.secNo (Ephem.moment (Ephem.full hM) k) = S at *
  generalize Cal.secNo (Ephem.moment (Ephem.full hM) (k + 1)) = S' at *
  generalize tDay hM k = A at *
  generalize tDay hM (k + 1) = B at *
  have u1 : |(S : ℝ) + 86400 * 1721057 - 86400 * ((termAt M k : ℝ) + 1 / 2 + 2451545)| ≤ 1 := by
    have := (Rat.cast_le (K := ℝ)).2 u
    push_cast at this
    exact this
  have u2 : |(S' : ℝ) + 86400 * 1721057 - 86400 * ((termAt M (k + 1) : ℝ) + 1 / 2 + 2451545)| ≤ 1 := by
    have := (Rat.cast_le (K := ℝ)).2 u'
    push_cast at this
    exact this
  have u1 := abs_le.1 u1
  have u2 := abs_le.1 u2
  have p1 : (86400 * A : ℝ) ≤ S + 86400 * 1721057 := by exact_mod_cast sp.1
  have p2 : (S : ℝ) + 86400 * 1721057 ≤ 86400 * A + 86399 := by exact_mod_cast sp.2
  have p3 : (86400 * B : ℝ) ≤ S' + 86400 * 1721057 := by exact_mod_cast sq
  have b1 : (n : ℝ) + 1 ≤ B := by exact_mod_cast t2
  have b2 : (A : ℝ) ≤ n := by exact_mod_cast t1
  have b3 : (B : ℝ) ≤ A + 17 := by exact_mod_cast gp.2
  obtain ⟨x, hx⟩ := SunDay.span hM (n := k) (by omega) (by omega)
  refine ⟨c, x, w, o, fun δ t hδ ht => ?_⟩
  obtain ⟨d, hd, ht⟩ := ht
  rw [isDay_iff hs.1, ← en] at hd
  subst hd
  have c1 : (0 : ℝ) ≤ s.hour * 3600 + s.minute * 60 + s.second := by exact_mod_cast (show (0 : ℤ) ≤ s.hour * 3600 + s.minute * 60 + s.second by omega)
  have c2 : (s.hour * 3600 + s.minute * 60 + s.second : ℝ) ≤ 86399 := by
    exact_mod_cast (show s.hour * 3600 + s.minute * 60 + s.second ≤ (86399 : ℤ) by omega)
  obtain ⟨τ, hτ⟩ : ∃ τ : ℝ, 36525 * t - δ + 1 / 3 = τ := ⟨_, rfl⟩
  rw [hτ] at ht
  have d1 : (termAt M k : ℝ) + (d - A) - 1 ≤ τ := by linarith
  have d2 : τ ≤ (termAt M k : ℝ) + (d - A) + 1 := by linarith
  have d3 : τ ≤ (termAt M (k + 1) : ℝ) + 1 / 86400 := by linarith
  have hx := hx δ t hδ
  rw [hτ] at hx
  obtain ⟨a, q1, q2, q3, q4⟩ := hx (by rw [abs_le]; constructor <;> linarith)
  have pi1 := Real.pi_gt_d4
  have pi2 := Real.pi_lt_d4
  refine ⟨a, ?_⟩
  have cases : d - A ≤ 4 ∧ c = 3 * (k - 21) ∨ (5 ≤ d - A ∧ d - A ≤ 9) ∧ c = 3 * (k - 21) + 1 ∨ 10 ≤ d - A ∧ c = 3 * (k - 21) + 2 := by omega
  rcases cases with ⟨f, rfl⟩ | ⟨⟨f, g⟩, rfl⟩ | ⟨f, rfl⟩
  · have f : (d : ℝ) - A ≤ 4 := by exact_mod_cast f
    have y1 := q1 1 (by norm_num) (by linarith)
    have y2 := q3 5 (by norm_num) (by linarith)
    push_cast
    exact ⟨by linarith, by linarith⟩
  · have f : (5 : ℝ) ≤ d - A := by exact_mod_cast f
    have g : (d : ℝ) - A ≤ 9 := by exact_mod_cast g
    have y1 := q2 4 (by norm_num) (by linarith)
    have y2 := q3 10 (by norm_num) (by linarith)
    push_cast
    exact ⟨by linarith, by linarith⟩
  · have f : (10 : ℝ) ≤ d - A := by exact_mod_cast f
    have y1 := q2 9 (by norm_num) (by linarith)
    have y2 := q4 d3
    push_cast
    exact ⟨by linarith, by linarith⟩

/-- noon of 1 July 2028 and the sun at it -/
example : ∃ l t, Lunar.fromSolar (astro Libm.cut) ⟨2028, 7, 1, 12, 0, 0⟩ = .ok l ∧ (∃ x : Fl Libm.cut, |(x.v : ℝ) - 36525 * t| ≤ 31 ∧
    Instant ⟨2028, 7, 1, 12, 0, 0⟩ (dtT x : Fl Libm.cut).v t) ∧
    ∃ c : ℤ, l.getWuHou = .ok (pentads72.getD (c % 72).toNat "").toList ∧ (c + 63) * (Real.pi / 36) - 0.0262 ≤ saLon t (-1) ∧
      saLon t (-1) ≤ (c + 64) * (Real.pi / 36) + 0.0044 := by
  obtain ⟨l, e, -⟩ := C84_round_trip Libm.cut_good ⟨2028, 7, 1, 12, 0, 0⟩ (by decide) (by decide) (by decide)
  obtain ⟨c, x, f, -, h⟩ := C122_pentad Libm.cut_good ⟨2028, 7, 1, 12, 0, 0⟩ (by decide) (by decide) (by decide) l e
  obtain ⟨t, ht⟩ : ∃ t, Instant ⟨2028, 7, 1, 12, 0, 0⟩ (dtT x : Fl Libm.cut).v t :=
    ⟨((86400 * ((JD.jdn ⟨2028, 7, 1⟩ : ℤ) - 2451545) + (12 : ℤ) * 3600 + (0 : ℤ) * 60 + (0 : ℤ) - 43200 : ℝ) / 86400 + (dtT x : Fl Libm.cut).v - 1 / 3) / 36525,
      JD.jdn ⟨2028, 7, 1⟩, (isDay_iff (by decide)).2 rfl, by push_cast; ring⟩
  obtain ⟨a, b⟩ := h _ t (by rw [sub_self, abs_zero]; norm_num) ht
  exact ⟨l, t, e, ⟨x, a, ht⟩, c, f, b⟩

end
