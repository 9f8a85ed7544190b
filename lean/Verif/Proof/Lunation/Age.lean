import Verif.Proof.Lunation.Year
import Verif.Proof.Lunation.Table
import Verif.Proof.Ephem.Made
import Verif.Spec.MoonAge

/-! # The age of the moon -/

open ShouXing Spec LunarYear Ephem

namespace Lunation
variable {M : Libm} (hM : M.Good)

theorem rate {t T a b : ℝ} (h1 : a ≤ 36525 * (t - T)) (h2 : 36525 * (t - T) ≤ b) (ha : |a| ≤ 40) (hb : |b| ≤ 40) :
    0.21277 * a - 0.0001 ≤ v0 * (t - T) ∧ v0 * (t - T) ≤ 0.21277 * b + 0.0001 := by
  have ha := abs_le.1 ha
  have hb := abs_le.1 hb
  unfold v0
  constructor <;> linarith

/-- the elongation some days after a time at which it is nearly `w` -/
theorem later {t T w a b : ℝ} (hT : |T| ≤ 30) (ht : |t| ≤ 30.1) (hG : |G T - w| ≤ 0.0055) (h1 : a ≤ 36525 * (t - T)) (h2 : 36525 * (t - T) ≤ b)
    (ha : |a| ≤ 40) (hb : |b| ≤ 40) : 0.21277 * a - 0.4138 ≤ elongation t - w ∧ elongation t - w ≤ 0.21277 * b + 0.4138 := by
  obtain ⟨r1, r2⟩ := rate h1 h2 ha hb
  have c1 := abs_le.1 (crude (by linarith) hG)
  have c2 := abs_le.1 (crude (s := t) (u := G t) ht (by rw [sub_self, abs_zero]; norm_num))
  have ha := abs_le.1 ha
  have hb := abs_le.1 hb
  have l : |t - T| ≤ 0.0011 := by rw [abs_le]; constructor <;> linarith
  have d := abs_le.1 (Dm_lip (t := T) (t' := t) (by linarith) ht)
  have f := abs_le.1 (msaLon60_near ht)
  unfold elongation
  constructor <;> linarith

include hM

/-- the time of new moon `k`, a bound for it -/
theorem moon_time {k : ℤ} (h0 : -490 ≤ k) (h1 : k ≤ 37000) : ∃ (T : ℝ) (x : Fl M), |T| ≤ 30 ∧
    |G T - k * (2 * Real.pi)| ≤ 0.0055002 ∧ |G T - ((shuoArg (int k) : Fl M).v : ℝ)| ≤ 0.0055 ∧ |(x.v : ℝ) - 36525 * T| ≤ 1 ∧
    (moonDay M k : ℝ) ≤ 36525 * T - (dtT x : Fl M).v + 5 / 6 + 1 / 10 ^ 6 ∧ 36525 * T - (dtT x : Fl M).v + 5 / 6 - 1 / 10 ^ 6 ≤ moonDay M k + 1 := by
  obtain ⟨T, x, t1, t2, g, x1, -, -, u⟩ := moon_form hM h0 (by omega)
  have a := abs_le.1 (arg_near (M := M) (k := k) (by rw [abs_le]; constructor <;> linarith))
  have k1 : (k : ℝ) ≤ 37000 := by exact_mod_cast h1
  have f1 := Int.floor_le (moonU M k)
  have f2 := Int.lt_floor_add_one (moonU M k)
  rw [← moonDay_eq] at f1 f2
  have f1 : ((moonDay M k : ℤ) : ℝ) ≤ ((moonU M k : ℚ) : ℝ) := by exact_mod_cast f1
  have f2 : ((moonU M k : ℚ) : ℝ) < ((moonDay M k : ℤ) : ℝ) + 1 := by exact_mod_cast f2
  have u := abs_le.1 u
  have tb : |T| ≤ 30.1 := by rw [abs_le]; constructor <;> linarith
  have c := abs_le.1 (crude tb g)
  have n := abs_le.1 (Dm_near tb)
  have tt := abs_le.1 (mul_le tb tb)
  have p := Real.pi_lt_d4
  have kp := mul_le_mul_of_nonneg_right k1 (by linarith [Real.pi_pos] : (0 : ℝ) ≤ 2 * Real.pi)
  have t2' : T ≤ 30 := by
    unfold v0 at n
    linarith
  have g' := abs_le.1 g
  refine ⟨T, x, by rw [abs_le]; constructor <;> linarith, by rw [abs_le]; constructor <;> linarith, g, x1, by linarith, by linarith⟩

/-- the elongation on a day of a month -/
theorem age {s : Solar} (hs : s.Valid) (h1 : 1961 ≤ s.year) (h2 : s.year ≤ 4980) {l : Lunar} (hl : Lunar.fromSolar (astro M) s = .ok l) :
    ∃ (k : ℤ) (x : Fl M), ∀ δ t : ℝ, |δ - (dtT x : Fl M).v| ≤ 0.01 → Instant s δ t → |(x.v : ℝ) - 36525 * t| ≤ 33 ∧
      0.21277 * (l.day - 2) - 0.42 ≤ elongation t - k * (2 * Real.pi) ∧ elongation t - k * (2 * Real.pi) ≤ 0.21277 * l.day + 0.42 := by
  obtain ⟨l', e, -, -, -, -, k, f4, f5, f6, f7⟩ := C38_round_trip (Ephem.almanac (Ephem.full hM)) s hs (by omega) (by omega)
  rw [hl] at e
  cases e
  obtain ⟨-, w1, w2⟩ := (Ephem.almanac (Ephem.full hM)).fromSolar_eq hs (by omega) (by omega) f7 (k := k) (by omega) (by omega)
  have B := (Ephem.full hM).toFacts
  have g1 : (Ephem.almanac (Ephem.full hM)).first = Ephem.first B := rfl
  have g2 : (Ephem.almanac (Ephem.full hM)).start = Ephem.start B := rfl
  rw [g1] at f6 f7
  rw [g2] at w1 w2
  obtain ⟨-, -, s1, s2, -⟩ := start_spec B (Y := s.year) (by omega) (by omega)
  have y1 : (1961 : ℚ) ≤ s.year := by exact_mod_cast h1
  have y2 : (s.year : ℚ) ≤ 4980 := by exact_mod_cast h2
  have a1 : ((-490 : ℤ) : ℚ) < (start B s.year : ℤ) := by push_cast; linarith
  have a2 : ((start B s.year : ℤ) : ℚ) < ((36980 : ℤ) : ℚ) := by push_cast; linarith
  have a1 := Int.cast_lt.1 a1
  have a2 := Int.cast_lt.1 a2
  have e1 := first_eq B (Y := s.year) (by omega) (by omega) (i := k - start B s.year) (by omega) (by omega)
  have e2 := first_eq B (Y := s.year) (by omega) (by omega) (i := k + 1 - start B s.year) (by omega) (by omega)
  rw [add_sub_cancel] at e1 e2
  have len := dayN_step hM (k := k) (by omega) (by omega)
  rw [isDay_iff hs.1] at f7
  rw [dayN_high hM (k := k) (by omega)] at e1 len
  have hd : JD.jdn s.date = moonDay M k + 2451545 + l.day - 1 := by
    rw [← f7, e1]; rfl
  have l2 : l.day ≤ 30 := by omega
  obtain ⟨T, x, T1, -, T2, x1, u1, u2⟩ := moon_time hM (k := k) (by omega) (by omega)
  have a := abs_le.1 (arg_near (M := M) (k := k) (by rw [abs_le]; constructor <;> linarith))
  refine ⟨k, x, fun δ t hδ ⟨d, i1, i2⟩ => ?_⟩
  rw [isDay_iff hs.1, hd] at i1
  have i1 : (d : ℝ) = moonDay M k + 2451545 + l.day - 1 := by exact_mod_cast i1
  have c := hs.2
  unfold ClockOk at c
  have c1 : (0 : ℤ) ≤ s.hour * 3600 + s.minute * 60 + s.second := by omega
  have c2 : s.hour * 3600 + s.minute * 60 + s.second ≤ 86400 := by omega
  have c1 : (0 : ℝ) ≤ s.hour * 3600 + s.minute * 60 + s.second := by exact_mod_cast c1
  have c2 : (s.hour * 3600 + s.minute * 60 + s.second : ℝ) ≤ 86400 := by exact_mod_cast c2
  have d1 : (1 : ℝ) ≤ l.day := by exact_mod_cast f5
  have d2 : (l.day : ℝ) ≤ 30 := by exact_mod_cast l2
  have hδ := abs_le.1 hδ
  have b1 : (l.day : ℝ) - 2.0101 ≤ 36525 * (t - T) := by linarith
  have b2 : 36525 * (t - T) ≤ (l.day : ℝ) + 0.0101 := by linarith
  have T1' := abs_le.1 T1
  have x1 := abs_le.1 x1
  obtain ⟨r1, r2⟩ := later T1 (by rw [abs_le]; constructor <;> linarith) T2 b1 b2 (by rw [abs_le]; constructor <;> linarith) (by rw [abs_le]; constructor <;> linarith)
  refine ⟨by rw [abs_le]; constructor <;> linarith, by linarith, by linarith⟩

end Lunation
