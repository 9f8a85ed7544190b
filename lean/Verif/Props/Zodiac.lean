import Verif.Proof.SunDay.Between
import Verif.Props.SolarText
import Verif.Props.TermDates
import Verif.Spec.MoonAge
import Verif.Spec.Zodiac

/-! # C121: the sign of the zodiac is where the sun stands

`getXingZuo` looks at month and day only, with fixed days; the sun enters the signs on days that change from year to year. -/

section
open Spec ShouXing

variable {M : Libm}

/-- the sign of a day is that of the month's principal term, from its fixed day on, else the one before -/
private theorem sign_num (a m d : ℤ) (m1 : 1 ≤ m) (m2 : m ≤ 12) :
    signOn m d = zodiac (12 * a + m + 9 + if (sign.getD (m - 1).toNat (0, [])).1 ≤ d then 0 else -1) := by
  have key : ∀ k : Fin 12, (sign.getD k (0, [])).2 = zodiac ((k : ℕ) + 10) ∧ (sign.getD (((k : ℕ) + 11) % 12) (0, [])).2 = zodiac ((k : ℕ) + 9) := by decide
  obtain ⟨k1, k2⟩ := key ⟨(m - 1).toNat, by omega⟩
  simp only at k1 k2
  have per : ∀ b : ℤ, zodiac (12 * a + b) = zodiac b := by
    intro b
    unfold zodiac
    rw [show (12 * a + b) % 12 = b % 12 by omega]
  unfold signOn
  simp only
  split_ifs with h
  · rw [k1, show (12 * a + m + 9 + 0 : ℤ) = 12 * a + (m + 9) by ring, per, show ((m - 1).toNat : ℤ) + 10 = m + 9 by omega]
  · rw [show ((m + 10) % 12).toNat = ((m - 1).toNat + 11) % 12 by omega, k2, show (12 * a + m + 9 + -1 : ℤ) = 12 * a + (m + 8) by ring, per,
      show ((m - 1).toNat : ℤ) + 9 = m + 8 by omega]

/-- the fixed days and the days of the terms -/
private theorem days_usual : ∀ k : Fin 12, ∀ d : ℕ × ℕ, usualDays[2 * (k : ℕ) + 1]? = some d →
    (sign.getD k (0, [])).1 - d.2 ≥ -1 ∧ (sign.getD k (0, [])).1 - 1 - d.1 ≤ 1 ∧ 18 ≤ d.1 ∧ d.2 ≤ 24 := by
  intro k d h
  fin_cases k <;> (cases h; decide)

private theorem days_rare : ∀ k : Fin 12, ∀ d : ℕ × ℕ, rareDays[2 * (k : ℕ) + 1]? = some d →
    (sign.getD k (0, [])).1 - d.2 ≥ -2 ∧ (sign.getD k (0, [])).1 - 1 - d.1 ≤ 1 ∧ 18 ≤ d.1 ∧ d.2 ≤ 25 := by
  intro k d h
  fin_cases k <;> (cases h; decide)

private theorem day_diff {s p : Solar} (h1 : 1583 ≤ s.year) (hy : p.year = s.year) (hm : p.month = s.month) :
    Cal.dn s.date - Cal.dn p.date = s.day - p.day := by
  unfold Cal.dn Cal.dayNo Cal.ord Solar.date
  simp only
  rw [if_neg (by omega), if_neg (by omega), hy, hm]
  ring

private theorem core (hM : M.Good) {s p : Solar} (hs : s.Valid) (h1 : 1585 ≤ s.year) (h2 : s.year ≤ 2731) (n : ℤ)
    (hn : n = 24 * (s.year - 2000) + 2 * s.month + 18) (hp : p = Ephem.moment (Ephem.full hM) n) (py : p.year = s.year) (pm : p.month = s.month)
    (g : ℤ) (g0 : 0 ≤ g) (g2 : g ≤ 2) (d0 : ℤ) (c1 : d0 - p.day ≥ -g) (c2 : d0 - 1 - p.day ≤ 1) (c3 : 18 ≤ p.day) (c4 : p.day ≤ 25) :
    ∃ x : Fl M, ∀ δ t : ℝ, |δ - (dtT x : Fl M).v| ≤ 0.01 → Instant s δ t → |(x.v : ℝ) - 36525 * t| ≤ 31 ∧
      (d0 ≤ s.day → n * Real.pi / 12 - 0.017851 * (g + 1.0103) ≤ saLon t (-1) ∧ saLon t (-1) ≤ n * Real.pi / 12 + Real.pi / 6) ∧
      (s.day < d0 → n * Real.pi / 12 - Real.pi / 6 ≤ saLon t (-1) ∧ saLon t (-1) ≤ n * Real.pi / 12 + 0.036) := by
  have fb := Str.valid_field_bounds hs
  have f3 := fb.2.2.1
  have f4 := fb.2.2.2
  have m1 := fb.1
  have m2 := fb.2.1
  obtain ⟨-, v, e⟩ := Ephem.moment_spec (Ephem.full hM) (n := n) (by omega) (by omega)
  rw [← hp] at v e
  have e : |(Cal.secNo p : ℝ) + 86400 * 1721057 - 86400 * ((termAt M n : ℝ) + 1 / 2 + 2451545)| ≤ 1 := by
    have := (Rat.cast_le (K := ℝ)).2 e
    push_cast at this
    exact this
  have e := abs_le.1 e
  have k1 := Cal.clock_bounds hs
  have k2 := Cal.clock_bounds v
  have dd := day_diff (by omega) py pm
  have lo : -86400 * (p.day - s.day + 1) ≤ Cal.secNo s - Cal.secNo p := by unfold Cal.secNo; omega
  have hi : Cal.secNo s - Cal.secNo p ≤ 86400 * (s.day - p.day + 1) := by unfold Cal.secNo; omega
  obtain ⟨x, k⟩ := SunDay.around hM (n := n) (by omega) (by omega)
  have p1 := Real.pi_gt_d4
  refine ⟨x, fun δ t hδ ht => ?_⟩
  obtain ⟨d, hd, ht⟩ := ht
  rw [isDay_iff hs.1] at hd
  have es : Cal.secNo s + 86400 * 1721057 = 86400 * d + s.hour * 3600 + s.minute * 60 + s.second := by
    rw [hd, JD.jdn_eq hs.1]
    unfold Cal.secNo
    ring
  have es : (Cal.secNo s : ℝ) + 86400 * 1721057 = 86400 * d + s.hour * 3600 + s.minute * 60 + s.second := by exact_mod_cast es
  have use : ∀ a b : ℤ, 0 ≤ a → a ≤ 29 → 0 ≤ b → b ≤ 29 → -86400 * a ≤ Cal.secNo s - Cal.secNo p → Cal.secNo s - Cal.secNo p ≤ 86400 * b →
      |(x.v : ℝ) - 36525 * t| ≤ 31 ∧ n * Real.pi / 12 - 0.017851 * (a + 0.0103) ≤ saLon t (-1) ∧
        saLon t (-1) ≤ n * Real.pi / 12 + 0.017851 * (b + 0.0103) := by
    intro a b a0 a1 b0 b1 ha hb
    have ha : -86400 * (a : ℝ) ≤ Cal.secNo s - Cal.secNo p := by exact_mod_cast ha
    have hb : (Cal.secNo s : ℝ) - Cal.secNo p ≤ 86400 * b := by exact_mod_cast hb
    have a0 : (0 : ℝ) ≤ a := by exact_mod_cast a0
    have a1 : (a : ℝ) ≤ 29 := by exact_mod_cast a1
    have b0 : (0 : ℝ) ≤ b := by exact_mod_cast b0
    have b1 : (b : ℝ) ≤ 29 := by exact_mod_cast b1
    obtain ⟨r1, r2, r3⟩ := k δ t (a + 1 / 86400) (b + 1 / 86400) hδ (by linarith) (by linarith) (by linarith) (by linarith) (by linarith) (by linarith)
    exact ⟨r1, by linarith, by linarith⟩
  by_cases hc : d0 ≤ s.day
  · obtain ⟨r1, r2, r3⟩ := use (g + 1) 14 (by omega) (by omega) (by omega) (by omega) (by omega) (by omega)
    push_cast at r2 r3
    exact ⟨r1, fun _ => ⟨by linarith, by linarith⟩, fun h => by omega⟩
  · obtain ⟨r1, r2, r3⟩ := use 25 2 (by omega) (by omega) (by omega) (by omega) (by omega) (by omega)
    push_cast at r2 r3
    exact ⟨r1, fun h => absurd h hc, fun h => ⟨by linarith, by linarith⟩⟩

private theorem both (hM : M.Good) {s : Solar} (hs : s.Valid) (h1 : 1585 ≤ s.year) (h2 : s.year ≤ 2731) (g : ℤ)
    (hg : g = 1 ∧ 1961 ≤ s.year ∧ s.year ≤ 2099 ∨ g = 2) :
    ∃ (k : ℤ) (x : Fl M), s.getXingZuo = .ok (zodiac k) ∧ ∀ δ t : ℝ, |δ - (dtT x : Fl M).v| ≤ 0.01 → Instant s δ t → |(x.v : ℝ) - 36525 * t| ≤ 31 ∧
      k * (Real.pi / 6) - 0.017851 * (g + 1.0103) ≤ saLon t (-1) ∧ saLon t (-1) ≤ (k + 1) * (Real.pi / 6) + 0.036 := by
  have fb := Str.valid_field_bounds hs
  have m1 := fb.1
  have m2 := fb.2.1
  obtain ⟨l, hl, -⟩ := C84_round_trip hM s hs (by omega) (by omega)
  obtain ⟨-, -, -, -, tab⟩ := Ephem.made hM hs (by omega) (by omega) hl
  obtain ⟨i, hi⟩ : ∃ i : ℕ, (i : ℤ) = s.month - 1 := ⟨(s.month - 1).toNat, by omega⟩
  have t := tab (2 * i + 3) (by omega)
  obtain ⟨p, hp⟩ : ∃ p, p = Ephem.moment (Ephem.full hM) (24 * (s.year - 2000) + 17 + ((2 * i + 3 : ℕ) : ℤ)) := ⟨_, rfl⟩
  rw [← hp] at t
  obtain ⟨py, pm, -, dr, du⟩ := C91_dates hM s hs (by omega) (by omega) l hl (2 * i + 3) (by omega) (by omega) p t
  have pm : p.month = s.month := by omega
  rw [show 2 * i + 3 - 2 = 2 * i + 1 by omega] at dr du
  have hsgn := sign_num (s.year - 2000) s.month s.day m1 m2
  rw [show (s.month - 1).toNat = i by omega] at hsgn
  obtain ⟨d0, hd0⟩ : ∃ d0, d0 = (sign.getD i (0, [])).1 := ⟨_, rfl⟩
  rw [← hd0] at hsgn
  have cs : d0 - p.day ≥ -g ∧ d0 - 1 - p.day ≤ 1 ∧ 18 ≤ p.day ∧ p.day ≤ 25 := by
    rcases hg with ⟨rfl, h, h'⟩ | rfl
    · obtain ⟨d, e, a, b⟩ := du h h'
      have := days_usual ⟨i, by omega⟩ d e
      simp only at this
      rw [← hd0] at this
      omega
    · obtain ⟨d, e, a, b⟩ := dr h2
      have := days_rare ⟨i, by omega⟩ d e
      simp only at this
      rw [← hd0] at this
      omega
  clear dr du
  have gb : 1 ≤ g ∧ g ≤ 2 := by omega
  obtain ⟨x, h⟩ := core hM hs h1 h2 (24 * (s.year - 2000) + 2 * s.month + 18) rfl (p := p) (by rw [hp]; congr 1; push_cast; omega) py pm g
    (by omega) (by omega) d0 cs.1 cs.2.1 cs.2.2.1 cs.2.2.2
  refine ⟨_, x, (xingZuo_eq s hs).trans (congrArg _ hsgn), fun δ t hδ ht => ?_⟩
  obtain ⟨r1, r2, r3⟩ := h δ t hδ ht
  have g0 : (1 : ℝ) ≤ g := by exact_mod_cast (show (1 : ℤ) ≤ g by omega)
  refine ⟨r1, ?_⟩
  by_cases c : d0 ≤ s.day
  · obtain ⟨a, b⟩ := r2 c
    rw [if_pos c]
    push_cast at a b ⊢
    exact ⟨by linarith, by linarith⟩
  · obtain ⟨a, b⟩ := r3 (by omega)
    rw [if_neg c]
    push_cast at a b ⊢
    exact ⟨by linarith, by linarith⟩

/-- **C121** from 1961 to 2099 the sun is in the sign `getXingZuo` names, or within 0.036 rad (2.07°, two days) of it.  The longitude is counted on from year
to year; `x` is, to 31 days, the instant in days, and `δ` may be any difference of dynamical and universal time within 14 minutes of `dtT x` -/
theorem C121_sign (hM : M.Good) (s : Solar) (hs : s.Valid) (h1 : 1961 ≤ s.year) (h2 : s.year ≤ 2099) :
    ∃ (k : ℤ) (x : Fl M), s.getXingZuo = .ok (zodiac k) ∧ ∀ δ t : ℝ, |δ - (dtT x : Fl M).v| ≤ 0.01 → Instant s δ t → |(x.v : ℝ) - 36525 * t| ≤ 31 ∧
      k * (Real.pi / 6) - 0.036 ≤ saLon t (-1) ∧ saLon t (-1) ≤ (k + 1) * (Real.pi / 6) + 0.036 := by
  obtain ⟨k, x, e, h⟩ := both hM hs (by omega) (by omega) 1 (.inl ⟨rfl, h1, h2⟩)
  refine ⟨k, x, e, fun δ t hδ ht => ?_⟩
  obtain ⟨a, b, c⟩ := h δ t hδ ht
  push_cast at b
  exact ⟨a, by linarith, c⟩

/-- **C121** from 1585 to 2731, within 3.09° (three days) before it and 2.07° after it -/
theorem C121_sign_far (hM : M.Good) (s : Solar) (hs : s.Valid) (h1 : 1585 ≤ s.year) (h2 : s.year ≤ 2731) :
    ∃ (k : ℤ) (x : Fl M), s.getXingZuo = .ok (zodiac k) ∧ ∀ δ t : ℝ, |δ - (dtT x : Fl M).v| ≤ 0.01 → Instant s δ t → |(x.v : ℝ) - 36525 * t| ≤ 31 ∧
      k * (Real.pi / 6) - 0.0538 ≤ saLon t (-1) ∧ saLon t (-1) ≤ (k + 1) * (Real.pi / 6) + 0.036 := by
  obtain ⟨k, x, e, h⟩ := both hM hs h1 h2 2 (.inr rfl)
  refine ⟨k, x, e, fun δ t hδ ht => ?_⟩
  obtain ⟨a, b, c⟩ := h δ t hδ ht
  push_cast at b
  exact ⟨a, by linarith, c⟩

/-- **C121** so from 1961 to 2099 `getXingZuo` is the sign the sun is in, unless it is within 2.07° of its borders -/
theorem C121_sign_of_sun (hM : M.Good) (s : Solar) (hs : s.Valid) (h1 : 1961 ≤ s.year) (h2 : s.year ≤ 2099) :
    ∃ x : Fl M, ∀ δ t : ℝ, |δ - (dtT x : Fl M).v| ≤ 0.01 → Instant s δ t → |(x.v : ℝ) - 36525 * t| ≤ 31 ∧
      ∀ k : ℤ, k * (Real.pi / 6) + 0.036 < saLon t (-1) → saLon t (-1) < (k + 1) * (Real.pi / 6) - 0.036 → s.getXingZuo = .ok (zodiac k) := by
  obtain ⟨n, x, e, h⟩ := C121_sign hM s hs h1 h2
  refine ⟨x, fun δ t hδ ht => ?_⟩
  obtain ⟨a, b, c⟩ := h δ t hδ ht
  refine ⟨a, fun k b' c' => ?_⟩
  have p := Real.pi_pos
  have u1 : (k : ℝ) * (Real.pi / 6) < (n + 1) * (Real.pi / 6) := by linarith
  have u2 : (n : ℝ) * (Real.pi / 6) < (k + 1) * (Real.pi / 6) := by linarith
  have u1 := lt_of_mul_lt_mul_right u1 (by positivity)
  have u2 := lt_of_mul_lt_mul_right u2 (by positivity)
  have w1 : (k : ℝ) < ((n + 1 : ℤ) : ℝ) := by push_cast; linarith
  have w2 : (n : ℝ) < ((k + 1 : ℤ) : ℝ) := by push_cast; linarith
  have w1 := Int.cast_lt.1 w1
  have w2 := Int.cast_lt.1 w2
  obtain rfl : k = n := by omega
  exact e

/-- noon of 1 July 2028: 巨蟹, sign 3 of the 28th round -/
example : ∃ t, (∃ x : Fl Libm.cut, |(x.v : ℝ) - 36525 * t| ≤ 31 ∧ Instant ⟨2028, 7, 1, 12, 0, 0⟩ (dtT x : Fl Libm.cut).v t) ∧
    ∃ k : ℤ, zodiac k = ['巨', '蟹'] ∧ k * (Real.pi / 6) - 0.036 ≤ saLon t (-1) ∧ saLon t (-1) ≤ (k + 1) * (Real.pi / 6) + 0.036 := by
  obtain ⟨k, x, f, h⟩ := C121_sign Libm.cut_good ⟨2028, 7, 1, 12, 0, 0⟩ (by decide) (by decide) (by decide)
  obtain ⟨t, ht⟩ : ∃ t, Instant ⟨2028, 7, 1, 12, 0, 0⟩ (dtT x : Fl Libm.cut).v t :=
    ⟨((86400 * ((JD.jdn ⟨2028, 7, 1⟩ : ℤ) - 2451545) + (12 : ℤ) * 3600 + (0 : ℤ) * 60 + (0 : ℤ) - 43200 : ℝ) / 86400 + (dtT x : Fl Libm.cut).v - 1 / 3) / 36525,
      JD.jdn ⟨2028, 7, 1⟩, (isDay_iff (by decide)).2 rfl, by push_cast; ring⟩
  obtain ⟨a, b⟩ := h _ t (by rw [sub_self, abs_zero]; norm_num) ht
  refine ⟨t, ⟨x, a, ht⟩, k, ?_, b⟩
  have e : (⟨2028, 7, 1, 12, 0, 0⟩ : Solar).getXingZuo = .ok ['巨', '蟹'] := by decide +kernel
  rw [e] at f
  exact (Except.ok.inj f).symm

end
