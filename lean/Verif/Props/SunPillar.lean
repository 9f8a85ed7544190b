import Verif.Proof.SunDay.Between
import Verif.Props.Everyday
import Verif.Spec.MoonAge
import Verif.Props.Library

/-! # C120: the year pillar, the month pillar and the term of a moment tell where the sun stands

C34, C35 and C45 say what these are by the table of solar terms.  Here, for the table the library computes, they are read off the sun: its
longitude, by the whole series, at the moment itself. -/

section
open Spec ShouXing Solar

variable {M : Libm}

/-- **C120** between entries `i` and `j` of the table of a moment the longitude of the sun is between their places, to 0.00025 rad (less than a
minute of arc).  `x` is, to 380 days, the instant in days, and `δ` may be any difference of dynamical and universal time within 14 minutes of `dtT x` -/
theorem C120_between (hM : M.Good) (s : Solar) (hs : s.Valid) (h1 : 1585 ≤ s.year) (h2 : s.year ≤ 2997) (l : Lunar)
    (hl : Lunar.fromSolar (astro M) s = .ok l) (i j : ℕ) (hij : i < j) (hj : j ≤ i + 24) (p q : Solar) (hp : l.jieQi[i]? = some p)
    (hq : l.jieQi[j]? = some q) (hps : AtOrBefore p s) (hsq : Before s q) :
    ∃ x : Fl M, ∀ δ t : ℝ, |δ - (dtT x : Fl M).v| ≤ 0.01 → Instant s δ t → |(x.v : ℝ) - 36525 * t| ≤ 380 ∧
      (24 * (s.year - 2000) + 17 + i) * (Real.pi / 12) - 0.00025 ≤ saLon t (-1) ∧
      saLon t (-1) ≤ (24 * (s.year - 2000) + 17 + j) * (Real.pi / 12) + 0.00025 := by
  obtain ⟨-, P, -, -, tab⟩ := Ephem.made hM hs (by omega) (by omega) hl
  have j31 : j < 31 := by
    have := (List.getElem?_eq_some_iff.1 hq).1
    rw [P.table.len] at this
    exact this
  rw [tab _ (by omega)] at hp
  rw [tab _ j31] at hq
  have hp := Option.some.inj hp
  have hq := Option.some.inj hq
  obtain ⟨n, hn⟩ : ∃ n : ℤ, n = 24 * (s.year - 2000) + 17 + i := ⟨_, rfl⟩
  obtain ⟨n', hn'⟩ : ∃ n : ℤ, n = 24 * (s.year - 2000) + 17 + j := ⟨_, rfl⟩
  rw [← hn] at hp
  rw [← hn'] at hq
  obtain ⟨-, v, e⟩ := Ephem.moment_spec (Ephem.full hM) (n := n) (by omega) (by omega)
  obtain ⟨-, v', e'⟩ := Ephem.moment_spec (Ephem.full hM) (n := n') (by omega) (by omega)
  rw [hp] at v e
  rw [hq] at v' e'
  rw [atOrBefore_iff v hs] at hps
  rw [before_iff hs v'] at hsq
  obtain ⟨x, k⟩ := SunDay.between hM (n := n) (n' := n') (by omega) (by omega) (by omega) (by omega)
  refine ⟨x, fun δ t hδ ht => ?_⟩
  obtain ⟨d, hd, ht⟩ := ht
  rw [isDay_iff hs.1] at hd
  have es : Cal.secNo s + 86400 * 1721057 = 86400 * d + s.hour * 3600 + s.minute * 60 + s.second := by
    rw [hd, JD.jdn_eq hs.1]
    unfold Cal.secNo
    ring
  have es : (Cal.secNo s : ℝ) + 86400 * 1721057 = 86400 * d + s.hour * 3600 + s.minute * 60 + s.second := by exact_mod_cast es
  have e1 : |(Cal.secNo p : ℝ) + 86400 * 1721057 - 86400 * ((termAt M n : ℝ) + 1 / 2 + 2451545)| ≤ 1 := by
    have := (Rat.cast_le (K := ℝ)).2 e
    push_cast at this
    exact this
  have e2 : |(Cal.secNo q : ℝ) + 86400 * 1721057 - 86400 * ((termAt M n' : ℝ) + 1 / 2 + 2451545)| ≤ 1 := by
    have := (Rat.cast_le (K := ℝ)).2 e'
    push_cast at this
    exact this
  have e1 := abs_le.1 e1
  have e2 := abs_le.1 e2
  have o1 : (Cal.secNo p : ℝ) ≤ Cal.secNo s := by exact_mod_cast hps
  have o2 : (Cal.secNo s : ℝ) < Cal.secNo q := by exact_mod_cast hsq
  obtain ⟨a, b, c⟩ := k δ t hδ (by linarith) (by linarith)
  have c1 : (24 * (s.year - 2000) + 17 + i : ℝ) = n := by rw [hn]; push_cast; ring
  have c2 : (24 * (s.year - 2000) + 17 + j : ℝ) = n' := by rw [hn']; push_cast; ring
  rw [c1, c2]
  exact ⟨a, by linarith, by linarith⟩

/-- a moment is at or after the first entry of its table and before entry 28 -/
private theorem ends (hM : M.Good) {s : Solar} (hs : s.Valid) (h1 : 1585 ≤ s.year) (h2 : s.year ≤ 2997) {l : Lunar}
    (hl : Lunar.fromSolar (astro M) s = .ok l) (p q : Solar) (hp : l.jieQi[0]? = some p) (hq : l.jieQi[28]? = some q) : AtOrBefore p s ∧ Before s q := by
  obtain ⟨-, P, -, -, tab⟩ := Ephem.made hM hs (by omega) (by omega) hl
  have vp := P.table.valid _ (List.mem_of_getElem? hp)
  have vq := P.table.valid _ (List.mem_of_getElem? hq)
  rw [tab _ (by norm_num)] at hp hq
  have hp := Option.some.inj hp
  have hq := Option.some.inj hq
  have a := Ephem.moment_le (Ephem.full hM) (n := 24 * (s.year - 2000) + 17 + (0 : ℕ)) (y := s.year - 1) (by omega) (by omega) (by omega) (by omega) (by
    push_cast
    linarith)
  have b := Ephem.moment_ge (Ephem.full hM) (n := 24 * (s.year - 2000) + 17 + (28 : ℕ)) (y := s.year + 1) (by omega) (by omega) (by omega) (by omega) (by
    push_cast
    linarith)
  rw [hp] at a
  rw [hq] at b
  rw [atOrBefore_iff vp hs, before_iff hs vq]
  constructor
  · by_contra h
    have := BaZi.secNo_year hs vp (by omega)
    omega
  · by_contra h
    have := BaZi.secNo_year vq hs (by omega)
    omega

/-- **C120** the term before a moment and the one after it (`getPrevJieQi`, `getNextJieQi`) are neighbours, and the sun is between their places: entry 1 is
冬至 (270°), entry 4 立春 (315°), entry 7 春分 (0°) -/
theorem C120_term (hM : M.Good) (s : Solar) (hs : s.Valid) (h1 : 1585 ≤ s.year) (h2 : s.year ≤ 2997) (l : Lunar)
    (hl : Lunar.fromSolar (astro M) s = .ok l) :
    ∃ (i : ℕ) (p q : Solar) (x : Fl M), l.getPrevJieQi = .ok (some ⟨termName i, i % 2 = 0, i % 2 = 1, p⟩) ∧
      l.getNextJieQi = .ok (some ⟨termName (i + 1), (i + 1) % 2 = 0, (i + 1) % 2 = 1, q⟩) ∧
      ∀ δ t : ℝ, |δ - (dtT x : Fl M).v| ≤ 0.01 → Instant s δ t → |(x.v : ℝ) - 36525 * t| ≤ 380 ∧
        (24 * (s.year - 2000) + 17 + i) * (Real.pi / 12) - 0.00025 ≤ saLon t (-1) ∧
        saLon t (-1) ≤ (24 * (s.year - 2000) + 17 + (i + 1)) * (Real.pi / 12) + 0.00025 := by
  obtain ⟨-, P, -, -, tab⟩ := Ephem.made hM hs (by omega) (by omega) hl
  obtain ⟨⟨j, q, -, j1, j2, j3, j4⟩, i, p, -, i1, i2, i3, i4⟩ := C88_terms hM s hs (by omega) (by omega) l hl .all
  have vp := P.table.valid _ (List.mem_of_getElem? i1)
  have vq := P.table.valid _ (List.mem_of_getElem? j1)
  have o1 := (atOrBefore_iff vp hs).1 i2
  have o2 := (before_iff hs vq).1 j2
  have lt : i < j := by
    by_contra h
    have := (Lunar.table_le P.table (not_lt.1 h) j1 i1).1
    omega
  have e : j = i + 1 := by
    by_contra h
    have j31 : j < 31 := by
      have := (List.getElem?_eq_some_iff.1 j1).1
      rw [P.table.len] at this
      exact this
    have t := tab (i + 1) (by omega)
    obtain ⟨u, hu⟩ : ∃ u, l.jieQi[i + 1]? = some u := ⟨_, t⟩
    have vu := P.table.valid _ (List.mem_of_getElem? hu)
    by_cases c : AtOrBefore u s
    · have := i3 _ u trivial hu c
      omega
    · rw [atOrBefore_iff vu hs] at c
      have := j3 _ u trivial hu ((before_iff hs vu).2 (by omega))
      omega
  subst e
  obtain ⟨x, hx⟩ := C120_between hM s hs h1 h2 l hl i (i + 1) (by omega) (by omega) p q i1 j1 i2 j2
  refine ⟨i, p, q, x, i4, j4, fun δ t hδ ht => ?_⟩
  obtain ⟨a, b, c⟩ := hx δ t hδ ht
  push_cast at c
  exact ⟨a, b, c⟩

/-- the month pillar of C120, its number and the year -/
theorem month_num (hM : M.Good) (s : Solar) (hs : s.Valid) (h1 : 1585 ≤ s.year) (h2 : s.year ≤ 2997) (l : Lunar)
    (hl : Lunar.fromSolar (astro M) s = .ok l) :
    ∃ (m : ℤ) (x : Fl M), (12 * (s.year - 4) ≤ m ∧ m ≤ 12 * (s.year - 4) + 13) ∧ l.getMonthInGanZhiExact = .ok (ganZhi m) ∧
      ∀ δ t : ℝ, |δ - (dtT x : Fl M).v| ≤ 0.01 → Instant s δ t → |(x.v : ℝ) - 36525 * t| ≤ 380 ∧
        (2 * m - 47887) * (Real.pi / 12) - 0.00025 ≤ saLon t (-1) ∧ saLon t (-1) ≤ (2 * m - 47885) * (Real.pi / 12) + 0.00025 := by
  obtain ⟨f1, P, -, -, tab⟩ := Ephem.made hM hs (by omega) (by omega) hl
  obtain ⟨⟨k, k1, k2, k3⟩, -⟩ := C35_count_exists s hs _ _ P.table
  obtain ⟨e1, e2⟩ := ends hM hs h1 h2 hl _ _ (tab 0 (by norm_num)) (tab 28 (by norm_num))
  have v0 := P.table.valid _ (List.mem_of_getElem? (tab 0 (by norm_num)))
  have v28 := P.table.valid _ (List.mem_of_getElem? (tab 28 (by norm_num)))
  rw [atOrBefore_iff v0 hs] at e1
  rw [before_iff hs v28] at e2
  have k0 : 0 < k := by
    by_contra h
    obtain rfl : k = 0 := by omega
    have := (before_iff hs v0).1 (k3 _ (tab 0 (by norm_num)))
    omega
  have k15 : k ≤ 14 := by
    by_contra h
    have := (atOrBefore_iff v28 hs).1 (k2 14 (by omega) _ (tab 28 (by norm_num)))
    omega
  have t1 := tab (2 * (k - 1)) (by omega)
  have t2 := tab (2 * k) (by omega)
  obtain ⟨x, hx⟩ := C120_between hM s hs h1 h2 l hl (2 * (k - 1)) (2 * k) (by omega) (by omega) _ _ t1 t2 (k2 _ (by omega) _ t1) (k3 _ t2)
  refine ⟨12 * (s.year - 4) + k - 1, x, by omega, ?_, fun δ t hδ ht => ?_⟩
  · have := C35_month_pillar_exact l P.made P.range P.table P.near k k1 (by rw [f1]; exact k2) (by rw [f1]; exact k3)
    rw [f1] at this
    exact this
  · obtain ⟨a, b, c⟩ := hx δ t hδ ht
    have ek : ((2 * (k - 1) : ℕ) : ℝ) = 2 * k - 2 := by
      have : 2 * (k - 1) + 2 = 2 * k := by omega
      have : ((2 * (k - 1) + 2 : ℕ) : ℝ) = ((2 * k : ℕ) : ℝ) := by rw [this]
      push_cast at this ⊢
      linarith
    rw [ek] at b
    push_cast at c ⊢
    refine ⟨a, ?_, ?_⟩
    · rw [show (2 * (12 * ((s.year : ℝ) - 4) + k - 1) - 47887) = 24 * (s.year - 2000) + 17 + (2 * k - 2) by ring]
      exact b
    · rw [show (2 * (12 * ((s.year : ℝ) - 4) + k - 1) - 47885) = 24 * (s.year - 2000) + 17 + 2 * k by ring]
      exact c

/-- **C120** the month pillar by the moment: pillar number `m` (0 is 甲子 of the year 4) as long as the longitude of the sun is from `2 m - 47887` to
`2 m - 47885` times 15°, so 寅 from 315° to 345° -/
theorem C120_month (hM : M.Good) (s : Solar) (hs : s.Valid) (h1 : 1585 ≤ s.year) (h2 : s.year ≤ 2997) (l : Lunar)
    (hl : Lunar.fromSolar (astro M) s = .ok l) :
    ∃ (m : ℤ) (x : Fl M), l.getMonthInGanZhiExact = .ok (ganZhi m) ∧
      ∀ δ t : ℝ, |δ - (dtT x : Fl M).v| ≤ 0.01 → Instant s δ t → |(x.v : ℝ) - 36525 * t| ≤ 380 ∧
        (2 * m - 47887) * (Real.pi / 12) - 0.00025 ≤ saLon t (-1) ∧ saLon t (-1) ≤ (2 * m - 47885) * (Real.pi / 12) + 0.00025 := by
  obtain ⟨m, x, -, h⟩ := month_num hM s hs h1 h2 l hl
  exact ⟨m, x, h⟩

/-- **C120** so the longitude of the sun gives the month pillar, except within a minute of arc of a Jie -/
theorem C120_month_of_sun (hM : M.Good) (s : Solar) (hs : s.Valid) (h1 : 1585 ≤ s.year) (h2 : s.year ≤ 2997) (l : Lunar)
    (hl : Lunar.fromSolar (astro M) s = .ok l) :
    ∃ x : Fl M, ∀ δ t : ℝ, |δ - (dtT x : Fl M).v| ≤ 0.01 → Instant s δ t → |(x.v : ℝ) - 36525 * t| ≤ 380 ∧
      ∀ m : ℤ, (2 * m - 47887) * (Real.pi / 12) + 0.00025 < saLon t (-1) → saLon t (-1) < (2 * m - 47885) * (Real.pi / 12) - 0.00025 →
        l.getMonthInGanZhiExact = .ok (ganZhi m) := by
  obtain ⟨n, x, e, h⟩ := C120_month hM s hs h1 h2 l hl
  refine ⟨x, fun δ t hδ ht => ?_⟩
  obtain ⟨a, b, c⟩ := h δ t hδ ht
  refine ⟨a, fun m b' c' => ?_⟩
  have p := Real.pi_pos
  have u1 : (2 * (m : ℝ) - 47887) * (Real.pi / 12) < (2 * n - 47885) * (Real.pi / 12) := by linarith
  have u2 : (2 * (n : ℝ) - 47887) * (Real.pi / 12) < (2 * m - 47885) * (Real.pi / 12) := by linarith
  have u1 := lt_of_mul_lt_mul_right u1 (by positivity)
  have u2 := lt_of_mul_lt_mul_right u2 (by positivity)
  have w1 : (m : ℝ) < ((n + 1 : ℤ) : ℝ) := by push_cast; linarith
  have w2 : (n : ℝ) < ((m + 1 : ℤ) : ℝ) := by push_cast; linarith
  have w1 := Int.cast_lt.1 w1
  have w2 := Int.cast_lt.1 w2
  obtain rfl : m = n := by omega
  exact e

/-- **C120** the year pillar by the moment: pillar number `y`, that of the year `y + 4`, from the longitude 315° of that year to the next -/
theorem C120_year (hM : M.Good) (s : Solar) (hs : s.Valid) (h1 : 1585 ≤ s.year) (h2 : s.year ≤ 2997) (l : Lunar)
    (hl : Lunar.fromSolar (astro M) s = .ok l) :
    ∃ (y : ℤ) (x : Fl M), l.getYearInGanZhiExact = .ok (ganZhi y) ∧
      ∀ δ t : ℝ, |δ - (dtT x : Fl M).v| ≤ 0.01 → Instant s δ t → |(x.v : ℝ) - 36525 * t| ≤ 380 ∧
        (y - 1996) * (2 * Real.pi) + 7 * Real.pi / 4 - 0.00025 ≤ saLon t (-1) ∧
        saLon t (-1) ≤ (y - 1995) * (2 * Real.pi) + 7 * Real.pi / 4 + 0.00025 := by
  obtain ⟨f1, P, -, -, tab⟩ := Ephem.made hM hs (by omega) (by omega) hl
  obtain ⟨e1, e2⟩ := ends hM hs h1 h2 hl _ _ (tab 0 (by norm_num)) (tab 28 (by norm_num))
  have t4 := tab 4 (by norm_num)
  obtain ⟨c, hc⟩ : ∃ c, l.jieQi[4]? = some c := ⟨_, t4⟩
  have vc := P.table.valid _ (List.mem_of_getElem? hc)
  obtain ⟨-, -, -, g1, g2⟩ := C34_year_pillars l P.made P.range P.table P.near c hc
  rw [f1] at g1 g2
  have p := Real.pi_pos
  by_cases b : AtOrBefore c s
  · obtain ⟨x, hx⟩ := C120_between hM s hs h1 h2 l hl 4 28 (by norm_num) (by norm_num) _ _ hc (tab 28 (by norm_num)) b e2
    refine ⟨s.year - 4, x, g1 b, fun δ t hδ ht => ?_⟩
    obtain ⟨a, b, c⟩ := hx δ t hδ ht
    push_cast at b c ⊢
    exact ⟨a, by linarith, by linarith⟩
  · have b : Before s c := by
      rw [atOrBefore_iff vc hs] at b
      exact (before_iff hs vc).2 (by omega)
    obtain ⟨x, hx⟩ := C120_between hM s hs h1 h2 l hl 0 4 (by norm_num) (by norm_num) _ _ (tab 0 (by norm_num)) hc e1 b
    refine ⟨s.year - 1 - 4, x, g2 b, fun δ t hδ ht => ?_⟩
    obtain ⟨a, b, c⟩ := hx δ t hδ ht
    push_cast at b c ⊢
    exact ⟨a, by linarith, by linarith⟩

/-- the pillars of noon of 1 July 2028 and the sun at it -/
example : ∃ l t, Lunar.fromSolar (astro Libm.cut) ⟨2028, 7, 1, 12, 0, 0⟩ = .ok l ∧ (∃ x : Fl Libm.cut, |(x.v : ℝ) - 36525 * t| ≤ 380 ∧
    Instant ⟨2028, 7, 1, 12, 0, 0⟩ (dtT x : Fl Libm.cut).v t) ∧
    ∃ m : ℤ, l.getMonthInGanZhiExact = .ok (ganZhi m) ∧ (2 * m - 47887) * (Real.pi / 12) - 0.00025 ≤ saLon t (-1) ∧
      saLon t (-1) ≤ (2 * m - 47885) * (Real.pi / 12) + 0.00025 := by
  obtain ⟨l, e, -⟩ := C84_round_trip Libm.cut_good ⟨2028, 7, 1, 12, 0, 0⟩ (by decide) (by decide) (by decide)
  obtain ⟨m, x, f, h⟩ := C120_month Libm.cut_good ⟨2028, 7, 1, 12, 0, 0⟩ (by decide) (by decide) (by decide) l e
  obtain ⟨t, ht⟩ : ∃ t, Instant ⟨2028, 7, 1, 12, 0, 0⟩ (dtT x : Fl Libm.cut).v t :=
    ⟨((86400 * ((JD.jdn ⟨2028, 7, 1⟩ : ℤ) - 2451545) + (12 : ℤ) * 3600 + (0 : ℤ) * 60 + (0 : ℤ) - 43200 : ℝ) / 86400 + (dtT x : Fl Libm.cut).v - 1 / 3) / 36525,
      JD.jdn ⟨2028, 7, 1⟩, (isDay_iff (by decide)).2 rfl, by push_cast; ring⟩
  obtain ⟨a, b⟩ := h _ t (by rw [sub_self, abs_zero]; norm_num) ht
  exact ⟨l, t, e, ⟨x, a, ht⟩, m, f, b⟩

/-- by the pillar number of C120 the month from 4 February 2000 on, at 315°, is 戊寅 -/
example : ganZhi 23954 = ['戊', '寅'] ∧ (2 * (23954 : ℝ) - 47887) * 15 = 315 := ⟨by decide, by norm_num⟩

end
