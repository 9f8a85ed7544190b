import Verif.Proof.Ephem.Terms

/-! # The calendar made from the sequences of solar terms and new moons is an `Almanac` -/

namespace Ephem
open F64 LunarYear LunarCal Spec

variable {A : Astro} {D N : ℤ → ℤ} {T : ℤ → ℚ} {lo hi : ℤ}

/-- the moment of term `n` -/
noncomputable def moment (B : Full A D N T lo hi) (n : ℤ) : Solar :=
  if h : 24 * (lo - 2000) + 17 ≤ n ∧ n ≤ 24 * (hi - 2000) + 47 then Classical.choose (term_exists B h.1 h.2) else ⟨0, 0, 0, 0, 0, 0⟩

variable (B : Full A D N T lo hi)
include B

theorem moment_spec {n : ℤ} (h1 : 24 * (lo - 2000) + 17 ≤ n) (h2 : n ≤ 24 * (hi - 2000) + 47) :
    Solar.fromJulianDay (add (T n) J2000) = .ok (moment B n) ∧ (moment B n).Valid ∧
      |(Cal.secNo (moment B n) : ℚ) + 86400 * 1721057 - 86400 * (T n + 1 / 2 + 2451545)| ≤ 1 := by
  unfold moment
  rw [dif_pos ⟨h1, h2⟩]
  exact Classical.choose_spec (term_exists B h1 h2)

theorem table {Y : ℤ} (h1 : lo ≤ Y) (h2 : Y ≤ hi) : Lunar.computeJieQi (make A Y).jieQiJulianDays =
    .ok ((List.range 31).map (fun i : ℕ => moment B (24 * (Y - 2000) + 17 + i))) := by
  rw [B.toBins.terms h1 h2]
  unfold Lunar.computeJieQi
  apply mapM_ok
  intro i hi
  have hi' : i < 31 := by simpa using hi
  exact (moment_spec B (by omega) (by omega)).1

theorem table_get {Y : ℤ} {i : ℕ} {s : Solar} (h : ((List.range 31).map (fun i : ℕ => moment B (24 * (Y - 2000) + 17 + i)))[i]? = some s) :
    i < 31 ∧ s = moment B (24 * (Y - 2000) + 17 + i) := by
  rw [List.getElem?_map] at h
  by_cases c : i < 31
  · rw [List.getElem?_range c] at h
    simp only [Option.map_some, Option.some.injEq] at h
    exact ⟨c, h.symm⟩
  · rw [List.getElem?_eq_none (by simpa using c)] at h
    simp at h

/-- the day of a term -/
theorem moment_day {n : ℤ} (h1 : 24 * (lo - 2000) + 17 ≤ n) (h2 : n ≤ 24 * (hi - 2000) + 47) :
    15.218425 * (n : ℚ) - 291 ≤ (JD.jdn (moment B n).date : ℚ) - 2451545 ∧ (JD.jdn (moment B n).date : ℚ) - 2451545 ≤ 15.218425 * n - 281 := by
  obtain ⟨-, v, e⟩ := moment_spec B h1 h2
  have e' := abs_le.1 e
  have t := B.t n h1 (by omega)
  obtain ⟨v1, v2⟩ := v
  have hc : 0 ≤ (moment B n).hour * 3600 + (moment B n).minute * 60 + (moment B n).second ∧
      (moment B n).hour * 3600 + (moment B n).minute * 60 + (moment B n).second ≤ 86399 := by
    unfold ClockOk at v2
    omega
  have hs : (Cal.secNo (moment B n) : ℚ) = 86400 * ((JD.jdn (moment B n).date : ℚ) - 1721057) +
      (((moment B n).hour * 3600 + (moment B n).minute * 60 + (moment B n).second : ℤ) : ℚ) := by
    rw [JD.jdn_eq v1]
    unfold Cal.secNo
    push_cast
    ring
  have c1 : (0 : ℚ) ≤ (((moment B n).hour * 3600 + (moment B n).minute * 60 + (moment B n).second : ℤ) : ℚ) := by exact_mod_cast hc.1
  have c2 : (((moment B n).hour * 3600 + (moment B n).minute * 60 + (moment B n).second : ℤ) : ℚ) ≤ 86399 := by exact_mod_cast hc.2
  rw [hs] at e'
  constructor <;> linarith [e'.1, e'.2, t.1, t.2]

theorem moment_ge {n y : ℤ} (h1 : 24 * (lo - 2000) + 17 ≤ n) (h2 : n ≤ 24 * (hi - 2000) + 47) (hy : 1583 ≤ y) (hy' : y ≤ 10010)
    (h : 365.2422 * ((y : ℚ) - 2000) + 4 ≤ 15.218425 * n - 291) : y ≤ (moment B n).year := by
  have a := moment_day B h1 h2
  have b := jan1 hy hy'
  refine year_ge_of_jdn (moment_spec B h1 h2).2.1.1 ?_
  have : (JD.jdn ⟨y, 1, 1⟩ : ℚ) ≤ JD.jdn (moment B n).date := by linarith [a.1, b.2]
  exact_mod_cast this

theorem moment_le {n y : ℤ} (h1 : 24 * (lo - 2000) + 17 ≤ n) (h2 : n ≤ 24 * (hi - 2000) + 47) (hy : 1583 ≤ y) (hy' : y ≤ 10000)
    (h : 15.218425 * (n : ℚ) - 281 < 365.2422 * ((y : ℚ) + 1 - 2000) - 1) : (moment B n).year ≤ y := by
  have a := moment_day B h1 h2
  have b := jan1 (Y := y + 1) (by omega) (by omega)
  push_cast at b
  refine year_le_of_jdn (moment_spec B h1 h2).2.1.1 ?_
  have : (JD.jdn (moment B n).date : ℚ) < JD.jdn ⟨y + 1, 1, 1⟩ := by linarith [a.2, b.1]
  exact_mod_cast this

theorem secNo_lt {n n' : ℤ} (h1 : 24 * (lo - 2000) + 17 ≤ n) (h2 : n' ≤ 24 * (hi - 2000) + 47) (h : n < n') :
    Cal.secNo (moment B n) < Cal.secNo (moment B n') := by
  have a := abs_le.1 (moment_spec B h1 (by omega)).2.2
  have b := abs_le.1 (moment_spec B (n := n') (by omega) h2).2.2
  have t := B.t n h1 (by omega)
  have t' := B.t n' (by omega) (by omega)
  have h' : (n : ℚ) + 1 ≤ n' := by exact_mod_cast h
  have : (Cal.secNo (moment B n) : ℚ) < Cal.secNo (moment B n') := by linarith [a.2, b.1, t.2, t'.1]
  exact_mod_cast this

theorem termTable {Y : ℤ} (h1 : lo ≤ Y) (h2 : Y ≤ hi) :
    Lunar.TermTable Y ((List.range 31).map (fun i : ℕ => moment B (24 * (Y - 2000) + 17 + i))) := by
  have l0 := B.late
  have l1 := B.four
  have hY1 : ((Y : ℤ) : ℚ) ≤ 9998 := by exact_mod_cast (by omega : Y ≤ 9998)
  have hY0 : (1584 : ℚ) ≤ Y := by exact_mod_cast (by omega : 1584 ≤ Y)
  have V : ∀ i : ℕ, i < 31 → (moment B (24 * (Y - 2000) + 17 + i)).Valid := fun i hi => (moment_spec B (by omega) (by omega)).2.1
  constructor
  · simp
  · intro s hs
    obtain ⟨i, hi, rfl⟩ := List.mem_map.1 hs
    exact V i (by simpa using hi)
  · intro s hs
    obtain ⟨i, hi, rfl⟩ := List.mem_map.1 hs
    have hi' : i < 31 := by simpa using hi
    have i1 : (0 : ℚ) ≤ i := by positivity
    have i2 : (i : ℚ) ≤ 30 := by exact_mod_cast (by omega : i ≤ 30)
    constructor
    · have := moment_ge B (n := 24 * (Y - 2000) + 17 + i) (y := Y - 1) (by omega) (by omega) (by omega) (by omega) (by push_cast; linarith)
      omega
    · have := moment_le B (n := 24 * (Y - 2000) + 17 + i) (y := Y + 1) (by omega) (by omega) (by omega) (by omega) (by push_cast; linarith)
      omega
  · rw [List.pairwise_map]
    refine List.Pairwise.imp_of_mem ?_ List.pairwise_lt_range
    intro i j hi hj hij
    have hi' : i < 31 := by simpa using hi
    have hj' : j < 31 := by simpa using hj
    exact (Solar.before_iff (V i hi') (V j hj')).2 (secNo_lt B (by omega) (by omega) (by omega))
  · intro s hs
    obtain ⟨-, rfl⟩ := table_get B hs
    have a := moment_ge B (n := 24 * (Y - 2000) + 17 + (4 : ℕ)) (y := Y) (by omega) (by omega) (by omega) (by omega) (by push_cast; linarith)
    have b := moment_le B (n := 24 * (Y - 2000) + 17 + (4 : ℕ)) (y := Y) (by omega) (by omega) (by omega) (by omega) (by push_cast; linarith)
    omega

/-- new moons near the solstice and the turn of the year -/
theorem N_bounds {Y : ℤ} (h1 : lo ≤ Y) (h2 : Y ≤ hi) {i : ℕ} (hi' : i ≤ 16) :
    (i = 0 → (N (start B.toFacts Y + i) : ℚ) ≤ 365.2422 * ((Y : ℚ) - 2000) - 7) ∧
    365.2422 * ((Y : ℚ) - 2000) + 29.5306 * i - 54 ≤ N (start B.toFacts Y + i) ∧
    (1 ≤ i → 365.2422 * ((Y : ℚ) - 2000) + 29.5306 * ((i : ℚ) - 1) - 22.6 ≤ N (start B.toFacts Y + i)) ∧
    (N (start B.toFacts Y + i) : ℚ) ≤ 365.2422 * ((Y : ℚ) - 2000) + 29.5306 * i + 1 := by
  obtain ⟨a1, a2, a3, a4, -⟩ := start_spec B.toFacts h1 h2
  have d := B.d (24 * (Y - 2000) + 18) (by omega) (by omega)
  push_cast at d
  have a1' : (N (start B.toFacts Y) : ℚ) ≤ D (24 * (Y - 2000) + 18) := by exact_mod_cast a1
  have a2' : (D (24 * (Y - 2000) + 18) : ℚ) + 1 ≤ N (start B.toFacts Y + 1) := by exact_mod_cast a2
  have r0 := inRange B.toFacts h1 h2 (j := 0) (by norm_num) (by norm_num)
  have r1 := inRange B.toFacts h1 h2 (j := 1) (by norm_num) (by norm_num)
  have ri := inRange B.toFacts h1 h2 (j := i) (by omega) (by omega)
  rw [add_zero] at r0
  have n0 := N_diff B.toFacts (j := i) r0 ri
  have ni := B.n _ ri.1 ri.2
  push_cast at ni
  refine ⟨?_, ?_, ?_, ?_⟩
  · rintro rfl
    simp only [Nat.cast_zero, add_zero]
    linarith [d.2]
  · linarith [ni.1]
  · intro hi1
    have n1 := (N_diff B.toFacts (k := start B.toFacts Y + 1) (j := i - 1) r1 (by
      rw [show start B.toFacts Y + 1 + ((i - 1 : ℕ) : ℤ) = start B.toFacts Y + i by omega]; exact ri)).1
    rw [show start B.toFacts Y + 1 + ((i - 1 : ℕ) : ℤ) = start B.toFacts Y + i by omega] at n1
    push_cast [Nat.cast_sub hi1] at n1
    linarith [d.1]
  · linarith [n0.2, d.2]

/-- the calendar of the years `lo .. hi` -/
noncomputable def almanac : Almanac A lo hi where
  key := key B.toFacts
  first := first B.toFacts
  start := start B.toFacts
  first_lt := first_lt B.toFacts
  key_inj := key_inj B.toFacts
  window Y h1 h2 i hi' := window B.toFacts h1 h2 hi'
  home k h1 h2 := home B.toFacts h1 h2
  overlap Y h1 h2 := by
    have := start_step B.toFacts h1 h2
    omega
  covers Y h1 h2 x n hx hY hn := by
    have l0 := B.late
    have l1 := B.four
    rw [isDay_iff hx] at hn
    have v1 : (⟨Y, 1, 1⟩ : Date).Valid := by unfold Date.Valid lastDay; simp
    have v2 : (⟨Y + 1, 1, 1⟩ : Date).Valid := by unfold Date.Valid lastDay; simp
    have b1 : JD.jdn ⟨Y, 1, 1⟩ ≤ n := by
      rw [hn]
      by_contra hc
      rw [not_le, JD.jdn_lt_iff hx v1] at hc
      obtain ⟨m1, m2, d1, -, -⟩ := hx
      unfold Cal.DateLt at hc
      simp only at hc
      omega
    have b2 : n < JD.jdn ⟨Y + 1, 1, 1⟩ := by
      rw [hn, JD.jdn_lt_iff hx v2]
      exact Or.inl (by simp only; omega)
    have j1 := jan1 (Y := Y) (by omega) (by omega)
    have j2 := jan1 (Y := Y + 1) (by omega) (by omega)
    push_cast at j2
    have n0 := (N_bounds B h1 h2 (i := 0) (by norm_num)).1 rfl
    have n15 := (N_bounds B h1 h2 (i := 15) (by norm_num)).2.2.1 (by norm_num)
    have e0 := first_eq B.toFacts h1 h2 (i := 0) (by norm_num) (by norm_num)
    have e15 := first_eq B.toFacts h1 h2 (i := 15) (by norm_num) (by norm_num)
    rw [add_zero] at e0
    simp only [Nat.cast_zero, add_zero] at n0
    push_cast at n15
    rw [e0, e15]
    unfold J2000
    constructor
    · refine le_trans ?_ b1
      have : (N (start B.toFacts Y) : ℚ) + 2451545 ≤ JD.jdn ⟨Y, 1, 1⟩ := by linarith [j1.1]
      exact_mod_cast this
    · refine lt_of_lt_of_le b2 ?_
      have : (JD.jdn ⟨Y + 1, 1, 1⟩ : ℚ) ≤ N (start B.toFacts Y + 15) + 2451545 := by linarith [j2.2]
      exact_mod_cast this
  near Y h1 h2 i hi' := by
    have b := leapOf_bounds A Y
    have := name_year b.1 b.2 hi'
    rw [key_eq B.toFacts h1 h2 hi']
    simp only
    omega
  near' k h1 h2 x n hx hn f1 f2 := by
    have l0 := B.late
    have l1 := B.four
    obtain ⟨k1, k2⟩ := home B.toFacts h1 h2
    generalize (key B.toFacts k).1 = Y at *
    obtain ⟨i, rfl⟩ : ∃ i : ℕ, k = start B.toFacts Y + i := ⟨(k - start B.toFacts Y).toNat, by omega⟩
    have hi' : i < 15 := by omega
    rw [first_eq B.toFacts h1 h2 (by omega) (by omega)] at f1
    rw [add_assoc, first_eq B.toFacts h1 h2 (by omega) (by omega)] at f2
    have j1 := jan1 (Y := Y - 1) (by omega) (by omega)
    have j2 := jan1 (Y := Y + 1 + 1) (by omega) (by omega)
    have n0 := (N_bounds B h1 h2 (i := i) (by omega)).2.1
    have n1 := (N_bounds B h1 h2 (i := i + 1) (by omega)).2.2.2
    push_cast at j1 j2 n1
    have i1 : (0 : ℚ) ≤ i := by positivity
    have i2 : (i : ℚ) ≤ 14 := by exact_mod_cast (by omega : i ≤ 14)
    rw [isDay_iff hx] at hn
    unfold J2000 at f1 f2
    constructor
    · refine year_ge_of_jdn hx ?_
      rw [← hn]
      refine le_trans ?_ f1
      have : (JD.jdn ⟨Y - 1, 1, 1⟩ : ℚ) ≤ N (start B.toFacts Y + i) + 2451545 := by linarith [j1.2]
      exact_mod_cast this
    · refine year_le_of_jdn hx ?_
      rw [← hn]
      refine lt_of_lt_of_le f2 ?_
      have : (N (start B.toFacts Y + (i + 1)) : ℚ) + 2451545 ≤ JD.jdn ⟨Y + 1 + 1, 1, 1⟩ := by linarith [j2.1]
      exact_mod_cast this
  nonneg Y h1 h2 := by
    have l0 := B.late
    have hY0 : (1584 : ℚ) ≤ Y := by exact_mod_cast (by omega : 1584 ≤ Y)
    have n0 := (N_bounds B h1 h2 (i := 0) (by norm_num)).2.1
    simp only [Nat.cast_zero, add_zero] at n0
    have e0 := first_eq B.toFacts h1 h2 (i := 0) (by norm_num) (by norm_num)
    rw [add_zero] at e0
    rw [e0]
    unfold J2000
    have : (0 : ℚ) ≤ N (start B.toFacts Y) + 2451545 := by linarith
    exact_mod_cast this
  terms Y h1 h2 := ⟨_, table B h1 h2, termTable B h1 h2⟩

theorem jq_eq {Y : ℤ} (h1 : lo ≤ Y) (h2 : Y ≤ hi) {jq : List Solar} (e : Lunar.computeJieQi (make A Y).jieQiJulianDays = .ok jq) :
    jq = (List.range 31).map (fun i : ℕ => moment B (24 * (Y - 2000) + 17 + i)) := by
  rw [table B h1 h2] at e
  exact (Except.ok.inj e).symm

/-- month `i` of the list of a year in which the first month after the solstice month of the next year comes -/
theorem late_month {Y : ℤ} (h1 : lo ≤ Y) (h2 : Y ≤ hi) (h : 15 ≤ leapOf A Y) : JD.jdn ⟨Y + 1, 1, 1⟩ ≤ first B.toFacts (start B.toFacts Y + 14) := by
  have l0 := B.late
  have l1 := B.four
  have hl := leapOf_eq B.toFacts h1 h2
  have c : D (24 * (Y - 2000) + 18 + 24) < N (start B.toFacts Y + 13) := by
    by_contra hc
    rw [not_lt] at hc
    have : leapLoop (hsOf A Y) (computeJq A Y) 1 ≤ 12 := by
      refine leapLoop_le _ _ ?_
      rw [hs_get B.toFacts h1 h2 (i := 13) (by norm_num), B.toBins.jq_get h1 h2 (i := 24) (by norm_num)]
      exact hc
    rw [if_pos hc] at hl
    split_ifs at hl <;> omega
  have c' : (D (24 * (Y - 2000) + 18 + 24) : ℚ) + 1 ≤ N (start B.toFacts Y + 13) := by exact_mod_cast c
  have d := (B.d (24 * (Y - 2000) + 18 + 24) (by omega) (by omega)).1
  push_cast at d
  have n := N_next B.toFacts (k := start B.toFacts Y + 13) (inRange B.toFacts h1 h2 (by norm_num) (by norm_num))
    (by rw [add_assoc]; exact inRange B.toFacts h1 h2 (by norm_num) (by norm_num))
  rw [show start B.toFacts Y + 13 + 1 = start B.toFacts Y + 14 by ring] at n
  have n' : (N (start B.toFacts Y + 13) : ℚ) + 23 ≤ N (start B.toFacts Y + 14) := by exact_mod_cast n
  have j := (jan1 (Y := Y + 1) (by omega) (by omega)).2
  push_cast at j
  rw [first_eq B.toFacts h1 h2 (by norm_num) (by norm_num)]
  unfold J2000
  have : (JD.jdn ⟨Y + 1, 1, 1⟩ : ℚ) ≤ N (start B.toFacts Y + 14) + 2451545 := by linarith
  exact_mod_cast this

theorem sunAlmanac : SunAlmanac (almanac B) where
  overlap Y h1 h2 jq jq' e e' i hi' := by
    rw [jq_eq B h1 h2.le e, jq_eq B (by omega) (by omega) e', List.getElem?_map, List.getElem?_map, List.getElem?_range (by omega),
      List.getElem?_range (by omega)]
    simp only [Option.map_some]
    congr 2
    push_cast
    ring
  ends Y h1 h2 jq e := by
    have l0 := B.late
    have l1 := B.four
    have hY1 : ((Y : ℤ) : ℚ) ≤ 9998 := by exact_mod_cast (by omega : Y ≤ 9998)
    have hY0 : (1584 : ℚ) ≤ Y := by exact_mod_cast (by omega : 1584 ≤ Y)
    rw [jq_eq B h1 h2 e]
    constructor
    · intro s hs
      obtain ⟨-, rfl⟩ := table_get B hs
      have a := moment_ge B (n := 24 * (Y - 2000) + 17 + (0 : ℕ)) (y := Y - 1) (by omega) (by omega) (by omega) (by omega) (by push_cast; linarith)
      have b := moment_le B (n := 24 * (Y - 2000) + 17 + (0 : ℕ)) (y := Y - 1) (by omega) (by omega) (by omega) (by omega) (by push_cast; linarith)
      omega
    · intro s hs
      obtain ⟨-, rfl⟩ := table_get B hs
      have a := moment_ge B (n := 24 * (Y - 2000) + 17 + (28 : ℕ)) (y := Y + 1) (by omega) (by omega) (by omega) (by omega) (by push_cast; linarith)
      have b := moment_le B (n := 24 * (Y - 2000) + 17 + (28 : ℕ)) (y := Y + 1) (by omega) (by omega) (by omega) (by omega) (by push_cast; linarith)
      omega
  short Y h1 h2 jq e i a b n ha hb hn := by
    rw [jq_eq B h1 h2 e] at ha hb
    obtain ⟨i1, rfl⟩ := table_get B ha
    obtain ⟨i2, rfl⟩ := table_get B hb
    have va := (moment_spec B (n := 24 * (Y - 2000) + 17 + (2 * i : ℕ)) (by omega) (by omega)).2.1
    have vb := (moment_spec B (n := 24 * (Y - 2000) + 17 + (2 * i + 2 : ℕ)) (by omega) (by omega)).2.1
    have da := moment_day B (n := 24 * (Y - 2000) + 17 + (2 * i : ℕ)) (by omega) (by omega)
    have db := moment_day B (n := 24 * (Y - 2000) + 17 + (2 * i + 2 : ℕ)) (by omega) (by omega)
    have hn' := (Cal.daysAfter_iff va.1 vb.1 n).1 hn
    rw [JD.jdn_eq va.1] at da
    rw [JD.jdn_eq vb.1] at db
    push_cast at da db
    have hn'' : (Cal.dn (moment B (24 * (Y - 2000) + 17 + (2 * i + 2 : ℕ))).date : ℚ) =
      Cal.dn (moment B (24 * (Y - 2000) + 17 + (2 * i : ℕ))).date + n := by exact_mod_cast hn'
    push_cast at hn''
    have : (n : ℚ) < 59 := by linarith [da.1, db.2]
    exact_mod_cast this
  newYear Y h1 h2 := by
    have l0 := B.late
    have l1 := B.four
    have b := leapOf_bounds A Y
    have e := name_newYear b.1 b.2
    obtain ⟨i, hi1, hi2, ei⟩ : ∃ i : ℕ, 2 ≤ i ∧ i ≤ 3 ∧ name (leapOf A Y) i = (0, 1) := by
      split_ifs at e
      · exact ⟨3, by norm_num, by norm_num, e⟩
      · exact ⟨2, by norm_num, by norm_num, e⟩
    have hk : key B.toFacts (start B.toFacts Y + i) = (Y, 1) := by
      rw [key_eq B.toFacts h1 h2 (by omega), ei, add_zero]
    have n0 := (N_bounds B h1 h2 (i := i) (by omega)).2.2.1 (by omega)
    have n1 := (N_bounds B h1 h2 (i := i) (by omega)).2.2.2
    have i1 : (2 : ℚ) ≤ i := by exact_mod_cast hi1
    have i2 : (i : ℚ) ≤ 3 := by exact_mod_cast hi2
    have j1 := jan1 (Y := Y) (by omega) (by omega)
    have j2 := jan1 (Y := Y + 1) (by omega) (by omega)
    push_cast at j2
    have f := first_eq B.toFacts h1 h2 (i := i) (by omega) (by omega)
    have g1 : JD.jdn ⟨Y, 1, 1⟩ ≤ first B.toFacts (start B.toFacts Y + i) := by
      rw [f]
      unfold J2000
      have : (JD.jdn ⟨Y, 1, 1⟩ : ℚ) ≤ N (start B.toFacts Y + i) + 2451545 := by linarith [j1.2]
      exact_mod_cast this
    have g2 : first B.toFacts (start B.toFacts Y + i) < JD.jdn ⟨Y + 1, 1, 1⟩ := by
      rw [f]
      unfold J2000
      have : (N (start B.toFacts Y + i) : ℚ) + 2451545 < JD.jdn ⟨Y + 1, 1, 1⟩ := by linarith [j2.1]
      exact_mod_cast this
    have pos : 0 ≤ JD.jdn ⟨Y, 1, 1⟩ := by
      have hY0 : (1584 : ℚ) ≤ Y := by exact_mod_cast (by omega : 1584 ≤ Y)
      have : (0 : ℚ) ≤ JD.jdn ⟨Y, 1, 1⟩ := by linarith [j1.1]
      exact_mod_cast this
    obtain ⟨x, hx, ex⟩ := JD.exists_date (first B.toFacts (start B.toFacts Y + i)) (by omega)
    refine ⟨start B.toFacts Y + i, x, hk, hx, (isDay_iff hx).2 ex.symm, ?_⟩
    have y1 := year_ge_of_jdn hx (y := Y) (by rw [ex]; exact g1)
    have y2 := year_le_of_jdn hx (y := Y) (by rw [ex]; exact g2)
    omega
  behind Y h1 h2 k x n hx hY hn f1 f2 := by
    obtain ⟨c1, c2⟩ := (almanac B).covers Y h1 h2 x n hx hY hn
    obtain ⟨i, hi', g1, g2⟩ := (almanac B).month_of_day c1 c2
    have ek : k = start B.toFacts Y + i := (almanac B).month_unique f1 f2 g1 g2
    have b := leapOf_bounds A Y
    obtain ⟨n1, n2, -, n4, -⟩ := name_year b.1 b.2 hi'
    show (key B.toFacts k).1 = Y ∨ (key B.toFacts k).1 = Y - 1
    rw [ek, key_eq B.toFacts h1 h2 hi']
    simp only
    by_contra hc
    obtain ⟨i14, li⟩ := n4 (by omega)
    subst i14
    have := late_month B h1 h2 li
    have v2 : (⟨Y + 1, 1, 1⟩ : Date).Valid := by unfold Date.Valid lastDay; simp
    have b2 : n < JD.jdn ⟨Y + 1, 1, 1⟩ := by
      rw [(isDay_iff hx).1 hn, JD.jdn_lt_iff hx v2]
      exact Or.inl (by simp only; omega)
    have g1' : first B.toFacts (start B.toFacts Y + 14) ≤ n := g1
    omega

end Ephem
