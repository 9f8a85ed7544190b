import Verif.Proof.Ephem.Rounding
import Verif.Proof.LunarYear

/-! # The lists of `LunarYear.compute` are cut from the sequences of solar terms and new moons -/

namespace Ephem
open F64 LunarYear

/-- What is needed of the astronomical functions for the years `lo .. hi`: solar term `n` is at `T n`, and on day `D n`;
new moon `k` is on day `N k`; the functions find the term or month near the day they are given. -/
structure Bins (A : Astro) (D N : ℤ → ℤ) (T : ℤ → ℚ) (lo hi : ℤ) : Prop where
  low : -4700 ≤ lo
  high : hi ≤ 9999
  qi : ∀ (x : ℚ) (n : ℤ), 24 * (lo - 2000) + 17 ≤ n → n ≤ 24 * (hi - 2000) + 48 →
    15.218425 * (n : ℚ) - 284.18 ≤ x → x ≤ 15.218425 * (n : ℚ) - 284.17 → A.calcQi x = D n
  shuo : ∀ (x : ℚ) (k : ℤ), 365.2422 * ((lo : ℚ) - 2000) - 100 ≤ 29.5306 * k → 29.5306 * (k : ℚ) ≤ 365.2422 * ((hi : ℚ) - 2000) + 500 →
    29.5306 * (k : ℚ) - 1.5 ≤ x → x ≤ 29.5306 * (k : ℚ) + 9.5 → A.calcShuo x = N k
  first : ∀ x : ℚ, 365.2422 * ((lo : ℚ) - 2000) - 60 ≤ x → x ≤ 365.2422 * ((hi : ℚ) - 2000) + 460 →
    ∃ k : ℤ, 29.5306 * (k : ℚ) - 0.01 ≤ x + 8 ∧ x + 8 ≤ 29.5306 * ((k : ℚ) + 1) + 0.01 ∧
      (A.calcShuo x = N k ∨ 29.5306 * (k : ℚ) + 20 ≤ x ∧ |A.calcShuo x - N k| ≤ 2)
  acc : ∀ x n, 24 * (lo - 2000) + 17 ≤ n → n ≤ 24 * (hi - 2000) + 48 → InBin n x → |T n - x| ≤ 4.9 → A.qiAccurate2 x = T n
  d : ∀ n, 24 * (lo - 2000) + 17 ≤ n → n ≤ 24 * (hi - 2000) + 48 →
    15.218425 * (n : ℚ) - 290.7 ≤ D n ∧ (D n : ℚ) ≤ 15.218425 * n - 281.5
  t : ∀ n, 24 * (lo - 2000) + 17 ≤ n → n ≤ 24 * (hi - 2000) + 48 →
    15.218425 * (n : ℚ) - 290.3 ≤ T n ∧ T n ≤ 15.218425 * n - 281.9
  td : ∀ n, 24 * (lo - 2000) + 17 ≤ n → n ≤ 24 * (hi - 2000) + 48 → |T n - D n| ≤ 4
  before : ∀ Y, lo ≤ Y → Y ≤ hi → |T (24 * (Y - 2000) + 18 - 1) - D (24 * (Y - 2000) + 18) + 15.2184| ≤ 4
  after : ∀ Y, lo ≤ Y → Y ≤ hi → ∀ j : ℕ, 1 ≤ j → j ≤ 4 →
    |T (24 * (Y - 2000) + 18 + 25 + j) - D (24 * (Y - 2000) + 18 + 25) - 15.2184 * j| ≤ 4
  n : ∀ k : ℤ, 365.2422 * ((lo : ℚ) - 2000) - 100 ≤ 29.5306 * k → 29.5306 * (k : ℚ) ≤ 365.2422 * ((hi : ℚ) - 2000) + 500 →
    29.5306 * (k : ℚ) + 0.6 ≤ N k ∧ (N k : ℚ) ≤ 29.5306 * k + 7.4

variable {A : Astro} {D N : ℤ → ℤ} {T : ℤ → ℚ} {lo hi : ℤ}

/-- `w` of `lunar_python/LunarYear.py` 65-69, about -/
theorem Bins.jq (B : Bins A D N T lo hi) {Y : ℤ} (h1 : lo ≤ Y) (h2 : Y ≤ hi) :
    computeJq A Y = (List.range 26).map (fun i : ℕ => D (24 * (Y - 2000) + 18 + i)) := by
  have hl := B.low
  have hh := B.high
  have m1 : (-6700 : ℚ) ≤ ((Y - 2000 : ℤ) : ℚ) := by exact_mod_cast (by omega : (-6700 : ℤ) ≤ Y - 2000)
  have m2 : ((Y - 2000 : ℤ) : ℚ) ≤ 7999 := by exact_mod_cast (by omega : Y - 2000 ≤ (7999 : ℤ))
  have hc := abs_le.1 c365_near
  have hc0 : 0 < c365 := by linarith
  -- the product
  have p0 : |((Y - 2000 : ℤ) : ℚ) * c365 - 365.2422 * ((Y - 2000 : ℤ) : ℚ)| ≤ 1 / 10 ^ 9 := by
    rw [show ((Y - 2000 : ℤ) : ℚ) * c365 - 365.2422 * ((Y - 2000 : ℤ) : ℚ) = ((Y - 2000 : ℤ) : ℚ) * (c365 - 365.2422) by ring, abs_mul]
    calc |((Y - 2000 : ℤ) : ℚ)| * |c365 - 365.2422| ≤ 7999 * (1 / 10 ^ 13) :=
          mul_le_mul (by rw [abs_le]; constructor <;> linarith) c365_near (abs_nonneg _) (by norm_num)
      _ ≤ _ := by norm_num
  have p0' := abs_le.1 p0
  have p1 := abs_le.1 (rnd_near (x := ((Y - 2000 : ℤ) : ℚ) * c365) (by rw [abs_le]; constructor <;> linarith [p0'.1, p0'.2]))
  have p2 : 365.2422 * ((Y - 2000 : ℤ) : ℚ) - 2 / 10 ^ 9 ≤ mul ((Y - 2000 : ℤ) : ℚ) c365 ∧
      mul ((Y - 2000 : ℤ) : ℚ) c365 ≤ 365.2422 * ((Y - 2000 : ℤ) : ℚ) + 2 / 10 ^ 9 := by
    unfold mul; constructor <;> linarith [p0'.1, p0'.2, p1.1, p1.2]
  have a1 := abs_le.1 (rnd_near (x := mul ((Y - 2000 : ℤ) : ℚ) c365 + 180) (by rw [abs_le]; constructor <;> linarith [p2.1, p2.2]))
  have f1 := Int.floor_le (add (mul ((Y - 2000 : ℤ) : ℚ) c365) 180)
  have f2 := Int.lt_floor_add_one (add (mul ((Y - 2000 : ℤ) : ℚ) c365) 180)
  change -(1 / 10 ^ 9) ≤ add (mul ((Y - 2000 : ℤ) : ℚ) c365) 180 - _ ∧ add (mul ((Y - 2000 : ℤ) : ℚ) c365) 180 - _ ≤ 1 / 10 ^ 9 at a1
  unfold computeJq
  generalize ⌊add (mul ((Y - 2000 : ℤ) : ℚ) c365) 180⌋ = jd at f1 f2
  have j1 : 365.2422 * ((Y - 2000 : ℤ) : ℚ) + 7 - 1 / 10 ^ 8 ≤ ((jd - 355 + 183 : ℤ) : ℚ) := by
    push_cast at *; linarith [a1.1, a1.2, p2.1, p2.2]
  have j2 : ((jd - 355 + 183 : ℤ) : ℚ) ≤ 365.2422 * ((Y - 2000 : ℤ) : ℚ) + 8 + 1 / 10 ^ 8 := by
    push_cast at *; linarith [a1.1, a1.2, p2.1, p2.2]
  have g1 : ⌊div ((jd - 355 + 183 : ℤ) : ℚ) c365⌋ = Y - 2000 := by
    generalize ((jd - 355 + 183 : ℤ) : ℚ) = z at j1 j2
    have b1 : ((Y - 2000 : ℤ) : ℚ) + 0.01 ≤ z / c365 := by
      rw [le_div_iff₀ hc0]; linarith [p0'.1, p0'.2, hc.2]
    have b2 : z / c365 ≤ ((Y - 2000 : ℤ) : ℚ) + 0.9 := by
      rw [div_le_iff₀ hc0]; linarith [p0'.1, p0'.2, hc.1]
    have e := abs_le.1 (rnd_tiny (x := z / c365) (by rw [abs_le]; constructor <;> linarith))
    unfold div
    rw [Int.floor_eq_iff]
    constructor <;> linarith [e.1, e.2]
  simp only [g1]
  have w1 := abs_le.1 (rnd_near (x := mul ((Y - 2000 : ℤ) : ℚ) c365 + 355) (by rw [abs_le]; constructor <;> linarith [p2.1, p2.2]))
  change -(1 / 10 ^ 9) ≤ add (mul ((Y - 2000 : ℤ) : ℚ) c365) 355 - _ ∧ add (mul ((Y - 2000 : ℤ) : ℚ) c365) 355 - _ ≤ 1 / 10 ^ 9 at w1
  have w2 : 365.2422 * ((Y - 2000 : ℤ) : ℚ) + 355 - 3 / 10 ^ 9 ≤ add (mul ((Y - 2000 : ℤ) : ℚ) c365) 355 ∧
      add (mul ((Y - 2000 : ℤ) : ℚ) c365) 355 ≤ 365.2422 * ((Y - 2000 : ℤ) : ℚ) + 355 + 3 / 10 ^ 9 := by
    constructor <;> linarith [p2.1, p2.2, w1.1, w1.2]
  generalize add (mul ((Y - 2000 : ℤ) : ℚ) c365) 355 = w at w2
  have q1 : A.calcQi w = D (24 * (Y - 2000) + 42) := by
    apply B.qi w _ (by omega) (by omega)
    · push_cast at *
      linarith [w2.1, w2.2]
    · push_cast at *
      linarith [w2.1, w2.2]
  have q2 : A.calcQi w > jd := by
    rw [q1]
    have := (B.d (24 * (Y - 2000) + 42) (by omega) (by omega)).1
    have : (jd : ℚ) < D (24 * (Y - 2000) + 42) := by push_cast at *; linarith [a1.1, a1.2, p2.1, p2.2]
    exact_mod_cast this
  rw [if_pos q2]
  have s1 := abs_le.1 (rnd_near (x := w - c365) (by rw [abs_le]; constructor <;> linarith [w2.1, w2.2]))
  change -(1 / 10 ^ 9) ≤ sub w c365 - _ ∧ sub w c365 - _ ≤ 1 / 10 ^ 9 at s1
  generalize sub w c365 = v at s1
  apply List.map_congr_left
  intro i hi
  have hi' : i < 26 := by simpa using hi
  have i1 : (0 : ℚ) ≤ i := by positivity
  have i2 : (i : ℚ) ≤ 25 := by exact_mod_cast (by omega : i ≤ 25)
  have k0 := abs_le.1 c15_near
  have k1 : 15.2184 * (i : ℚ) - 1 / 10 ^ 9 ≤ c15 * i ∧ c15 * i ≤ 15.2184 * (i : ℚ) + 1 / 10 ^ 9 := by
    constructor <;> nlinarith
  have k2 := abs_le.1 (rnd_near (x := c15 * i) (by rw [abs_le]; constructor <;> linarith [k1.1, k1.2]))
  change -(1 / 10 ^ 9) ≤ mul c15 i - _ ∧ mul c15 i - _ ≤ 1 / 10 ^ 9 at k2
  have k3 := abs_le.1 (rnd_near (x := v + mul c15 i) (by rw [abs_le]; constructor <;> linarith [k1.1, k1.2, k2.1, k2.2, s1.1, s1.2, w2.1, w2.2]))
  change -(1 / 10 ^ 9) ≤ add v (mul c15 i) - _ ∧ add v (mul c15 i) - _ ≤ 1 / 10 ^ 9 at k3
  apply B.qi _ _ (by omega) (by omega)
  · push_cast at *
    linarith [k1.1, k1.2, k2.1, k2.2, k3.1, k3.2, s1.1, s1.2, w2.1, w2.2]
  · push_cast at *
    linarith [k1.1, k1.2, k2.1, k2.2, k3.1, k3.2, s1.1, s1.2, w2.1, w2.2]

theorem Bins.jq_get (B : Bins A D N T lo hi) {Y : ℤ} (h1 : lo ≤ Y) (h2 : Y ≤ hi) {i : ℕ} (hi : i < 26) :
    (computeJq A Y).getD i 0 = D (24 * (Y - 2000) + 18 + i) := by
  rw [B.jq h1 h2, List.getD_eq_getElem?_getD, List.getElem?_map, List.getElem?_range hi]
  rfl

/-- the list of year `Y` begins with the last new moon not after the winter solstice -/
theorem Bins.hs (B : Bins A D N T lo hi) {Y : ℤ} (h1 : lo ≤ Y) (h2 : Y ≤ hi) :
    ∃ k, N k ≤ D (24 * (Y - 2000) + 18) ∧ D (24 * (Y - 2000) + 18) < N (k + 1) ∧
      365.2422 * ((Y : ℚ) - 2000) - 54 ≤ 29.5306 * k ∧ 29.5306 * (k : ℚ) ≤ 365.2422 * ((Y : ℚ) - 2000) ∧
      hsOf A Y = (List.range 16).map (fun i : ℕ => N (k + i)) := by
  have hl := B.low
  have hh := B.high
  have m1 : ((lo : ℤ) : ℚ) ≤ Y := by exact_mod_cast h1
  have m2 : (Y : ℚ) ≤ hi := by exact_mod_cast h2
  have m3 : (-4700 : ℚ) ≤ lo := by exact_mod_cast hl
  have m4 : (hi : ℚ) ≤ 9999 := by exact_mod_cast hh
  have d0 := B.d (24 * (Y - 2000) + 18) (by omega) (by omega)
  unfold hsOf computeHs
  rw [show (0 : ℕ) = 0 from rfl, B.jq_get h1 h2 (i := 0) (by norm_num)]
  simp only [Nat.cast_zero, add_zero]
  generalize D (24 * (Y - 2000) + 18) = d at d0
  push_cast at d0
  obtain ⟨k, b1, b2, e⟩ := B.first d (by linarith [d0.1]) (by linarith [d0.2])
  have hk1 : (-400000 : ℚ) ≤ k := by linarith [d0.1]
  have hk2 : (k : ℚ) ≤ 400000 := by linarith [d0.2]
  -- the days used
  have days : ∀ (j : ℤ) (w : ℚ), 29.5306 * (j : ℚ) - 1.45 ≤ w → w ≤ 29.5306 * (j : ℚ) + 9.45 →
      365.2422 * ((Y : ℚ) - 2000) - 54 ≤ 29.5306 * j → 29.5306 * (j : ℚ) ≤ 365.2422 * ((Y : ℚ) - 2000) →
      (List.range 16).map (fun i : ℕ => A.calcShuo (add w (mul c295306 i))) = (List.range 16).map (fun i : ℕ => N (j + i)) := by
    intro j w w1 w2 r1 r2
    apply List.map_congr_left
    intro i hi
    have hi' : i < 16 := by simpa using hi
    have i1 : (0 : ℚ) ≤ i := by positivity
    have i2 : (i : ℚ) ≤ 15 := by exact_mod_cast (by omega : i ≤ 15)
    have k0 := abs_le.1 c295306_near
    have k1 : 29.5306 * (i : ℚ) - 1 / 10 ^ 9 ≤ c295306 * i ∧ c295306 * i ≤ 29.5306 * (i : ℚ) + 1 / 10 ^ 9 := by
      constructor <;> nlinarith
    have k2 := abs_le.1 (rnd_near (x := c295306 * i) (by rw [abs_le]; constructor <;> linarith [k1.1, k1.2]))
    change -(1 / 10 ^ 9) ≤ mul c295306 i - _ ∧ mul c295306 i - _ ≤ 1 / 10 ^ 9 at k2
    have k3 := abs_le.1 (rnd_near (x := w + mul c295306 i) (by rw [abs_le]; constructor <;> linarith [k1.1, k1.2, k2.1, k2.2]))
    change -(1 / 10 ^ 9) ≤ add w (mul c295306 i) - _ ∧ add w (mul c295306 i) - _ ≤ 1 / 10 ^ 9 at k3
    apply B.shuo
    · push_cast; linarith
    · push_cast; linarith
    · push_cast; linarith [k1.1, k1.2, k2.1, k2.2, k3.1, k3.2]
    · push_cast; linarith [k1.1, k1.2, k2.1, k2.2, k3.1, k3.2]
  have n0 := B.n k (by linarith [d0.1]) (by linarith [d0.2])
  by_cases c : A.calcShuo (d : ℚ) > d
  · rw [if_pos c]
    have e : A.calcShuo (d : ℚ) = N k := by
      rcases e with e | ⟨e1, e2⟩
      · exact e
      · exfalso
        have e3 : ((A.calcShuo d : ℤ) : ℚ) ≤ N k + 2 := by exact_mod_cast (by linarith [(abs_le.1 e2).2] : A.calcShuo d ≤ N k + 2)
        have e4 : (d : ℚ) < A.calcShuo d := by exact_mod_cast c
        linarith [n0.2]
    rw [e] at c ⊢
    have hc0 := abs_le.1 c2953_near
    have n1 := B.n (k - 1) (by push_cast; linarith [d0.1]) (by push_cast; linarith [d0.2])
    have c' : (d : ℚ) + 1 ≤ N k := by exact_mod_cast c
    push_cast at n1
    refine ⟨k - 1, ?_, by simpa using c, ?_, ?_, ?_⟩
    · have : (N (k - 1) : ℚ) < d + 1 := by linarith
      have : N (k - 1) < d + 1 := by exact_mod_cast this
      omega
    · push_cast; linarith [d0.1]
    · push_cast; linarith [d0.2]
    · have s1 := abs_le.1 (rnd_near (x := (N k : ℚ) - c2953) (by rw [abs_le]; constructor <;> linarith [n0.1, n0.2]))
      change -(1 / 10 ^ 9) ≤ sub (N k : ℚ) c2953 - _ ∧ sub (N k : ℚ) c2953 - _ ≤ 1 / 10 ^ 9 at s1
      apply days
      · push_cast; linarith [s1.1, s1.2, n0.1, n0.2]
      · push_cast; linarith [s1.1, s1.2, n0.1, n0.2]
      · push_cast; linarith [d0.1]
      · push_cast; linarith [d0.2]
  · rw [if_neg c]
    have n1 := B.n (k + 1) (by push_cast; linarith [d0.1]) (by push_cast; linarith [d0.2])
    push_cast at n1
    have c' : (N k : ℚ) ≤ d := by
      rcases e with e | ⟨e1, e2⟩
      · rw [e] at c
        exact_mod_cast not_lt.1 c
      · linarith [n0.2]
    have c'' : |((A.calcShuo d : ℤ) : ℚ) - N k| ≤ 2 := by
      rcases e with e | ⟨e1, e2⟩
      · rw [e]; simp
      · exact_mod_cast e2
    have c3 := abs_le.1 c''
    refine ⟨k, by exact_mod_cast c', ?_, by linarith [d0.1], by linarith [d0.2, n0.1], ?_⟩
    · have : (d : ℚ) < N (k + 1) := by linarith
      exact_mod_cast this
    · apply days
      · linarith [n0.1, c3.1]
      · linarith [n0.2, c3.2]
      · linarith [d0.1]
      · linarith [d0.2, n0.1]

/-- the instants of the 31 solar terms of a year -/
theorem Bins.terms (B : Bins A D N T lo hi) {Y : ℤ} (h1 : lo ≤ Y) (h2 : Y ≤ hi) :
    (make A Y).jieQiJulianDays = (List.range 31).map (fun i : ℕ => add (T (24 * (Y - 2000) + 17 + i)) J2000) := by
  have hl := B.low
  have hh := B.high
  have m1 : ((lo : ℤ) : ℚ) ≤ Y := by exact_mod_cast h1
  have m2 : (Y : ℚ) ≤ hi := by exact_mod_cast h2
  have m3 : (-4700 : ℚ) ≤ lo := by exact_mod_cast hl
  have m4 : (hi : ℚ) ≤ 9999 := by exact_mod_cast hh
  show computeTerms A (computeJq A Y) = _
  unfold computeTerms
  apply List.map_congr_left
  intro i hi
  have hi' : i < 31 := by simpa using hi
  simp only
  congr 1
  have k0 := abs_le.1 c15_near
  split_ifs with c1 c2
  · subst c1
    rw [B.jq_get h1 h2 (i := 0) (by norm_num)]
    simp only [Nat.cast_zero, add_zero]
    have d0 := B.d (24 * (Y - 2000) + 18) (by omega) (by omega)
    have t0 := abs_le.1 (B.before Y h1 h2)
    rw [show 24 * (Y - 2000) + 18 - 1 = 24 * (Y - 2000) + 17 by ring] at t0
    generalize D (24 * (Y - 2000) + 18) = d at d0 t0
    push_cast at d0
    have s1 := abs_le.1 (rnd_near (x := (d : ℚ) - c15) (by rw [abs_le]; constructor <;> linarith [d0.1, d0.2]))
    change -(1 / 10 ^ 9) ≤ sub (d : ℚ) c15 - _ ∧ sub (d : ℚ) c15 - _ ≤ 1 / 10 ^ 9 at s1
    apply B.acc _ _ (by omega) (by omega)
    · unfold InBin
      push_cast
      constructor <;> linarith [s1.1, s1.2, d0.1, d0.2]
    · rw [abs_le]
      constructor <;> linarith [s1.1, s1.2, t0.1, t0.2]
  · rw [B.jq_get h1 h2 (i := i - 1) (by omega)]
    have e : 24 * (Y - 2000) + 18 + ((i - 1 : ℕ) : ℤ) = 24 * (Y - 2000) + 17 + i := by omega
    rw [e]
    have d0 := B.d (24 * (Y - 2000) + 17 + i) (by omega) (by omega)
    apply B.acc _ _ (by omega) (by omega)
    · unfold InBin
      constructor <;> linarith [d0.1, d0.2]
    · have := B.td (24 * (Y - 2000) + 17 + i) (by omega) (by omega)
      linarith
  · obtain ⟨j, rfl⟩ : ∃ j, i = 26 + j := ⟨i - 26, by omega⟩
    rw [B.jq_get h1 h2 (i := 25) (by norm_num), show 26 + j - 26 = j by omega]
    have d0 := B.d (24 * (Y - 2000) + 18 + (25 : ℕ)) (by omega) (by omega)
    have t0 := abs_le.1 (B.after Y h1 h2 j (by omega) (by omega))
    rw [show 24 * (Y - 2000) + 18 + 25 + (j : ℤ) = 24 * (Y - 2000) + 17 + ((26 + j : ℕ) : ℤ) by push_cast; ring] at t0
    simp only [Nat.cast_ofNat] at d0 ⊢
    generalize D (24 * (Y - 2000) + 18 + 25) = d at d0 t0
    push_cast at d0
    have i1 : (0 : ℚ) ≤ j := by positivity
    have i2 : (j : ℚ) ≤ 4 := by exact_mod_cast (by omega : j ≤ 4)
    have k1 : 15.2184 * (j : ℚ) - 1 / 10 ^ 9 ≤ c15 * j ∧ c15 * j ≤ 15.2184 * (j : ℚ) + 1 / 10 ^ 9 := by
      constructor <;> nlinarith
    have k2 := abs_le.1 (rnd_near (x := c15 * j) (by rw [abs_le]; constructor <;> linarith [k1.1, k1.2]))
    change -(1 / 10 ^ 9) ≤ mul c15 j - _ ∧ mul c15 j - _ ≤ 1 / 10 ^ 9 at k2
    have k3 := abs_le.1 (rnd_near (x := d + mul c15 j) (by rw [abs_le]; constructor <;> linarith [k1.1, k1.2, k2.1, k2.2, d0.1, d0.2]))
    change -(1 / 10 ^ 9) ≤ add (d : ℚ) (mul c15 j) - _ ∧ add (d : ℚ) (mul c15 j) - _ ≤ 1 / 10 ^ 9 at k3
    apply B.acc _ _ (by omega) (by omega)
    · unfold InBin
      push_cast
      constructor <;> linarith [k1.1, k1.2, k2.1, k2.2, k3.1, k3.2, d0.1, d0.2]
    · rw [abs_le]
      constructor <;> linarith [k1.1, k1.2, k2.1, k2.2, k3.1, k3.2, t0.1, t0.2]

end Ephem
