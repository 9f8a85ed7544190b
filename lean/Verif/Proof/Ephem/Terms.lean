import Verif.Proof.Ephem.Keys

/-! # The tables of solar terms -/

/-- the first of January, about -/
theorem jan1 {Y : ℤ} (h1 : 1583 ≤ Y) (h2 : Y ≤ 10010) : 365.2422 * ((Y : ℚ) - 2000) - 1 ≤ (JD.jdn ⟨Y, 1, 1⟩ : ℚ) - 2451545 ∧
    (JD.jdn ⟨Y, 1, 1⟩ : ℚ) - 2451545 ≤ 365.2422 * ((Y : ℚ) - 2000) + 4 := by
  obtain ⟨q, t, r, ht, hr, rfl⟩ : ∃ q t r : ℕ, t < 4 ∧ r < 100 ∧ Y = 400 * q + 100 * t + r + 1 :=
    ⟨((Y - 1) / 400).toNat, ((Y - 1) % 400 / 100).toNat, ((Y - 1) % 100).toNat, by omega, by omega, by omega⟩
  have e1 : ((400 * (q : ℤ) + 100 * t + r + 1) - 1) / 100 = 4 * q + t := by omega
  have e2 : (4 * (q : ℤ) + t) / 4 = q := by omega
  have e3 : 1461 * (400 * (q : ℤ) + 100 * t + r + 1 - 1 + 4716) / 4 = 365 * (400 * (q : ℤ) + 100 * t + r) + (100 * q + 25 * t + r / 4) + 1722519 := by omega
  have key : JD.jdn ⟨400 * (q : ℤ) + 100 * t + r + 1, 1, 1⟩ =
      365 * (400 * (q : ℤ) + 100 * t + r) + (100 * q + 25 * t + r / 4) + 1722519 + 428 + 1 + (2 - (4 * q + t) + q) - 1524 := by
    unfold JD.jdn JD.corr JD.my JD.mm
    simp only
    rw [if_pos (by omega), if_pos (by omega), if_pos (by omega), e1, e2, e3]
    norm_num
  rw [key]
  have a : (3652422 * ((400 * (q : ℤ) + 100 * t + r + 1) - 2000) - 10000 : ℤ) ≤
      10000 * (365 * (400 * (q : ℤ) + 100 * t + r) + (100 * q + 25 * t + r / 4) + 1722519 + 428 + 1 + (2 - (4 * q + t) + q) - 1524 - 2451545) := by omega
  have b : 10000 * (365 * (400 * (q : ℤ) + 100 * t + r) + (100 * q + 25 * t + r / 4) + 1722519 + 428 + 1 + (2 - (4 * q + t) + q) - 1524 - 2451545) ≤
      3652422 * ((400 * (q : ℤ) + 100 * t + r + 1) - 2000) + 40000 := by omega
  generalize (r : ℤ) / 4 = w at a b
  have a' : ((3652422 * ((400 * (q : ℤ) + 100 * t + r + 1) - 2000) - 10000 : ℤ) : ℚ) ≤
      ((10000 * (365 * (400 * (q : ℤ) + 100 * t + r) + (100 * q + 25 * t + w) + 1722519 + 428 + 1 + (2 - (4 * q + t) + q) - 1524 - 2451545) : ℤ) : ℚ) := by
    exact_mod_cast a
  have b' : ((10000 * (365 * (400 * (q : ℤ) + 100 * t + r) + (100 * q + 25 * t + w) + 1722519 + 428 + 1 + (2 - (4 * q + t) + q) - 1524 - 2451545) : ℤ) : ℚ) ≤
      ((3652422 * ((400 * (q : ℤ) + 100 * t + r + 1) - 2000) + 40000 : ℤ) : ℚ) := by
    exact_mod_cast b
  push_cast at a' b' ⊢
  constructor <;> linarith

namespace Ephem
open F64 LunarYear LunarCal Spec

theorem firstOf_valid (m : ℤ) : (High.firstOf m).Valid := by
  unfold High.firstOf Date.Valid lastDay
  simp only
  refine ⟨by omega, by omega, le_rfl, ?_, by omega⟩
  split_ifs <;> norm_num

/-- a day of a month that is not its last -/
theorem same_month {x x' : Date} {m : ℤ} (hx : x.Valid) (hx' : x'.Valid) (hy : 1583 ≤ x.y) (h1 : JD.jdn (High.firstOf m) ≤ JD.jdn x)
    (h2 : JD.jdn x' = JD.jdn x + 1) (h3 : JD.jdn x' < JD.jdn (High.firstOf (m + 1))) : x' = ⟨x.y, x.m, x.d + 1⟩ := by
  have v := firstOf_valid m
  have v' := firstOf_valid (m + 1)
  have a : ¬ Cal.DateLt x (High.firstOf m) := by
    rw [← JD.jdn_lt_iff hx v]; omega
  have b := (JD.jdn_lt_iff hx' v').1 h3
  have c := (JD.jdn_lt_iff hx hx').1 (by omega)
  unfold High.firstOf at a b
  unfold Cal.DateLt at a b c
  simp only at a b
  obtain ⟨m1, m2, d1, -, -⟩ := hx
  obtain ⟨m1', m2', d1', -, -⟩ := hx'
  have ey : x'.y = x.y := by omega
  have em : x'.m = x.m := by omega
  unfold JD.jdn JD.corr JD.my JD.mm at h2
  rw [ey, em] at h2
  have g1 : x.y * 372 + x.m * 31 + x'.d ≥ 588829 := by omega
  have g2 : x.y * 372 + x.m * 31 + x.d ≥ 588829 := by omega
  rw [if_pos g1, if_pos g2] at h2
  obtain ⟨y', mo', d'⟩ := x'
  simp only at ey em h2
  subst ey em
  congr 1
  omega

theorem mapM_ok {α β : Type} {f : α → Except PyErr β} {g : ℕ → α} {S : ℕ → β} (l : List ℕ) (h : ∀ i ∈ l, f (g i) = .ok (S i)) :
    (l.map g).mapM f = .ok (l.map S) := by
  induction l with
  | nil => rfl
  | cons a l ih =>
    rw [List.map_cons, List.mapM_cons, h a (by simp), ih (fun i hi => h i (by simp [hi]))]
    rfl

variable {A : Astro} {D N : ℤ → ℤ} {T : ℤ → ℚ} {lo hi : ℤ} (B : Full A D N T lo hi)
include B

theorem term_range {n : ℤ} (h1 : 24 * (lo - 2000) + 17 ≤ n) (h2 : n ≤ 24 * (hi - 2000) + 47) :
    (-152600 : ℚ) ≤ T n ∧ T n ≤ 2922000 := by
  have t := B.t n h1 (by omega)
  have l0 := B.late
  have l1 := B.four
  have l2 : 24 * (1583 - 2000) + 17 ≤ n := by omega
  have l3 : n ≤ 24 * (9998 - 2000) + 47 := by omega
  have l2' : (24 * (1583 - 2000) + 17 : ℚ) ≤ n := by exact_mod_cast l2
  have l3' : (n : ℚ) ≤ 24 * (9998 - 2000) + 47 := by exact_mod_cast l3
  constructor <;> linarith [t.1, t.2]

/-- the moment of term `n` as the library makes it from the Julian day -/
theorem term_exists {n : ℤ} (h1 : 24 * (lo - 2000) + 17 ≤ n) (h2 : n ≤ 24 * (hi - 2000) + 47) :
    ∃ s : Solar, Solar.fromJulianDay (add (T n) J2000) = .ok s ∧ s.Valid ∧
      |(Cal.secNo s : ℚ) + 86400 * 1721057 - 86400 * (T n + 1 / 2 + 2451545)| ≤ 1 := by
  obtain ⟨t1, t2⟩ := term_range B h1 h2
  obtain ⟨m, m1, m2⟩ := B.month n h1 h2
  have hJ : ((J2000 : ℤ) : ℚ) = 2451545 := by norm_num [J2000]
  have r1 : -(1 / 10 ^ 9) ≤ add (T n) J2000 - (T n + 2451545) ∧ add (T n) J2000 - (T n + 2451545) ≤ 1 / 10 ^ 9 := by
    have := abs_le.1 (rnd_near (x := T n + 2451545) (by rw [abs_le]; constructor <;> linarith))
    unfold add
    rwa [hJ]
  have r2 := abs_le.1 (rnd_near (x := add (T n) J2000 + 1 / 2) (by rw [abs_le]; constructor <;> linarith [r1.1, r1.2]))
  change -(1 / 10 ^ 9) ≤ add (add (T n) J2000) (1 / 2) - _ ∧ add (add (T n) J2000) (1 / 2) - _ ≤ 1 / 10 ^ 9 at r2
  have f1 := Int.floor_le (add (add (T n) J2000) (1 / 2))
  have f2 := Int.lt_floor_add_one (add (add (T n) J2000) (1 / 2))
  have hd0 : 2298000 ≤ ⌊add (add (T n) J2000) (1 / 2)⌋ := Int.le_floor.2 (by push_cast; linarith [r1.1, r2.1])
  have hd1 : ⌊add (add (T n) J2000) (1 / 2)⌋ ≤ 5400000 := by
    have : ((⌊add (add (T n) J2000) (1 / 2)⌋ : ℤ) : ℚ) < 5400000 := by linarith [r1.2, r2.2]
    have : ⌊add (add (T n) J2000) (1 / 2)⌋ < 5400000 := by exact_mod_cast this
    omega
  obtain ⟨x, hx, hd⟩ := JD.exists_date ⌊add (add (T n) J2000) (1 / 2)⌋ (by omega)
  obtain ⟨R, R0, R1, R2, e⟩ := JD.fromJulianDay_desc hx (jd := add (T n) J2000) (by linarith [r1.1]) hd.symm (by omega)
  rw [← hd] at f1 f2 hd0
  generalize add (add (T n) J2000) (1 / 2) = v at *
  have hy : 1583 ≤ x.y := year_ge_of_jdn hx (by
    have : JD.jdn ⟨1583, 1, 1⟩ = 2299239 := by decide
    have : (2299239 : ℚ) ≤ v := by
      have t := (B.t n h1 (by omega)).1
      have l0 := B.late
      have l2 : 24 * (1584 - 2000) + 17 ≤ n := by omega
      have l2' : (24 * (1584 - 2000) + 17 : ℚ) ≤ n := by exact_mod_cast l2
      linarith [r1.1, r2.1]
    have : (2299238 : ℚ) < JD.jdn x := by linarith
    have : (2299238 : ℤ) < JD.jdn x := by exact_mod_cast this
    omega)
  have R2' := abs_le.1 R2
  rcases (by omega : R < 86400 ∨ R = 86400) with c | rfl
  · rw [show R / 86400 = 0 by omega, add_zero] at e
    have ck : ClockOk (R % 86400 / 3600) (R % 3600 / 60) (R % 60) := by unfold ClockOk; omega
    rw [Cal.fromYmdHms_ok hx ck] at e
    refine ⟨_, e, ⟨hx, ck⟩, ?_⟩
    have es : Cal.secNo ⟨x.y, x.m, x.d, R % 86400 / 3600, R % 3600 / 60, R % 60⟩ = 86400 * (JD.jdn x - 1721057) + R := by
      rw [JD.jdn_eq hx]
      show 86400 * Cal.dn x + (R % 86400 / 3600 * 3600 + R % 3600 / 60 * 60 + R % 60) = _
      omega
    rw [es, abs_le]
    push_cast
    constructor <;> linarith [R2'.1, R2'.2, r1.1, r1.2, r2.1, r2.2]
  · norm_num at e
    obtain ⟨x', hx', hd'⟩ := JD.exists_date (JD.jdn x + 1) (by omega)
    push_cast at R2'
    have q := same_month (m := m) hx hx' hy (by
        have : (JD.jdn (High.firstOf m) : ℚ) < JD.jdn x + 1 := by linarith [r1.1, r2.1]
        have : JD.jdn (High.firstOf m) < JD.jdn x + 1 := by exact_mod_cast this
        omega) hd' (by
        rw [hd']
        have : (JD.jdn x : ℚ) + 1 < JD.jdn (High.firstOf (m + 1)) := by linarith [r1.2, r2.2, R2'.1]
        exact_mod_cast this)
    have ck : ClockOk 0 0 0 := by decide
    rw [q] at hx' hd'
    rw [Cal.fromYmdHms_ok hx' ck] at e
    refine ⟨_, e, ⟨hx', ck⟩, ?_⟩
    have es : Cal.secNo ⟨x.y, x.m, x.d + 1, 0, 0, 0⟩ = 86400 * (JD.jdn x + 1 - 1721057) := by
      rw [← hd', JD.jdn_eq hx']
      unfold Cal.secNo Solar.date
      simp only
      omega
    rw [es, abs_le]
    push_cast
    constructor <;> linarith [R2'.1, R2'.2, r1.1, r1.2, r2.1, r2.2]

end Ephem
