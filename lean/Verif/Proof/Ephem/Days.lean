import Verif.Proof.Ephem.Astro
import Verif.Proof.Low.Calc
import Verif.Proof.Low.Terms
import Verif.Proof.Low.Moon0
import Verif.Proof.Low.Moon1
import Verif.Proof.Low.Moon2
import Verif.Proof.Low.Moon3
import Verif.Proof.Low.Years

/-! # The days of solar terms and new moons the library finds, from 1584 on -/

namespace Ephem
open F64 LunarYear ShouXing FloatLike Low

/-- the day of term `n`: by the tables of `Proof/Low` up to 1960 -/
def dayT (M : Libm) (n : ℤ) : ℤ := if n ≤ -942 then (termJD (n + 10000).toNat : ℤ) - 2451545 else termDay M n

/-- the day of new moon `k`: by the tables of `Proof/Low` up to 1960 -/
def dayN (M : Libm) (k : ℤ) : ℤ := if k ≤ -495 then (moonJD (k + 5200).toNat : ℤ) - 2451545 else moonDay M k

theorem dayT_high (M : Libm) {n : ℤ} (h : -941 ≤ n) : dayT M n = termDay M n := by
  unfold dayT; rw [if_neg (by omega)]

variable {M : Libm} (hM : M.Good)
include hM

theorem dayT_table {m : ℕ} (h : m ≤ 9106) : dayT M ((m : ℤ) - 10000) = (termJD m : ℤ) - 2451545 := by
  unfold dayT
  split_ifs with c
  · rw [show ((m : ℤ) - 10000 + 10000).toNat = m by omega]
  · exact termHigh_mem hM (by omega) (allFrom_get terms2 (by omega) (by omega))

theorem dayN_table {j : ℕ} (h : j ≤ 4735) : dayN M ((j : ℤ) - 5200) = (moonJD j : ℤ) - 2451545 := by
  unfold dayN
  split_ifs with c
  · rw [show ((j : ℤ) - 5200 + 5200).toNat = j by omega]
  · exact moonHigh_mem hM (by omega) (allFrom_get moons4 (by omega) (by omega))

theorem dayN_high {k : ℤ} (h : -495 ≤ k) : dayN M k = moonDay M k := by
  unfold dayN
  split_ifs with c
  · have e : k = ((4705 : ℕ) : ℤ) - 5200 := by push_cast; omega
    rw [e, moonHigh_mem hM (j := 4705) (by norm_num) (allFrom_get moons4 (by norm_num) (by norm_num))]
    rfl
  · rfl

theorem moon_step {j : ℕ} (h1 : 40 ≤ j) (h2 : j ≤ 4705) :
    ⌊lowM M (j - 5200)⌋ + corrOf (digit4 sbPacked (j + 11880)) = (moonJD j : ℤ) - 2451545 := by
  apply moonStep_mem hM (by omega)
  by_cases c0 : j < 1200
  · exact allFrom_get moons0 h1 (by omega)
  by_cases c1 : j < 2370
  · exact allFrom_get moons1 (by omega) (by omega)
  by_cases c2 : j < 3540
  · exact allFrom_get moons2 (by omega) (by omega)
  · exact allFrom_get moons3 (by omega) (by omega)

theorem term_step {m : ℕ} (h1 : 1516 ≤ m) (h2 : m ≤ 9058) :
    ⌊lowU M (m - 10000)⌋ + corrOf (digit4 qbPacked (m - 1516)) = (termJD m : ℤ) - 2451545 := by
  by_cases c : m < 5200
  · exact termStep_mem hM qiOk0 (by decide +kernel) (by omega) (by omega) (by omega) (allFrom_get terms0 h1 (by omega))
  · exact termStep_mem hM qiOk1 (by decide +kernel) (by omega) (by omega) (by omega) (allFrom_get terms1 (by omega) (by omega))

theorem qi_day {x : ℚ} {n : ℤ} (h1 : -9984 ≤ n) (h2 : n ≤ 200000) (a : 15.218425 * (n : ℚ) - 284.18 ≤ x) (b : x ≤ 15.218425 * (n : ℚ) - 284.17) :
    calcQi M x = dayT M n := by
  by_cases c : -941 ≤ n
  · have n1 : (-941 : ℚ) ≤ n := by exact_mod_cast c
    have n2 : (n : ℚ) ≤ 200000 := by exact_mod_cast h2
    rw [dayT_high M c]
    refine calcQi_high (by linarith) (by linarith) ?_
    unfold InBin
    constructor <;> linarith
  · obtain ⟨m, rfl⟩ : ∃ m : ℕ, n = (m : ℤ) - 10000 := ⟨(n + 10000).toNat, by omega⟩
    push_cast at a b
    rw [dayT_table hM (by omega)]
    by_cases c2 : m < 1516
    · exact calcQi_pair a b c2 (allFrom_get pairs (by omega) (by omega))
    · exact calcQi_low a b (by omega) (by omega) (term_step hM (by omega) (by omega))

omit hM in
theorem corrOf_le (d : ℕ) : -1 ≤ corrOf d ∧ corrOf d ≤ 1 := by
  unfold corrOf
  cases Nat.beq d 1 <;> cases Nat.beq d 2 <;> simp

theorem shuo_low {x : ℚ} (h1 : -152100 ≤ x) (h2 : rnd (x + 2451545) < 2436935) (hx : x ≤ 3900000) :
    ∃ k i : ℤ, -5160 ≤ k ∧ k ≤ -495 ∧ 29.5306 * (k : ℚ) - 0.01 ≤ x + 8 ∧ x + 8 ≤ 29.5306 * ((k : ℚ) + 1) + 0.01 ∧
      29.5306 * (i : ℚ) - 0.01 ≤ x + 504391 ∧ x + 504391 ≤ 29.5306 * ((i : ℚ) + 1) + 0.01 ∧
      |calcShuo M x - dayN M k| ≤ 2 ∧ (i = k + 17080 → calcShuo M x = dayN M k) := by
  have e := abs_le.1 (rnd_near (x := x + 2451545) (by rw [abs_le]; constructor <;> linarith))
  obtain ⟨k, i, h, b1, b2, i1, i2⟩ := calcShuo_low (M := M) (x := x) (by linarith) (by linarith [e.1]) h2
  have k1 : (-5161 : ℚ) < k := by linarith
  have k2 : (k : ℚ) < -494 := by linarith [e.1]
  have i0 : (11000 : ℚ) < i := by linarith
  have k1' : -5161 < k := by exact_mod_cast k1
  have k2' : k < -494 := by exact_mod_cast k2
  have i0' : 11000 < i := by exact_mod_cast i0
  obtain ⟨j, rfl⟩ : ∃ j : ℕ, k = (j : ℤ) - 5200 := ⟨(k + 5200).toNat, by omega⟩
  obtain ⟨I, rfl⟩ : ∃ I : ℕ, i = (I : ℤ) := ⟨i.toNat, by omega⟩
  have s := moon_step hM (j := j) (by omega) (by omega)
  rw [sb_get] at h
  refine ⟨_, _, by omega, by omega, b1, b2, i1, i2, ?_, ?_⟩
  · rw [h, dayN_table hM (by omega), abs_le]
    have c1 := corrOf_le (digit4 sbPacked I)
    have c2 := corrOf_le (digit4 sbPacked (j + 11880))
    omega
  · intro he
    rw [h, dayN_table hM (by omega), show I = j + 11880 by omega]
    exact s

theorem shuo_day {x : ℚ} {k : ℤ} (h1 : -5149 ≤ k) (h2 : k ≤ 100000) (a : 29.5306 * (k : ℚ) - 1.5 ≤ x) (b : x ≤ 29.5306 * (k : ℚ) + 9.5) :
    calcShuo M x = dayN M k := by
  have n1 : (-5149 : ℚ) ≤ k := by exact_mod_cast h1
  have n2 : (k : ℚ) ≤ 100000 := by exact_mod_cast h2
  have e := abs_le.1 (rnd_near (x := x + 2451545) (by rw [abs_le]; constructor <;> linarith))
  by_cases c : rnd (x + 2451545) < 2436935
  · obtain ⟨k', i, k1, k2, b1, b2, i1, i2, -, h⟩ := shuo_low hM (by linarith) c (by linarith)
    have e1 : (k' : ℚ) < k + 1 := by linarith
    have e2 : (k : ℚ) < k' + 1 := by linarith
    have e1' : k' < k + 1 := by exact_mod_cast e1
    have e2' : k < k' + 1 := by exact_mod_cast e2
    obtain rfl : k' = k := by omega
    have e3 : (i : ℚ) < k' + 17081 := by linarith
    have e4 : (k' : ℚ) + 17079 < i := by linarith
    have e3' : i < k' + 17081 := by exact_mod_cast e3
    have e4' : k' + 17079 < i := by exact_mod_cast e4
    exact h (by omega)
  · obtain ⟨k', h, b1, b2⟩ := calcShuo_high (M := M) (x := x) (not_lt.1 c) (by rw [abs_le]; constructor <;> linarith)
    have e1 : (k' : ℚ) < k + 1 := by linarith
    have e2 : (k : ℚ) < k' + 1 := by linarith
    have e1' : k' < k + 1 := by exact_mod_cast e1
    have e2' : k < k' + 1 := by exact_mod_cast e2
    obtain rfl : k' = k := by omega
    have e3 : (-496 : ℚ) < k' := by linarith [e.2, not_lt.1 c]
    have e3' : -496 < k' := by exact_mod_cast e3
    rw [h, dayN_high hM (by omega)]

theorem shuo_first {x : ℚ} (h1 : -152100 ≤ x) (hx : x ≤ 3900000) :
    ∃ k : ℤ, 29.5306 * (k : ℚ) - 0.01 ≤ x + 8 ∧ x + 8 ≤ 29.5306 * ((k : ℚ) + 1) + 0.01 ∧
      (calcShuo M x = dayN M k ∨ 29.5306 * (k : ℚ) + 20 ≤ x ∧ |calcShuo M x - dayN M k| ≤ 2) := by
  have e := abs_le.1 (rnd_near (x := x + 2451545) (by rw [abs_le]; constructor <;> linarith))
  by_cases c : rnd (x + 2451545) < 2436935
  · obtain ⟨k, i, k1, k2, b1, b2, i1, i2, h, h'⟩ := shuo_low hM (by linarith) c (by linarith)
    refine ⟨k, b1, b2, ?_⟩
    by_cases ci : i = k + 17080
    · exact Or.inl (h' ci)
    · refine Or.inr ⟨?_, h⟩
      have e4 : (k : ℚ) + 17079 < i := by linarith
      have e4' : k + 17079 < i := by exact_mod_cast e4
      have e5 : (k : ℚ) + 17081 ≤ i := by exact_mod_cast (by omega : k + 17081 ≤ i)
      linarith
  · obtain ⟨k, h, b1, b2⟩ := calcShuo_high (M := M) (x := x) (not_lt.1 c) (by rw [abs_le]; constructor <;> linarith)
    refine ⟨k, b1, b2, Or.inl ?_⟩
    have e3 : (-496 : ℚ) < k := by linarith [e.2, not_lt.1 c]
    have e3' : -496 < k := by exact_mod_cast e3
    rw [h, dayN_high hM (by omega)]

/-- what is known of term `n` -/
theorem term_facts {n : ℤ} (h1 : 24 * (1584 - 2000) ≤ n) (h2 : n ≤ 24 * (10000 - 2000) + 23) :
    (15.218425 * (n : ℚ) - 290.7 ≤ dayT M n ∧ (dayT M n : ℚ) ≤ 15.218425 * n - 281.5) ∧
    (15.218425 * (n : ℚ) - 290.3 ≤ termAt M n ∧ termAt M n ≤ 15.218425 * n - 281.9) ∧ |termAt M n - dayT M n| ≤ 4 ∧
    |termV M n - (termAt M n + 1 / 2)| ≤ 1 / 10 ^ 9 := by
  by_cases c : 24 * (1961 - 2000) ≤ n
  · have := sun_at hM c h2
    rw [dayT_high M (by omega)]
    exact ⟨this.1, this.2.1, this.2.2.1, this.2.2.2.2⟩
  · obtain ⟨Y, s, hs, hY1, hY2, rfl⟩ : ∃ Y s : ℕ, s < 24 ∧ 1584 ≤ Y ∧ Y ≤ 1960 ∧ n = 24 * ((Y : ℤ) - 2000) + s :=
      ⟨(2000 + n / 24).toNat, (n % 24).toNat, by omega, by omega, by omega, by omega⟩
    have F := inst hM hY1 (by omega)
    have v := F.v s hs
    have u := abs_le.1 (F.near s hs)
    have em : 24 * ((Y : ℤ) - 2000) + s = ((24 * Y + s - 38000 : ℕ) : ℤ) - 10000 := by omega
    have d := allFrom_get termNears (x := 24 * Y + s - 38000) (by omega) (by omega)
    have ed : dayT M (24 * ((Y : ℤ) - 2000) + s) = (termJD (24 * Y + s - 38000) : ℤ) - 2451545 := by
      rw [em, dayT_table hM (by omega)]
    have eq : ((24 * ((Y : ℤ) - 2000) + s : ℤ) : ℚ) = ((24 * Y + s - 38000 : ℕ) : ℚ) - 10000 := by rw [em]; push_cast; ring
    unfold termNear at d
    simp only [Aff0.forceN_eq, Bool.and_eq_true, Nat.ble_eq, Nat.add_eq, Nat.mul_eq] at d
    have d1 : ((termJD (24 * Y + s - 38000) * 1000000 : ℕ) : ℚ) ≤ ((15218425 * (24 * Y + s - 38000) + 2299079250000 : ℕ) : ℚ) := by exact_mod_cast d.1
    have d2 : ((15218425 * (24 * Y + s - 38000) + 2299070050000 : ℕ) : ℚ) ≤ ((termJD (24 * Y + s - 38000) * 1000000 : ℕ) : ℚ) := by exact_mod_cast d.2
    have mb : 1 ≤ 24 * Y + s - 38000 ∧ 24 * Y + s - 38000 ≤ 10000 := by omega
    have m1 : (1 : ℚ) ≤ ((24 * Y + s - 38000 : ℕ) : ℚ) := by exact_mod_cast mb.1
    have m2 : ((24 * Y + s - 38000 : ℕ) : ℚ) ≤ 10000 := by exact_mod_cast mb.2
    rw [eq] at v
    rw [ed, eq]
    generalize 24 * ((Y : ℤ) - 2000) + s = n at *
    generalize 24 * Y + s - 38000 = m at *
    push_cast at d1 d2 ⊢
    have w := termAt_near (M := M) (n := n) (by rw [abs_le]; constructor <;> linarith [v.1, v.2])
    have w' := abs_le.1 w
    refine ⟨⟨by linarith, by linarith⟩, ⟨by linarith [w'.1, w'.2, v.1, v.2], by linarith [w'.1, w'.2, v.1, v.2]⟩, ?_, w⟩
    rw [abs_le]
    constructor <;> linarith [w'.1, w'.2, u.1, u.2]

theorem moon_facts {k : ℤ} (h1 : -5160 ≤ k) (h2 : k ≤ 99000) :
    29.5306 * (k : ℚ) + 0.6 ≤ dayN M k ∧ (dayN M k : ℚ) ≤ 29.5306 * k + 7.4 := by
  by_cases c : -495 ≤ k
  · rw [dayN_high hM c]
    exact moon_at hM (by omega) h2
  · obtain ⟨j, rfl⟩ : ∃ j : ℕ, k = (j : ℤ) - 5200 := ⟨(k + 5200).toNat, by omega⟩
    have d := allFrom_get moonNears (x := j) (by omega) (by omega)
    unfold moonNear at d
    simp only [Aff0.forceN_eq, Bool.and_eq_true, Nat.ble_eq, Nat.add_eq, Nat.mul_eq] at d
    have d1 : ((moonJD j * 10000 : ℕ) : ℚ) ≤ ((295306 * j + 22979932800 : ℕ) : ℚ) := by exact_mod_cast d.1
    have d2 : ((295306 * j + 22979864800 : ℕ) : ℚ) ≤ ((moonJD j * 10000 : ℕ) : ℚ) := by exact_mod_cast d.2
    rw [dayN_table hM (by omega)]
    push_cast at d1 d2 ⊢
    constructor <;> linarith

/-- the astronomical functions of the library find these terms and new moons -/
theorem bins : Bins (astro M) (dayT M) (dayN M) (termAt M) 1584 9998 where
  low := by norm_num
  high := by norm_num
  qi x n h1 h2 a b := qi_day hM (by omega) (by omega) a b
  shuo x k h1 h2 a b := by
    push_cast at h1 h2
    have k1 : (-5149 : ℚ) ≤ k := by linarith
    have k2 : (k : ℚ) ≤ 100000 := by linarith
    exact shuo_day hM (by exact_mod_cast k1) (by exact_mod_cast k2) a b
  first x h1 h2 := by
    push_cast at h1 h2
    exact shuo_first hM (by linarith) (by linarith)
  acc x n h1 h2 hb ht := by
    have n1 : (24 * (1584 - 2000) + 17 : ℚ) ≤ n := by exact_mod_cast h1
    have n2 : (n : ℚ) ≤ 24 * (9998 - 2000) + 48 := by exact_mod_cast h2
    have hb' := hb
    unfold InBin at hb'
    exact qiAccurate2_eq (by rw [abs_le]; constructor <;> linarith [hb'.1, hb'.2]) hb ht
  d n h1 h2 := (term_facts hM (by omega) (by omega)).1
  t n h1 h2 := (term_facts hM (by omega) (by omega)).2.1
  td n h1 h2 := (term_facts hM (by omega) (by omega)).2.2.1
  before Y h1 h2 := by
    obtain ⟨Y, rfl⟩ : ∃ Z : ℕ, Y = Z := ⟨Y.toNat, by omega⟩
    have b' := abs_le.1 (term_facts hM (n := 24 * (Y - 2000) + 17) (by omega) (by omega)).2.2.2
    rw [show 24 * ((Y : ℤ) - 2000) + 18 - 1 = 24 * (Y - 2000) + 17 by ring, abs_le]
    by_cases c : 1961 ≤ Y
    · have F := abs_le.1 (High.sun_facts hM (Y := Y) c (by omega)).before
      obtain ⟨-, -, -, ⟨a1, a2⟩, -⟩ := sun_at hM (n := 24 * (Y - 2000) + 18) (by omega) (by omega)
      rw [dayT_high M (by omega)]
      constructor <;> linarith [F.1, F.2, b'.1, b'.2]
    · have F := abs_le.1 (inst hM (Y := Y) (by omega) (by omega)).before
      have ed : dayT M (24 * ((Y : ℤ) - 2000) + 18) = (termJD (24 * Y + 18 - 38000) : ℤ) - 2451545 := by
        rw [show 24 * ((Y : ℤ) - 2000) + 18 = ((24 * Y + 18 - 38000 : ℕ) : ℤ) - 10000 by omega, dayT_table hM (by omega)]
      rw [ed]
      generalize 24 * Y + 18 - 38000 = m at F
      push_cast
      constructor <;> linarith [F.1, F.2, b'.1, b'.2]
  after Y h1 h2 j j1 j2 := by
    obtain ⟨Y, rfl⟩ : ∃ Z : ℕ, Y = Z := ⟨Y.toNat, by omega⟩
    have b' := abs_le.1 (term_facts hM (n := 24 * ((Y : ℤ) - 2000) + 18 + 25 + j) (by omega) (by omega)).2.2.2
    rw [abs_le]
    by_cases c : 1960 ≤ Y
    · have F := abs_le.1 ((High.sun_facts hM (Y := Y + 1) (by omega) (by omega)).after j j1 j2)
      rw [show 24 * (((Y + 1 : ℕ) : ℤ) - 2000) + ((19 + j : ℕ) : ℤ) = 24 * ((Y : ℤ) - 2000) + 18 + 25 + j by push_cast; ring,
        show 24 * (((Y + 1 : ℕ) : ℤ) - 2000) + 19 = 24 * ((Y : ℤ) - 2000) + 18 + 25 by push_cast; ring] at F
      obtain ⟨-, -, -, ⟨a1, a2⟩, -⟩ := sun_at hM (n := 24 * ((Y : ℤ) - 2000) + 18 + 25) (by omega) (by omega)
      rw [dayT_high M (by omega)]
      constructor <;> linarith [F.1, F.2, b'.1, b'.2]
    · have F := abs_le.1 ((inst hM (Y := Y + 1) (by omega) (by omega)).after j j1 j2)
      rw [show 24 * (((Y + 1 : ℕ) : ℤ) - 2000) + ((19 + j : ℕ) : ℤ) = 24 * ((Y : ℤ) - 2000) + 18 + 25 + j by push_cast; ring] at F
      have ed : dayT M (24 * ((Y : ℤ) - 2000) + 18 + 25) = (termJD (24 * (Y + 1) + 19 - 38000) : ℤ) - 2451545 := by
        rw [show 24 * ((Y : ℤ) - 2000) + 18 + 25 = ((24 * (Y + 1) + 19 - 38000 : ℕ) : ℤ) - 10000 by omega, dayT_table hM (by omega)]
      rw [ed]
      generalize 24 * (Y + 1) + 19 - 38000 = m at F
      push_cast
      constructor <;> linarith [F.1, F.2, b'.1, b'.2]
  n k h1 h2 := by
    push_cast at h1 h2
    have k1 : (-5160 : ℚ) ≤ k := by linarith
    have k2 : (k : ℚ) ≤ 99000 := by linarith
    exact moon_facts hM (by exact_mod_cast k1) (by exact_mod_cast k2)

end Ephem
