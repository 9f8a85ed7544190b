import Verif.Proof.High.Check
import Verif.Proof.FromJulianDay2

/-! # Lines through the instants of solar terms and new moons -/

open Aff0 ShouXing FloatLike Spec

/-- the instant of solar term `n` whose day is `termDay`, plus half a day -/
def termU (M : Libm) (n : ℤ) : ℚ := (qiHigh (qiArg (int n)) + lit 5 1 : Fl M).v

/-- `termAt` plus half a day -/
def termV (M : Libm) (n : ℤ) : ℚ := (qiAccurate (int n * (PI / int 12)) + lit 5 1 : Fl M).v

/-- the instant of new moon `k`, plus half a day -/
def moonU (M : Libm) (k : ℤ) : ℚ := (shuoHigh (shuoArg (int k)) + lit 5 1 : Fl M).v

theorem termDay_eq (M : Libm) (n : ℤ) : termDay M n = ⌊termU M n⌋ := by rw [termDay, Block.add_half]; rfl
theorem termV_eq (M : Libm) (n : ℤ) : termV M n = F64.add (termAt M n) (1 / 2) := by rw [termAt, Block.add_half]; rfl
theorem moonDay_eq (M : Libm) (k : ℤ) : moonDay M k = ⌊moonU M k⌋ := by rw [moonDay, Block.add_half]; rfl

namespace High

/-- row `w` of years, as the entry of a block of years about `2000 + c` -/
def rowAt (c : ℤ) (w : Row) : ℤ × ℤ × ℕ := (Int.ofNat w.a + Int.ofNat w.b * (c + 2000) - 2451545000000, Int.ofNat w.b, w.r)

/-- what is known of the terms `24 (Y - 2000) + s` of the years `Y1 .. Y2` -/
def SunRow (M : Libm) (s : ℤ) (w : Row) (Y1 Y2 : ℕ) : Prop := ∀ Y : ℕ, Y1 ≤ Y → Y ≤ Y2 →
  w.Bd Y (termU M (24 * (Y - 2000) + s)) ∧ w.Bd Y (termV M (24 * (Y - 2000) + s))

/-- what is known of the new moons `K - 1000` -/
def MoonRow (M : Libm) (w : Row) (K1 K2 : ℕ) : Prop := ∀ K : ℕ, K1 ≤ K → K ≤ K2 → w.Bd K (moonU M (K - 1000))

theorem sunRow {M : Libm} (hM : M.Good) {c : ℤ} {h θ : ℕ} {rows : List Row} (H : Block.sunBlockOk c h θ 0 (rows.map (rowAt c)) = true)
    {i : ℕ} {w : Row} (hi : rows[i]? = some w) {Y1 Y2 : ℕ} (h1 : c + 2000 - h ≤ Y1) (h2 : (Y2 : ℤ) ≤ c + 2000 + h)
    (hb : Y2 ≤ 20000 ∧ i ≤ 24) : SunRow M i w Y1 Y2 := by
  intro Y hY1 hY2
  have e1 : (rows.map (rowAt c))[i]? = some (rowAt c w) := by rw [List.getElem?_map, hi]; rfl
  have e2 := Block.sunBlockOk_get H (A := (rowAt c w).1) (B := (rowAt c w).2.1) (R := (rowAt c w).2.2) e1
  have e3 := Block.sun_mem hM (y := (Y : ℤ) - 2000) (by rw [abs_le]; constructor <;> omega)
    (by rw [abs_le]; constructor <;> omega) e2
  have e4 : (0 : ℤ) + i + 24 * ((Y : ℤ) - 2000) = 24 * (Y - 2000) + i := by ring
  rw [e4] at e3
  have key : ∀ u : ℚ, |u * 1000000 - (((rowAt c w).1 : ℤ) + ((rowAt c w).2.1 : ℤ) * ((((Y : ℤ) - 2000 : ℤ) : ℚ) - c))| ≤ ((rowAt c w).2.2 : ℕ) →
      w.Bd Y u := by
    intro u hu
    unfold Row.Bd
    simp only [rowAt, Int.ofNat_eq_natCast] at hu
    push_cast at hu
    refine le_trans (le_of_eq ?_) hu
    congr 1
    ring
  exact ⟨key _ e3.1, key _ e3.2⟩

/-- row `w` of months, as a block about month `c` -/
def moonAt (c : ℤ) (w : Row) : ℤ := Int.ofNat w.a + Int.ofNat w.b * (c + 1000) - 2451545000000

theorem moonRow {M : Libm} (hM : M.Good) {c tc : ℤ} {h th : ℕ} {w : Row}
    (H : Block.moonOk c h tc th (moonAt c w) (Int.ofNat w.b) w.r = true) {K1 K2 : ℕ} (h1 : c + 1000 - h ≤ K1)
    (h2 : (K2 : ℤ) ≤ c + 1000 + h) (hb : K2 ≤ 200000) : MoonRow M w K1 K2 := by
  intro K hK1 hK2
  have e3 := Block.moon_mem hM (k := (K : ℤ) - 1000) (by rw [abs_le]; constructor <;> omega)
    (by rw [abs_le]; constructor <;> omega) H
  simp only [moonAt, Int.ofNat_eq_natCast] at e3
  push_cast at e3
  unfold Row.Bd
  refine le_trans (le_of_eq ?_) e3
  unfold moonU
  congr 1
  ring

/-! ## Linear bounds -/

theorem lin_nonneg {α β x1 x2 x : ℤ} (h1 : 0 ≤ α + β * x1) (h2 : 0 ≤ α + β * x2) (h3 : x1 ≤ x) (h4 : x ≤ x2) : 0 ≤ α + β * x := by
  rcases le_total 0 β with h | h
  · have := mul_le_mul_of_nonneg_left h3 h; linarith
  · have := mul_le_mul_of_nonpos_left h4 h; linarith

/-- the row is above the line `α + β x`, at both ends -/
def above (w : Row) (Y1 Y2 : ℕ) (α β : ℤ) : Bool :=
  decide (0 ≤ Int.ofNat w.a - Int.ofNat w.r - α + (Int.ofNat w.b - β) * Int.ofNat Y1) &&
  decide (0 ≤ Int.ofNat w.a - Int.ofNat w.r - α + (Int.ofNat w.b - β) * Int.ofNat Y2)

/-- the row is below the line `α + β x`, at both ends -/
def below (w : Row) (Y1 Y2 : ℕ) (α β : ℤ) : Bool :=
  decide (0 ≤ α - Int.ofNat w.a - Int.ofNat w.r + (β - Int.ofNat w.b) * Int.ofNat Y1) &&
  decide (0 ≤ α - Int.ofNat w.a - Int.ofNat w.r + (β - Int.ofNat w.b) * Int.ofNat Y2)

theorem above_mem {w : Row} {Y1 Y2 Y : ℕ} {α β : ℤ} (H : above w Y1 Y2 α β = true) (h1 : Y1 ≤ Y) (h2 : Y ≤ Y2) {u : ℚ}
    (hu : w.Bd Y u) : (α : ℚ) + β * Y ≤ (u + 2451545) * 1000000 := by
  simp only [above, Int.ofNat_eq_natCast, Bool.and_eq_true, decide_eq_true_eq] at H
  have h3 := lin_nonneg H.1 H.2 (Int.ofNat_le.2 h1) (Int.ofNat_le.2 h2)
  have h4 : (0 : ℚ) ≤ (w.a : ℚ) - w.r - α + (w.b - β) * Y := by exact_mod_cast h3
  have := (abs_le.1 hu).1
  linarith

theorem below_mem {w : Row} {Y1 Y2 Y : ℕ} {α β : ℤ} (H : below w Y1 Y2 α β = true) (h1 : Y1 ≤ Y) (h2 : Y ≤ Y2) {u : ℚ}
    (hu : w.Bd Y u) : (u + 2451545) * 1000000 ≤ (α : ℚ) + β * Y := by
  simp only [below, Int.ofNat_eq_natCast, Bool.and_eq_true, decide_eq_true_eq] at H
  have h3 := lin_nonneg H.1 H.2 (Int.ofNat_le.2 h1) (Int.ofNat_le.2 h2)
  have h4 : (0 : ℚ) ≤ (α : ℚ) - w.a - w.r + (β - w.b) * Y := by exact_mod_cast h3
  have := (abs_le.1 hu).2
  linarith

/-- the terms of the row are 281.5 to 289.7 days before `15.218425 n` -/
def crude (w : Row) (s : ℤ) (Y1 Y2 : ℕ) : Bool :=
  above w Y1 Y2 (2451545000000 - 289700000 + 15218425 * (s - 48000)) 365242200 &&
  below w Y1 Y2 (2451545000000 - 281500000 + 15218425 * (s - 48000)) 365242200

theorem crude_mem {w : Row} {s : ℤ} {Y1 Y2 Y : ℕ} (H : crude w s Y1 Y2 = true) (h1 : Y1 ≤ Y) (h2 : Y ≤ Y2) {u : ℚ}
    (hu : w.Bd Y u) : 15218425 * ((24 * ((Y : ℤ) - 2000) + s : ℤ) : ℚ) - 289700000 ≤ u * 1000000 ∧
      u * 1000000 ≤ 15218425 * ((24 * ((Y : ℤ) - 2000) + s : ℤ) : ℚ) - 281500000 := by
  unfold crude at H
  rw [Bool.and_eq_true] at H
  have a := above_mem H.1 h1 h2 hu
  have b := below_mem H.2 h1 h2 hu
  push_cast at a b ⊢
  constructor <;> linarith

/-- the new moons are 1.6 to 7.4 days after `29.5306 k` -/
def crudeMoon (w : Row) (K1 K2 : ℕ) : Bool :=
  above w K1 K2 (2451545000000 + 1600000 - 29530600000) 29530600 && below w K1 K2 (2451545000000 + 7400000 - 29530600000) 29530600

theorem crudeMoon_mem {w : Row} {K1 K2 K : ℕ} (H : crudeMoon w K1 K2 = true) (h1 : K1 ≤ K) (h2 : K ≤ K2) {u : ℚ}
    (hu : w.Bd K u) : 29530600 * (((K : ℤ) - 1000 : ℤ) : ℚ) + 1600000 ≤ u * 1000000 ∧
      u * 1000000 ≤ 29530600 * (((K : ℤ) - 1000 : ℤ) : ℚ) + 7400000 := by
  unfold crudeMoon at H
  rw [Bool.and_eq_true] at H
  have a := above_mem H.1 h1 h2 hu
  have b := below_mem H.2 h1 h2 hu
  push_cast at a b ⊢
  constructor <;> linarith

/-- the terms of the rows are `j` times 15.2184 days apart, give or take 2.3 days -/
def pairOk (w w' : Row) (j : ℤ) (Y1 Y2 : ℕ) : Bool :=
  below w' Y1 Y2 (Int.ofNat w.a - Int.ofNat w.r + 15218400 * j + 2300000) (Int.ofNat w.b) &&
  above w' Y1 Y2 (Int.ofNat w.a + Int.ofNat w.r + 15218400 * j - 2300000) (Int.ofNat w.b)

theorem pairOk_mem {w w' : Row} {j : ℤ} {Y1 Y2 Y : ℕ} (H : pairOk w w' j Y1 Y2 = true) (h1 : Y1 ≤ Y) (h2 : Y ≤ Y2) {u u' : ℚ}
    (hu : w.Bd Y u) (hu' : w'.Bd Y u') : |u' - u - 15.2184 * j| ≤ 2.3 := by
  unfold pairOk at H
  rw [Bool.and_eq_true] at H
  have a := below_mem H.1 h1 h2 hu'
  have b := above_mem H.2 h1 h2 hu'
  have c := abs_le.1 hu
  simp only [Int.ofNat_eq_natCast] at a b
  push_cast at a b
  rw [abs_le]
  constructor <;> linarith [c.1, c.2]

/-! ## Months of the solar calendar

A term in the last half second of a month would be rounded to a day that does not exist. -/

/-- the first day of month `m`, counted from January of year 0 -/
def firstOf (m : ℤ) : Date := ⟨m / 12, m % 12 + 1, 1⟩

/-- the Julian day number of the first day of month `i` of the solar year beginning in March, less that of 1 March, plus 28:
0 is February of the same year (at most), 13 is March of the next (at least) -/
def monthOff : List ℕ := [0, 28, 59, 89, 120, 150, 181, 212, 242, 273, 303, 334, 365, 393]

/-- the Julian day number of 1 March of year `Y`, less 28 -/
def march (Y : ℕ) : ℕ := 365 * Y + Y / 4 + Y / 400 + 1721092 - Y / 100

theorem march_eq (Y : ℕ) : ∃ q t r : ℕ, t < 4 ∧ r < 100 ∧ Y = 400 * q + 100 * t + r ∧ march Y = 146097 * q + 36524 * t + 365 * r + r / 4 + 1721092 := by
  obtain ⟨q, t, r, ht, hr, rfl⟩ : ∃ q t r : ℕ, t < 4 ∧ r < 100 ∧ Y = 400 * q + 100 * t + r :=
    ⟨Y / 400, Y % 400 / 100, Y % 100, by omega, by omega, by omega⟩
  refine ⟨q, t, r, ht, hr, rfl, ?_⟩
  unfold march
  have h1 : (400 * q + 100 * t + r) / 4 = 100 * q + 25 * t + r / 4 := by omega
  have h2 : (400 * q + 100 * t + r) / 400 = q := by omega
  have h3 : (400 * q + 100 * t + r) / 100 = 4 * q + t := by omega
  rw [h1, h2, h3]
  omega

theorem march_lo {Y i : ℕ} (hY : 1583 ≤ Y) (hi : i ≤ 12) : JD.jdn (firstOf (12 * Y + i + 1)) ≤ march Y + monthOff.getD i 0 := by
  obtain ⟨q, t, r, ht, hr, e, hm⟩ := march_eq Y
  rw [hm]
  clear hm
  unfold monthOff firstOf JD.jdn JD.corr JD.my JD.mm
  obtain rfl | h : i = 0 ∨ 1 ≤ i := by omega
  · simp only [List.getD_cons_zero]
    obtain rfl | h : r = 0 ∨ 1 ≤ r := by omega
    · obtain rfl | h : t = 0 ∨ 1 ≤ t := by omega
      · split_ifs <;> omega
      · split_ifs <;> omega
    · split_ifs <;> omega
  · interval_cases i <;> simp only [List.getD_cons_zero, List.getD_cons_succ] <;> split_ifs <;> omega

theorem march_hi {Y i : ℕ} (hY : 1583 ≤ Y) (hi : 1 ≤ i) (hi' : i ≤ 13) : (march Y + monthOff.getD i 0 : ℤ) ≤ JD.jdn (firstOf (12 * Y + i + 1)) := by
  obtain ⟨q, t, r, ht, hr, e, hm⟩ := march_eq Y
  rw [hm]
  clear hm
  unfold monthOff firstOf JD.jdn JD.corr JD.my JD.mm
  obtain rfl | h : i = 13 ∨ i ≤ 12 := by omega
  · simp only [List.getD_cons_zero, List.getD_cons_succ]
    obtain rfl | h : r = 99 ∨ r ≤ 98 := by omega
    · obtain rfl | h : t = 3 ∨ t ≤ 2 := by omega
      · split_ifs <;> omega
      · split_ifs <;> omega
    · split_ifs <;> omega
  · interval_cases i <;> simp only [List.getD_cons_zero, List.getD_cons_succ] <;> split_ifs <;> omega

/-- `u` (in days after J2000, plus half a day) is in a month of the solar calendar, more than a second before its end,
and not at its very beginning -/
def InMonth (u : ℚ) : Prop := ∃ m : ℤ, (JD.jdn (firstOf m) : ℚ) + 1 / 1000000 ≤ u + 2451545 ∧ u + 2451545 + 13 / 1000000 ≤ JD.jdn (firstOf (m + 1))

/-- the row is in month `i` of the solar year `Y + sh - 1`, for all `Y` between `Y1` and `Y2` -/
def monthLine (w : Row) (sh i Y1 Y2 : ℕ) : Bool :=
  Nat.ble i 12 && Nat.ble 1584 Y1 &&
  above w Y1 Y2 ((1721092 + Int.ofNat (monthOff.getD i 0)) * 1000000 + 990001 + (Int.ofNat sh - 1) * 365242500) 365242500 &&
  below w Y1 Y2 ((1721092 + Int.ofNat (monthOff.getD (i + 1) 0)) * 1000000 - 1747500 - 13 + (Int.ofNat sh - 1) * 365242500) 365242500

theorem march_bounds {Y : ℕ} (hY : 1583 ≤ Y) : (march Y : ℤ) * 1000000 ≤ 365242500 * Y + 1721092990000 ∧
    365242500 * (Y : ℤ) + 1721092000000 - 1747500 ≤ march Y * 1000000 := by
  unfold march
  omega

theorem monthLine_mem {w : Row} {sh i Y1 Y2 Y : ℕ} (H : monthLine w sh i Y1 Y2 = true) (h1 : Y1 ≤ Y) (h2 : Y ≤ Y2) {u : ℚ}
    (hu : w.Bd Y u) : InMonth u := by
  unfold monthLine at H
  simp only [Bool.and_eq_true, Nat.ble_eq] at H
  obtain ⟨⟨⟨hi, hY⟩, ha⟩, hb⟩ := H
  have a := above_mem ha h1 h2 hu
  have b := below_mem hb h1 h2 hu
  simp only [Int.ofNat_eq_natCast] at a b
  have hY' : 1583 ≤ Y + sh - 1 := by omega
  obtain ⟨m1, m2⟩ := march_bounds hY'
  have l := march_lo hY' hi
  have r := march_hi hY' (i := i + 1) (by omega) (by omega)
  have e : ((Y + sh - 1 : ℕ) : ℤ) = Y + sh - 1 := by omega
  rw [e] at m1 m2
  refine ⟨12 * ((Y + sh - 1 : ℕ) : ℤ) + i + 1, ?_, ?_⟩
  · have l' : (JD.jdn (firstOf (12 * ((Y + sh - 1 : ℕ) : ℤ) + i + 1)) : ℚ) ≤ (march (Y + sh - 1) : ℚ) + monthOff.getD i 0 := by exact_mod_cast l
    have m1' : (march (Y + sh - 1) : ℚ) * 1000000 ≤ 365242500 * ((Y : ℚ) + sh - 1) + 1721092990000 := by exact_mod_cast m1
    push_cast at a
    linarith
  · have r' : (march (Y + sh - 1) : ℚ) + monthOff.getD (i + 1) 0 ≤ (JD.jdn (firstOf (12 * ((Y + sh - 1 : ℕ) : ℤ) + i + 1 + 1)) : ℚ) := by
      have e2 : (12 * ((Y + sh - 1 : ℕ) : ℤ) + i + 1 + 1) = 12 * ((Y + sh - 1 : ℕ) : ℤ) + ((i + 1 : ℕ) : ℤ) + 1 := by push_cast; ring
      rw [e2]
      exact_mod_cast r
    have m2' : 365242500 * ((Y : ℚ) + sh - 1) + 1721092000000 - 1747500 ≤ (march (Y + sh - 1) : ℚ) * 1000000 := by exact_mod_cast m2
    push_cast at b
    linarith

/-- the numbers from `lo` to `hi` are in month `i` or `i + 1` of the solar year `Y`, and more than a second from its end -/
def inMonth (Y i lo hi : ℕ) : Bool :=
  forceN (march Y) fun a => forceN ((a + monthOff.getD (i + 1) 0) * 1000000) fun e =>
  (Nat.ble ((a + monthOff.getD i 0) * 1000000 + 1) lo && Nat.ble (hi + 13) e) ||
  (Nat.ble (e + 1) lo && Nat.ble (hi + 13) ((a + monthOff.getD (i + 2) 0) * 1000000))

theorem inMonth_mem {Y i lo hi : ℕ} (H : inMonth Y i lo hi = true) (hY : 1583 ≤ Y) (hi' : i ≤ 11) {u : ℚ}
    (h1 : (lo : ℚ) ≤ (u + 2451545) * 1000000) (h2 : (u + 2451545) * 1000000 ≤ hi) : InMonth u := by
  unfold inMonth at H
  simp only [forceN_eq, Bool.or_eq_true, Bool.and_eq_true, Nat.ble_eq] at H
  have key : ∀ j : ℕ, j ≤ 12 → (march Y + monthOff.getD j 0) * 1000000 + 1 ≤ lo → hi + 13 ≤ (march Y + monthOff.getD (j + 1) 0) * 1000000 →
      InMonth u := by
    intro j hj a b
    have l := march_lo hY hj
    have r := march_hi hY (i := j + 1) (by omega) (by omega)
    refine ⟨12 * Y + j + 1, ?_, ?_⟩
    · have l' : (JD.jdn (firstOf (12 * Y + j + 1)) : ℚ) ≤ (march Y : ℚ) + monthOff.getD j 0 := by exact_mod_cast l
      have a' : ((march Y : ℚ) + monthOff.getD j 0) * 1000000 + 1 ≤ lo := by exact_mod_cast a
      linarith
    · have e2 : (12 * (Y : ℤ) + j + 1 + 1) = 12 * (Y : ℤ) + ((j + 1 : ℕ) : ℤ) + 1 := by push_cast; ring
      rw [e2]
      have r' : (march Y : ℚ) + monthOff.getD (j + 1) 0 ≤ JD.jdn (firstOf (12 * (Y : ℤ) + ((j + 1 : ℕ) : ℤ) + 1)) := by exact_mod_cast r
      have b' : (hi : ℚ) + 13 ≤ ((march Y : ℚ) + monthOff.getD (j + 1) 0) * 1000000 := by exact_mod_cast b
      linarith
  rcases H with H | H
  · exact key i (by omega) H.1 H.2
  · exact key (i + 1) (by omega) H.1 H.2

/-- the check of a row in year `Y` -/
def monthAt (w : Row) (sh i Y : ℕ) : Bool := forceN (Nat.add w.a (Nat.mul w.b Y)) fun L => inMonth (Y + sh - 1) i (L - w.r) (L + w.r)

theorem monthAt_mem {w : Row} {sh i Y : ℕ} (H : monthAt w sh i Y = true) (hY : 1584 ≤ Y) (hi : i ≤ 11) (hr : w.r ≤ w.a) {u : ℚ}
    (hu : w.Bd Y u) : InMonth u := by
  unfold monthAt at H
  rw [forceN_eq] at H
  have h := abs_le.1 hu
  refine inMonth_mem H (by omega) hi ?_ ?_
  · have h1 : w.r ≤ w.a + w.b * Y := hr.trans (Nat.le_add_right _ _)
    show ((w.a + w.b * Y - w.r : ℕ) : ℚ) ≤ _
    push_cast [Nat.cast_sub h1]
    linarith [h.1]
  · show _ ≤ ((w.a + w.b * Y + w.r : ℕ) : ℚ)
    push_cast
    linarith [h.2]

/-- the check of a row for `n` years from `Y` on, except those of the list -/
def monthsOk (w : Row) (sh i : ℕ) : ℕ → ℕ → List ℕ → Bool :=
  Nat.rec (fun _ _ => true) fun _ ih Y exc => forceN Y fun Y =>
    match exc with
    | [] => monthAt w sh i Y && ih (Nat.succ Y) []
    | e :: rest => bif Nat.beq e Y then ih (Nat.succ Y) rest else monthAt w sh i Y && ih (Nat.succ Y) (e :: rest)

theorem monthsOk_nil (w : Row) (sh i n Y : ℕ) : monthsOk w sh i (n + 1) Y [] = (monthAt w sh i Y && monthsOk w sh i n (Y + 1) []) := by
  cases Y <;> rfl

theorem monthsOk_cons (w : Row) (sh i n Y e : ℕ) (rest : List ℕ) : monthsOk w sh i (n + 1) Y (e :: rest) =
    (bif Nat.beq e Y then monthsOk w sh i n (Y + 1) rest else monthAt w sh i Y && monthsOk w sh i n (Y + 1) (e :: rest)) := by
  cases Y <;> rfl

theorem monthsOk_get {w : Row} {sh i n Y : ℕ} {exc : List ℕ} (H : monthsOk w sh i n Y exc = true) {j : ℕ} (hj : j < n) :
    monthAt w sh i (Y + j) = true ∨ Y + j ∈ exc := by
  induction n generalizing Y exc j with
  | zero => omega
  | succ n ih =>
    cases exc with
    | nil =>
      rw [monthsOk_nil, Bool.and_eq_true] at H
      cases j with
      | zero => exact Or.inl H.1
      | succ j =>
        have := ih H.2 (j := j) (by omega)
        rwa [show Y + (j + 1) = Y + 1 + j by ring]
    | cons e rest =>
      rw [monthsOk_cons] at H
      by_cases he : e = Y
      · have hb : Nat.beq e Y = true := by rw [Nat.beq_eq]; exact he
        rw [hb, cond_true] at H
        cases j with
        | zero => exact Or.inr (by simp [he])
        | succ j =>
          have := ih H (j := j) (by omega)
          rw [show Y + (j + 1) = Y + 1 + j by ring]
          rcases this with h | h
          · exact Or.inl h
          · exact Or.inr (List.mem_cons_of_mem _ h)
      · have hb : Nat.beq e Y = false := by rw [← Bool.not_eq_true, Nat.beq_eq]; exact he
        rw [hb, cond_false, Bool.and_eq_true] at H
        cases j with
        | zero => exact Or.inl H.1
        | succ j =>
          have := ih H.2 (j := j) (by omega)
          rwa [show Y + (j + 1) = Y + 1 + j by ring]

/-- the check of the rows of a block; the hints for a row are the shift of the year, the month and the years left out -/
def monthAll (Y1 Y2 : ℕ) : List Row → List (ℕ × ℕ × List ℕ) → Bool
  | [], _ => true
  | _ :: _, [] => false
  | w :: ws, h :: hs => Nat.ble h.2.1 11 && Nat.ble 1584 Y1 && Nat.ble w.r w.a &&
    (monthLine w h.1 h.2.1 Y1 Y2 || monthLine w h.1 (h.2.1 + 1) Y1 Y2 || monthsOk w h.1 h.2.1 (Y2 + 1 - Y1) Y1 h.2.2) && monthAll Y1 Y2 ws hs

theorem monthAll_get {Y1 Y2 : ℕ} {ws : List Row} {hs : List (ℕ × ℕ × List ℕ)} (H : monthAll Y1 Y2 ws hs = true) {s : ℕ} {w : Row}
    (hw : ws[s]? = some w) : ∃ h, hs[s]? = some h ∧ ∀ Y, Y1 ≤ Y → Y ≤ Y2 → Y ∈ h.2.2 ∨ ∀ u, w.Bd Y u → InMonth u := by
  induction ws generalizing hs s with
  | nil => simp at hw
  | cons v ws ih =>
    cases hs with
    | nil => simp [monthAll] at H
    | cons h hs =>
      simp only [monthAll, Bool.and_eq_true, Bool.or_eq_true, Nat.ble_eq] at H
      obtain ⟨⟨⟨⟨h1, h2⟩, h3⟩, h4⟩, h5⟩ := H
      cases s with
      | zero =>
        simp only [List.getElem?_cons_zero, Option.some.injEq] at hw
        subst hw
        refine ⟨h, rfl, fun Y a b => ?_⟩
        rcases h4 with (h4 | h4) | h4
        · exact Or.inr fun u hu => monthLine_mem h4 a b hu
        · exact Or.inr fun u hu => monthLine_mem h4 a b hu
        · obtain ⟨j, rfl⟩ : ∃ j, Y = Y1 + j := ⟨Y - Y1, by omega⟩
          rcases monthsOk_get h4 (j := j) (by omega) with h6 | h6
          · exact Or.inr fun u hu => monthAt_mem h6 (by omega) h1 h3 hu
          · exact Or.inl h6
      | succ s =>
        rw [List.getElem?_cons_succ] at hw
        obtain ⟨h', e, h6⟩ := ih h5 hw
        exact ⟨h', by rw [List.getElem?_cons_succ]; exact e, h6⟩

end High
