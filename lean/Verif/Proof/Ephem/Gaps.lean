import Verif.Proof.Ephem.Made

/-! # How far solar terms are apart

The lines of `Proof/High/Data.lean` and `Proof/Low/Data.lean` are compared, within a year and from one year to the next. -/

open ShouXing High

namespace Ephem

/-- the term of the second row, `k` years on, is `gl` to `gh` millionths of a day after that of the first -/
def apart (w v : Row) (k : ℕ) (gl gh : ℤ) (Y1 Y2 : ℕ) : Bool :=
  above v Y1 Y2 (Int.ofNat w.a + Int.ofNat w.r + gl - Int.ofNat (k * v.b)) (Int.ofNat w.b) &&
  below v Y1 Y2 (Int.ofNat w.a - Int.ofNat w.r + gh - Int.ofNat (k * v.b)) (Int.ofNat w.b)

/-- every term is `gl` to `gh` millionths of a day before the `j`-th after it -/
def gapOk (ws : List Row) (j : ℕ) (gl gh : ℤ) (Y1 Y2 : ℕ) : Bool :=
  (List.range 24).all fun s => match ws[s]?, ws[(s + j) % 24]? with
    | some w, some v => apart w v ((s + j) / 24) gl gh Y1 Y2
    | _, _ => false

theorem apart_mem {w v : Row} {k : ℕ} {gl gh : ℤ} {Y1 Y2 Y : ℕ} (H : apart w v k gl gh Y1 Y2 = true) (h1 : Y1 ≤ Y) (h2 : Y ≤ Y2) {u u' : ℚ}
    (hu : w.Bd Y u) (hu' : v.Bd (Y + k) u') : gl ≤ (u' - u) * 1000000 ∧ (u' - u) * 1000000 ≤ gh := by
  unfold apart at H
  rw [Bool.and_eq_true] at H
  have hv : v.Bd Y (u' - k * v.b / 1000000) := by
    unfold Row.Bd at hu' ⊢
    push_cast at hu'
    rw [show (u' - k * v.b / 1000000 + 2451545) * 1000000 - (v.a + v.b * Y) = (u' + 2451545) * 1000000 - (v.a + v.b * (Y + k)) by ring]
    exact hu'
  have a := above_mem H.1 h1 h2 hv
  have b := below_mem H.2 h1 h2 hv
  have c := abs_le.1 hu
  simp only [Int.ofNat_eq_natCast] at a b
  push_cast at a b
  constructor <;> linarith [c.1, c.2]

theorem gapOk_get {ws : List Row} {j : ℕ} {gl gh : ℤ} {Y1 Y2 : ℕ} (H : gapOk ws j gl gh Y1 Y2 = true) {s : ℕ} (hs : s < 24) :
    ∃ w v, ws[s]? = some w ∧ ws[(s + j) % 24]? = some v ∧ apart w v ((s + j) / 24) gl gh Y1 Y2 = true := by
  have := List.all_eq_true.1 H s (List.mem_range.2 hs)
  split at this
  · next w v hw hv => exact ⟨w, v, hw, hv, this⟩
  · cases this

theorem gap_one0 : gapOk sun0 1 14500000 15950000 1961 2081 = true := by decide +kernel
theorem gap_one1 : gapOk sun1 1 14500000 15950000 2081 2129 = true := by decide +kernel
theorem gap_one2 : gapOk sun2 1 14500000 15950000 2129 2732 = true := by decide +kernel
theorem gap_one3 : gapOk sun3 1 14300000 16190000 2732 3772 = true := by decide +kernel
theorem gap_one4 : gapOk sun4 1 14300000 16190000 3772 4812 = true := by decide +kernel
theorem gap_one5 : gapOk sun5 1 14300000 16190000 4812 5852 = true := by decide +kernel
theorem gap_one6 : gapOk sun6 1 14300000 16190000 5852 6892 = true := by decide +kernel
theorem gap_oneLow0 : gapOk Low.acc0 1 14300000 16190000 1584 1712 = true := by decide +kernel
theorem gap_oneLow1 : gapOk Low.acc1 1 14300000 16190000 1712 1840 = true := by decide +kernel
theorem gap_oneLow2 : gapOk Low.acc2 1 14300000 16190000 1840 1962 = true := by decide +kernel

theorem gap_two0 : gapOk sun0 2 29050000 31890000 1961 2081 = true := by decide +kernel
theorem gap_two1 : gapOk sun1 2 29050000 31890000 2081 2129 = true := by decide +kernel
theorem gap_two2 : gapOk sun2 2 29050000 31890000 2129 2732 = true := by decide +kernel
theorem gap_two3 : gapOk sun3 2 29050000 31890000 2732 3772 = true := by decide +kernel
theorem gap_two4 : gapOk sun4 2 29050000 31890000 3772 4812 = true := by decide +kernel
theorem gap_two5 : gapOk sun5 2 29050000 31890000 4812 5852 = true := by decide +kernel
theorem gap_two6 : gapOk sun6 2 29050000 31890000 5852 6892 = true := by decide +kernel
theorem gap_twoLow0 : gapOk Low.acc0 2 29050000 31890000 1584 1712 = true := by decide +kernel
theorem gap_twoLow1 : gapOk Low.acc1 2 29050000 31890000 1712 1840 = true := by decide +kernel
theorem gap_twoLow2 : gapOk Low.acc2 2 29050000 31890000 1840 1962 = true := by decide +kernel

variable {M : Libm} (hM : M.Good)
include hM

omit hM in
theorem gap_rows {ws : List Row} {j : ℕ} {gl gh : ℤ} {Y1 Y2 : ℕ} (S : gapOk ws j gl gh Y1 Y2 = true) (hj : j < 24)
    (R : ∀ (i : ℕ) (w : Row), i < 24 → ws[i]? = some w → Low.RowOf (termV M) i w Y1 Y2) {n : ℤ}
    (h1 : 24 * ((Y1 : ℤ) - 2000) ≤ n) (h2 : n < 24 * ((Y2 : ℤ) - 2000)) :
    gl ≤ (termV M (n + j) - termV M n) * 1000000 ∧ (termV M (n + j) - termV M n) * 1000000 ≤ gh := by
  obtain ⟨Y, s, hs, hY, rfl⟩ : ∃ Y s : ℕ, s < 24 ∧ (Y1 ≤ Y ∧ Y < Y2) ∧ n = 24 * ((Y : ℤ) - 2000) + s :=
    ⟨(n / 24 + 2000).toNat, (n % 24).toNat, by omega, by omega, by omega⟩
  obtain ⟨w, v, hw, hv, h⟩ := gapOk_get S hs
  have k : (s + j) / 24 ≤ 1 := by omega
  have e : 24 * ((Y : ℤ) - 2000) + s + j = 24 * (((Y + (s + j) / 24 : ℕ) : ℤ) - 2000) + ((s + j) % 24 : ℕ) := by omega
  rw [e]
  exact apart_mem h hY.1 hY.2.le (R s w hs hw Y hY.1 hY.2.le) (R _ v (Nat.mod_lt _ (by norm_num)) hv _ (by omega) (by omega))

theorem rows_high {c : ℤ} {h θ : ℕ} {ws : List Row} (H : Block.sunBlockOk c h θ 0 (ws.map (rowAt c)) = true)
    {Y1 Y2 : ℕ} (h1 : c + 2000 - h ≤ Y1) (h2 : (Y2 : ℤ) ≤ c + 2000 + h) (h3 : Y2 ≤ 20000) :
    ∀ (i : ℕ) (w : Row), i < 24 → ws[i]? = some w → Low.RowOf (termV M) i w Y1 Y2 :=
  fun _ _ hi hw Y a b => (sunRow hM H hw h1 h2 ⟨h3, hi.le⟩ Y a b).2

theorem rows_low {c : ℤ} {h θ : ℕ} {ws : List Row} (H : Low.blockOk (Low.accOk c h θ) 0 (ws.map (rowAt c)) = true)
    {Y1 Y2 : ℕ} (h1 : c + 2000 - h ≤ Y1) (h2 : (Y2 : ℤ) ≤ c + 2000 + h) (h3 : Y2 ≤ 20000) :
    ∀ (i : ℕ) (w : Row), i < 24 → ws[i]? = some w → Low.RowOf (termV M) i w Y1 Y2 :=
  fun _ _ hi hw => Low.rowOf (u := termV M) (fun {y s A B R} a b => Low.acc_mem hM a b) H hw h1 h2 ⟨h3, hi.le⟩

/-- from one term to the next, 1961-2731 -/
theorem one_v' {n : ℤ} (h1 : 24 * (1961 - 2000) ≤ n) (h2 : n < 24 * (2732 - 2000)) :
    14.5 ≤ termV M (n + 1) - termV M n ∧ termV M (n + 1) - termV M n ≤ 15.95 := by
  have key : ((14500000 : ℤ) : ℚ) ≤ (termV M (n + (1 : ℕ)) - termV M n) * 1000000 ∧ (termV M (n + (1 : ℕ)) - termV M n) * 1000000 ≤ ((15950000 : ℤ) : ℚ) := by
    by_cases c0 : n < 24 * (2081 - 2000)
    · exact gap_rows gap_one0 (by norm_num) (rows_high hM sunOk0 (by norm_num) (by norm_num) (by norm_num)) (by push_cast; omega) (by push_cast; omega)
    by_cases c1 : n < 24 * (2129 - 2000)
    · exact gap_rows gap_one1 (by norm_num) (rows_high hM sunOk1 (by norm_num) (by norm_num) (by norm_num)) (by push_cast; omega) (by push_cast; omega)
    · exact gap_rows gap_one2 (by norm_num) (rows_high hM sunOk2 (by norm_num) (by norm_num) (by norm_num)) (by push_cast; omega) (by push_cast; omega)
  push_cast at key
  constructor <;> linarith [key.1, key.2]

/-- from one term to the next -/
theorem one_v {n : ℤ} (h1 : 24 * (1584 - 2000) ≤ n) (h2 : n < 24 * (6892 - 2000)) :
    14.3 ≤ termV M (n + 1) - termV M n ∧ termV M (n + 1) - termV M n ≤ 16.19 := by
  by_cases c : 24 * (1961 - 2000) ≤ n ∧ n < 24 * (2732 - 2000)
  · have := one_v' hM c.1 c.2
    constructor <;> linarith [this.1, this.2]
  have key : ((14300000 : ℤ) : ℚ) ≤ (termV M (n + (1 : ℕ)) - termV M n) * 1000000 ∧ (termV M (n + (1 : ℕ)) - termV M n) * 1000000 ≤ ((16190000 : ℤ) : ℚ) := by
    by_cases l0 : n < 24 * (1712 - 2000)
    · exact gap_rows gap_oneLow0 (by norm_num) (rows_low hM Low.accOk0 (by norm_num) (by norm_num) (by norm_num)) (by push_cast; omega) (by push_cast; omega)
    by_cases l1 : n < 24 * (1840 - 2000)
    · exact gap_rows gap_oneLow1 (by norm_num) (rows_low hM Low.accOk1 (by norm_num) (by norm_num) (by norm_num)) (by push_cast; omega) (by push_cast; omega)
    by_cases l2 : n < 24 * (1962 - 2000)
    · exact gap_rows gap_oneLow2 (by norm_num) (rows_low hM Low.accOk2 (by norm_num) (by norm_num) (by norm_num)) (by push_cast; omega) (by push_cast; omega)
    by_cases c3 : n < 24 * (3772 - 2000)
    · exact gap_rows gap_one3 (by norm_num) (rows_high hM sunOk3 (by norm_num) (by norm_num) (by norm_num)) (by push_cast; omega) (by push_cast; omega)
    by_cases c4 : n < 24 * (4812 - 2000)
    · exact gap_rows gap_one4 (by norm_num) (rows_high hM sunOk4 (by norm_num) (by norm_num) (by norm_num)) (by push_cast; omega) (by push_cast; omega)
    by_cases c5 : n < 24 * (5852 - 2000)
    · exact gap_rows gap_one5 (by norm_num) (rows_high hM sunOk5 (by norm_num) (by norm_num) (by norm_num)) (by push_cast; omega) (by push_cast; omega)
    · exact gap_rows gap_one6 (by norm_num) (rows_high hM sunOk6 (by norm_num) (by norm_num) (by norm_num)) (by push_cast; omega) (by push_cast; omega)
  push_cast at key
  constructor <;> linarith [key.1, key.2]

/-- from one term to the next but one -/
theorem two_v {n : ℤ} (h1 : 24 * (1584 - 2000) ≤ n) (h2 : n < 24 * (6892 - 2000)) :
    29.05 ≤ termV M (n + 2) - termV M n ∧ termV M (n + 2) - termV M n ≤ 31.89 := by
  have key : ((29050000 : ℤ) : ℚ) ≤ (termV M (n + (2 : ℕ)) - termV M n) * 1000000 ∧ (termV M (n + (2 : ℕ)) - termV M n) * 1000000 ≤ ((31890000 : ℤ) : ℚ) := by
    by_cases l0 : n < 24 * (1712 - 2000)
    · exact gap_rows gap_twoLow0 (by norm_num) (rows_low hM Low.accOk0 (by norm_num) (by norm_num) (by norm_num)) (by push_cast; omega) (by push_cast; omega)
    by_cases l1 : n < 24 * (1840 - 2000)
    · exact gap_rows gap_twoLow1 (by norm_num) (rows_low hM Low.accOk1 (by norm_num) (by norm_num) (by norm_num)) (by push_cast; omega) (by push_cast; omega)
    by_cases l2 : n < 24 * (1962 - 2000)
    · exact gap_rows gap_twoLow2 (by norm_num) (rows_low hM Low.accOk2 (by norm_num) (by norm_num) (by norm_num)) (by push_cast; omega) (by push_cast; omega)
    by_cases c0 : n < 24 * (2081 - 2000)
    · exact gap_rows gap_two0 (by norm_num) (rows_high hM sunOk0 (by norm_num) (by norm_num) (by norm_num)) (by push_cast; omega) (by push_cast; omega)
    by_cases c1 : n < 24 * (2129 - 2000)
    · exact gap_rows gap_two1 (by norm_num) (rows_high hM sunOk1 (by norm_num) (by norm_num) (by norm_num)) (by push_cast; omega) (by push_cast; omega)
    by_cases c2 : n < 24 * (2732 - 2000)
    · exact gap_rows gap_two2 (by norm_num) (rows_high hM sunOk2 (by norm_num) (by norm_num) (by norm_num)) (by push_cast; omega) (by push_cast; omega)
    by_cases c3 : n < 24 * (3772 - 2000)
    · exact gap_rows gap_two3 (by norm_num) (rows_high hM sunOk3 (by norm_num) (by norm_num) (by norm_num)) (by push_cast; omega) (by push_cast; omega)
    by_cases c4 : n < 24 * (4812 - 2000)
    · exact gap_rows gap_two4 (by norm_num) (rows_high hM sunOk4 (by norm_num) (by norm_num) (by norm_num)) (by push_cast; omega) (by push_cast; omega)
    by_cases c5 : n < 24 * (5852 - 2000)
    · exact gap_rows gap_two5 (by norm_num) (rows_high hM sunOk5 (by norm_num) (by norm_num) (by norm_num)) (by push_cast; omega) (by push_cast; omega)
    · exact gap_rows gap_two6 (by norm_num) (rows_high hM sunOk6 (by norm_num) (by norm_num) (by norm_num)) (by push_cast; omega) (by push_cast; omega)
  push_cast at key
  constructor <;> linarith [key.1, key.2]

/-- from times to days of the calendar -/
theorem moment_days {n m : ℤ} {a b : ℚ} (h1 : 24 * (1584 - 2000) + 17 ≤ n) (h2 : n ≤ m) (h3 : m ≤ 24 * (6890 - 2000) + 47)
    (g1 : a ≤ termV M m - termV M n) (g2 : termV M m - termV M n ≤ b) :
    a - 1.003 < ((JD.jdn (moment (full hM) m).date - JD.jdn (moment (full hM) n).date : ℤ) : ℚ) ∧
      ((JD.jdn (moment (full hM) m).date - JD.jdn (moment (full hM) n).date : ℤ) : ℚ) < b + 1.003 := by
  have x := moment_near (full hM) (n := n) (by omega) (by omega)
  have y := moment_near (full hM) (n := m) (by omega) (by omega)
  have tx := abs_le.1 (term_facts hM (n := n) (by omega) (by omega)).2.2.2
  have ty := abs_le.1 (term_facts hM (n := m) (by omega) (by omega)).2.2.2
  push_cast
  constructor <;> linarith [x.1, x.2, y.1, y.2, tx.1, tx.2, ty.1, ty.2]

end Ephem
