import Verif.Proof.SunDay.Near0
import Verif.Proof.SunDay.Near1
import Verif.Proof.SunDay.Near2
import Verif.Proof.SunDay.Near3
import Verif.Proof.SunDay.Table
import Verif.Proof.High.Sun0

/-! # The principal terms of 1961 to 2100, all but one, are clear of midnight -/

open ShouXing Spec

namespace SunDay
open High (Row sun0 sun1)

/-- row `w` keeps its instant of year `Y` 300 millionths of a day from midnight -/
def rowClear (w : Row) (Y : ℕ) : Bool :=
  Nat.ble (Nat.add w.r (nat_lit 300)) w.a &&
  Nat.beq (Nat.div (Nat.sub (Nat.add w.a (Nat.mul w.b Y)) (Nat.add w.r (nat_lit 300))) (nat_lit 1000000)) (Nat.div (Nat.add (Nat.add w.a (Nat.mul w.b Y)) (Nat.add w.r (nat_lit 300))) (nat_lit 1000000))

/-- is the term among those looked at one by one -/
def listed (k : ℕ) : List (ℕ × ℤ) → Bool
  | [] => false
  | p :: l => Nat.beq p.1 k || listed k l

theorem listed_mem {k : ℕ} : ∀ {l : List (ℕ × ℤ)}, listed k l = true → ∃ N, (k, N) ∈ l
  | [], h => by simp [listed] at h
  | (a, N) :: l, h => by
    simp only [listed, Bool.or_eq_true] at h
    rcases h with h | h
    · exact ⟨N, by rw [Nat.eq_of_beq_eq_true h]; exact List.mem_cons_self⟩
    · obtain ⟨N, hN⟩ := listed_mem h
      exact ⟨N, List.mem_cons_of_mem _ hN⟩

/-- the principal term `2 * i` of year `Y` is clear of midnight -/
def termClear (Y i : ℕ) : Bool :=
  rowClear ((bif Nat.ble Y 2081 then sun0 else sun1).getD (2 * i) ⟨0, 0, 0⟩) Y || listed (24 * Y + 2 * i - 47000) near0 ||
    listed (24 * Y + 2 * i - 47000) near1 || listed (24 * Y + 2 * i - 47000) near2 || listed (24 * Y + 2 * i - 47000) near3 ||
    Nat.beq (24 * Y + 2 * i - 47000) 1294 || Nat.beq (24 * Y + 2 * i - 47000) 516

theorem all_clear : ∀ Y ∈ List.range' 1961 140, ∀ i ∈ List.range 12, termClear Y i = true := by decide +kernel

theorem other_ok : minuteOk (1294, 6033676) = true := by decide +kernel

theorem split_div {x s : ℕ} (h1 : s ≤ x) (h2 : (x - s) / 1000000 = (x + s) / 1000000) : ∃ D, 1000000 * D + s ≤ x ∧ x + s < 1000000 * D + 1000000 :=
  ⟨(x + s) / 1000000, by omega, by omega⟩

theorem rowClear_clear {M : Libm} {w : Row} {Y : ℕ} {n : ℤ} (H : rowClear w Y = true) (hb : w.Bd Y (termV M n)) (hv : |termV M n - (termAt M n + 1 / 2)| ≤ 1 / 10 ^ 9) :
    Clear M n := by
  simp only [rowClear, Bool.and_eq_true] at H
  have h1 : w.r + 300 ≤ w.a := Nat.le_of_ble_eq_true H.1
  have h2 : (w.a + w.b * Y - (w.r + 300)) / 1000000 = (w.a + w.b * Y + (w.r + 300)) / 1000000 := Nat.eq_of_beq_eq_true H.2
  unfold Row.Bd at hb
  have hb := abs_le.1 hb
  have hv := abs_le.1 hv
  obtain ⟨D, k1, k2⟩ := split_div (le_trans h1 (Nat.le_add_right _ _)) h2
  have k1' : 1000000 * (D : ℚ) + (w.r + 300) ≤ w.a + w.b * Y := by exact_mod_cast k1
  have k2' : (w.a : ℚ) + w.b * Y + (w.r + 300) < 1000000 * D + 1000000 := by exact_mod_cast k2
  refine ⟨(D : ℤ) - 2451545, ?_, ?_⟩
  · push_cast; linarith
  · push_cast; linarith

theorem row_get {M : Libm} (hM : M.Good) {Y i : ℕ} (h1 : 1961 ≤ Y) (h2 : Y ≤ 2100) (hi : i < 12) :
    ((bif Nat.ble Y 2081 then sun0 else sun1).getD (2 * i) ⟨0, 0, 0⟩).Bd Y (termV M (24 * (Y - 2000) + (2 * i : ℕ))) := by
  by_cases c : Y ≤ 2081
  · rw [show Nat.ble Y 2081 = true from by rw [Nat.ble_eq]; exact c, cond_true]
    have l : sun0.length = 24 := by decide
    have e : sun0[2 * i]? = some (sun0.getD (2 * i) ⟨0, 0, 0⟩) := by
      rw [List.getD_eq_getElem?_getD, List.getElem?_eq_getElem (by omega)]; rfl
    exact (High.sunRow hM High.sunOk0 e (Y1 := 1961) (Y2 := 2081) (by norm_num) (by norm_num) ⟨by norm_num, by omega⟩ Y h1 c).2
  · rw [show Nat.ble Y 2081 = false by rw [← Bool.not_eq_true, Nat.ble_eq]; exact c, cond_false]
    have l : sun1.length = 24 := by decide
    have e : sun1[2 * i]? = some (sun1.getD (2 * i) ⟨0, 0, 0⟩) := by
      rw [List.getD_eq_getElem?_getD, List.getElem?_eq_getElem (by omega)]; rfl
    exact (High.sunRow hM High.sunOk1 e (Y1 := 2081) (Y2 := 2100) (by norm_num) (by norm_num) ⟨by norm_num, by omega⟩ Y (by omega) h2).2

theorem clear {M : Libm} (hM : M.Good) {n : ℤ} (h1 : 24 * (1961 - 2000) ≤ n) (h2 : n ≤ 24 * (2100 - 2000) + 22) (hn : n % 2 = 0) (h : n ≠ -484) : Clear M n := by
  obtain ⟨Y, i, hY1, hY2, hi, rfl⟩ : ∃ Y i : ℕ, 1961 ≤ Y ∧ Y ≤ 2100 ∧ i < 12 ∧ n = 24 * ((Y : ℤ) - 2000) + (2 * i : ℕ) :=
    ⟨(2000 + n / 24).toNat, (n % 24 / 2).toNat, by omega, by omega, by omega, by omega⟩
  have H := all_clear Y (by rw [List.mem_range'_1]; omega) i (List.mem_range.2 hi)
  unfold termClear at H
  simp only [Bool.or_eq_true] at H
  have one : ∀ {l : List (ℕ × ℤ)}, l.all nearOk = true → listed (24 * Y + 2 * i - 47000) l = true → Clear M (24 * ((Y : ℤ) - 2000) + (2 * i : ℕ)) := by
    intro l hl hk
    obtain ⟨N, hN⟩ := listed_mem hk
    have := nearOk_clear hM (List.all_eq_true.1 hl _ hN)
    simp only at this
    rw [show ((24 * Y + 2 * i - 47000 : ℕ) : ℤ) - 1000 = 24 * ((Y : ℤ) - 2000) + (2 * i : ℕ) by omega] at this
    exact this
  rcases H with (((((H | H) | H) | H) | H) | H) | H
  · exact rowClear_clear H (row_get hM hY1 hY2 hi) (Ephem.sun_at hM h1 (by omega)).2.2.2.2
  · exact one near0_ok H
  · exact one near1_ok H
  · exact one near2_ok H
  · exact one near3_ok H
  · have := minuteOk_clear hM other_ok
    have e := Nat.eq_of_beq_eq_true H
    rw [show ((1294 : ℕ) : ℤ) - 1000 = 24 * ((Y : ℤ) - 2000) + (2 * i : ℕ) by omega] at this
    exact this
  · have e := Nat.eq_of_beq_eq_true H
    omega

end SunDay
