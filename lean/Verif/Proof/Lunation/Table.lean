import Verif.Proof.Lunation.Days
import Verif.Proof.Ephem.Range

/-! # The length of the months the library finds -/

open Aff0 ShouXing Low Ephem LunarYear

namespace Lunation

/-- month `j` of the tables of `Proof/Low` has 29 or 30 days -/
def moonLen (j : ℕ) : Bool :=
  forceN (Nat.sub (moonJD (Nat.succ j)) (moonJD j)) fun d => Nat.beq d 29 || Nat.beq d 30

theorem moonLens : allFrom moonLen 4694 40 = true := by decide +kernel

variable {M : Libm} (hM : M.Good)
include hM

theorem dayN_step {k : ℤ} (h0 : -5160 ≤ k) (h1 : k + 1 ≤ 37150) : dayN M (k + 1) - dayN M k = 29 ∨ dayN M (k + 1) - dayN M k = 30 := by
  by_cases c : -490 ≤ k
  · rw [dayN_high hM (by omega), dayN_high hM (by omega)]
    exact moonDay_step hM c h1
  · obtain ⟨j, rfl⟩ : ∃ j : ℕ, k = (j : ℤ) - 5200 := ⟨(k + 5200).toNat, by omega⟩
    have h := allFrom_get moonLens (x := j) (by omega) (by omega)
    unfold moonLen at h
    simp only [forceN_eq, Bool.or_eq_true, Nat.beq_eq] at h
    have e : ((j : ℤ) - 5200 + 1) = ((j + 1 : ℕ) : ℤ) - 5200 := by push_cast; ring
    rw [e, dayN_table hM (by omega), dayN_table hM (by omega)]
    change moonJD (j + 1) - moonJD j = 29 ∨ moonJD (j + 1) - moonJD j = 30 at h
    omega

/-- month `i` of the list of year `Y` -/
theorem list_step {Y : ℤ} (h1 : 1584 ≤ Y) (h2 : Y ≤ 5000) {i : ℕ} (hi : i < 15) {m : LunarMonth} (hm : (make (astro M) Y).months[i]? = some m) :
    m.dayCount = 29 ∨ m.dayCount = 30 := by
  have B := facts hM
  obtain ⟨m', e, -, -, d⟩ := window B (Y := Y) h1 (by omega) hi
  rw [hm] at e
  cases e
  obtain ⟨-, -, s1, s2, -⟩ := start_spec B (Y := Y) h1 (by omega)
  have y1 : (1584 : ℚ) ≤ Y := by exact_mod_cast h1
  have y2 : (Y : ℚ) ≤ 5000 := by exact_mod_cast h2
  have a1 : ((-5160 : ℤ) : ℚ) < (start B Y : ℤ) := by push_cast; linarith
  have a2 : ((start B Y : ℤ) : ℚ) < ((37120 : ℤ) : ℚ) := by push_cast; linarith
  have a1 := Int.cast_lt.1 a1
  have a2 := Int.cast_lt.1 a2
  have f1 := first_eq B (Y := Y) h1 (by omega) (i := i) (by omega) (by omega)
  have f2 := first_eq B (Y := Y) h1 (by omega) (i := i + 1) (by omega) (by omega)
  rw [← add_assoc] at f2
  have := dayN_step hM (k := start B Y + i) (by omega) (by omega)
  rw [d, f1, f2]
  omega

end Lunation
