import Verif.Proof.LunarDay
import Verif.Spec.DayLore

/-! # Checking a statement over one turn of a cycle -/

namespace Cycle
open Spec

theorem mod {P : ℤ → Prop} (m : ℤ) (hm : 0 < m) (h : ∀ i ∈ List.range m.toNat, P (i : ℤ)) (n : ℤ) : P (n % m) := by
  have h0 := Int.emod_nonneg n (b := m) (by omega)
  have h1 := Int.emod_lt_of_pos n hm
  have := h (n % m).toNat (by simp; omega)
  rwa [show (((n % m).toNat : ℕ) : ℤ) = n % m by omega] at this

theorem branch_congr {a b : ℤ} (h : a % 12 = b % 12) : branch a = branch b := by unfold branch; rw [h]
theorem stem_congr {a b : ℤ} (h : a % 10 = b % 10) : stem a = stem b := by unfold stem; rw [h]
theorem animal_congr {a b : ℤ} (h : a % 12 = b % 12) : animal a = animal b := by unfold animal; rw [h]

end Cycle
