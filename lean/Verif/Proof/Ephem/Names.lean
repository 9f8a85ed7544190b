import Verif.Proof.LunarYear

/-! # Names of the months of a list, by the place of its leap month -/

namespace Ephem
open LunarYear

/-- year, relative to the year of the list, and number of month `i` of a list with its leap month at `li` -/
def name (li i : ℕ) : ℤ × ℤ := (((skel li 0 15 (-1) (-1) (-1)).getD i (0, 0, 0)).1, ((skel li 0 15 (-1) (-1) (-1)).getD i (0, 0, 0)).2.1)

/-- a number that grows with the months -/
def rk (t : ℤ × ℤ) : ℤ := 26 * t.1 + 2 * |t.2| + if t.2 < 0 then 1 else 0

/-- a list whose leap month is at `li`, and the next, which begins `st` months later and has its leap month at `li'` -/
def Link (st : ℤ) (li li' : ℕ) : Prop :=
  (st = 12 ∧ ((li = 16 ∧ li' ≠ 1 ∧ li' ≠ 2) ∨ (li = 13 ∧ li' = 1) ∨ (li = 14 ∧ li' = 2))) ∨
  (st = 13 ∧ li ≤ 12 ∧ li' ≠ 1 ∧ li' ≠ 2)

instance (st : ℤ) (li li' : ℕ) : Decidable (Link st li li') := by unfold Link; infer_instance

theorem Link.step {st : ℤ} {li li' : ℕ} (h : Link st li li') : st = 12 ∨ st = 13 := by
  unfold Link at h; omega

theorem rk_name {li i : ℕ} (h1 : 1 ≤ li) (h2 : li ≤ 16) (hi : i < 14) : rk (name li i) < rk (name li (i + 1)) := by
  have key : ∀ li ∈ List.range 17, 1 ≤ li → ∀ i ∈ List.range 14, rk (name li i) < rk (name li (i + 1)) := by decide +kernel
  exact key li (by simp; omega) h1 i (by simpa using hi)

/-- neighbouring lists give the months they share the same names -/
theorem name_overlap {st : ℤ} {li li' : ℕ} (h1 : 1 ≤ li) (h2 : li ≤ 16) (h3 : 1 ≤ li') (h4 : li' ≤ 16) (h : Link st li li')
    {j : ℕ} (hj : st + j < 15) : name li (st + j).toNat = (1 + (name li' j).1, (name li' j).2) := by
  have key : ∀ st ∈ [12, 13], ∀ li ∈ List.range 17, 1 ≤ li → ∀ li' ∈ List.range 17, 1 ≤ li' → Link st li li' → ∀ j ∈ List.range 3,
      st + (j : ℤ) < 15 → name li (st + (j : ℤ)).toNat = (1 + (name li' j).1, (name li' j).2) := by decide +kernel
  have := h.step
  exact key st (by simp; omega) li (by simp; omega) h1 li' (by simp; omega) h3 h j (by simp; omega) hj

theorem name_year {li i : ℕ} (h1 : 1 ≤ li) (h2 : li ≤ 16) (hi : i < 15) : -1 ≤ (name li i).1 ∧ (name li i).1 ≤ 1 ∧
    ((name li i).1 = -1 → i ≤ 2 ∧ (i = 2 → li = 1 ∨ li = 2)) ∧ ((name li i).1 = 1 → i = 14 ∧ 15 ≤ li) ∧
    1 ≤ |(name li i).2| ∧ |(name li i).2| ≤ 12 := by
  have key : ∀ li ∈ List.range 17, 1 ≤ li → ∀ i ∈ List.range 15, -1 ≤ (name li i).1 ∧ (name li i).1 ≤ 1 ∧
    ((name li i).1 = -1 → i ≤ 2 ∧ (i = 2 → li = 1 ∨ li = 2)) ∧ ((name li i).1 = 1 → i = 14 ∧ 15 ≤ li) ∧
    1 ≤ |(name li i).2| ∧ |(name li i).2| ≤ 12 := by decide +kernel
  exact key li (by simp; omega) h1 i (by simpa using hi)

theorem name_zero {li : ℕ} (h1 : 1 ≤ li) (h2 : li ≤ 16) : name li 0 = (-1, 11) := by
  have key : ∀ li ∈ List.range 17, 1 ≤ li → name li 0 = (-1, 11) := by decide +kernel
  exact key li (by simp; omega) h1

theorem name_newYear {li : ℕ} (h1 : 1 ≤ li) (h2 : li ≤ 16) : name li (if li ≤ 2 then 3 else 2) = (0, 1) := by
  have key : ∀ li ∈ List.range 17, 1 ≤ li → name li (if li ≤ 2 then 3 else 2) = (0, 1) := by decide +kernel
  exact key li (by simp; omega) h1

end Ephem
