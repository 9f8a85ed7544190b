import Verif.Proof.Ephem.Leap
import Verif.Proof.Ephem.Range
import Verif.Spec.Libm

/-! # C85: leap months

The library finds leap months partly by a loop, partly in the tables `LEAP_11` and `LEAP_12`.  This shows that together they
follow the rule of `Spec/LeapRule.lean`, for the solar terms and new moons the library computes itself. -/

section
open Spec LunarYear ShouXing

variable {M : Libm}

/-- **C85** the list of year `Y` begins with the eleventh month of the year before, which holds the winter solstice; the
next winter solstice is in the month twelve or thirteen places later, again an eleventh; of the months from the one to the
other exactly the first without a principal term is a leap month if there are thirteen, and none if there are twelve -/
theorem C85_leap_rule (hM : M.Good) (Y : ℤ) (h1 : 1584 ≤ Y) (h2 : Y ≤ 9997) : ∃ n : ℕ, (n = 12 ∨ n = 13) ∧
    (∃ m, (make (astro M) Y).months[0]? = some m ∧ (m.year, m.month) = (Y - 1, 11) ∧ InMonth m (principal (astro M) Y 0)) ∧
    (∃ m, (make (astro M) Y).months[n]? = some m ∧ (m.year, m.month) = (Y, 11) ∧ InMonth m (principal (astro M) Y 12)) ∧
    (n = 13 → ∃ i m, i < 13 ∧ (make (astro M) Y).months[i]? = some m ∧ m.isLeap = true) ∧
    ∀ i < n, ∀ m, (make (astro M) Y).months[i]? = some m → (m.isLeap = true ↔ n = 13 ∧ ¬ HasPrincipal (astro M) Y m ∧
      ∀ i' < i, ∀ m', (make (astro M) Y).months[i']? = some m' → HasPrincipal (astro M) Y m') := by
  obtain ⟨n, a, -, b, c, d⟩ := Ephem.leap_rule (Ephem.facts hM) h1 (by omega)
  obtain ⟨m0, e0, -⟩ := Ephem.window (Ephem.facts hM) (Y := Y) h1 (by omega) (i := 0) (by norm_num)
  obtain ⟨m1, e1, -⟩ := Ephem.window (Ephem.facts hM) (Y := Y) h1 (by omega) (i := n) (by omega)
  exact ⟨n, a, ⟨m0, e0, b m0 e0⟩, ⟨m1, e1, c m1 e1⟩, d⟩

/-- **C85** the list of the next year begins with that eleventh month: same name, same days -/
theorem C85_next_list (hM : M.Good) (Y : ℤ) (h1 : 1584 ≤ Y) (h2 : Y ≤ 9997) : ∃ n : ℕ, (n = 12 ∨ n = 13) ∧
    ∃ m m', (make (astro M) Y).months[n]? = some m ∧ (make (astro M) (Y + 1)).months[0]? = some m' ∧ (m.year, m.month) = (Y, 11) ∧
      (m'.year, m'.month) = (Y, 11) ∧ m.firstJulianDay = m'.firstJulianDay ∧ m.dayCount = m'.dayCount := by
  obtain ⟨n, a, s, -, c, -⟩ := Ephem.leap_rule (Ephem.facts hM) h1 (by omega)
  obtain ⟨m, e, k, f, g⟩ := Ephem.window (Ephem.facts hM) (Y := Y) h1 (by omega) (i := n) (by omega)
  obtain ⟨m', e', k', f', g'⟩ := Ephem.window (Ephem.facts hM) (Y := Y + 1) (by omega) (by omega) (i := 0) (by norm_num)
  rw [← s] at k f g
  simp only [Nat.cast_zero, add_zero] at k' f' g'
  exact ⟨n, a, m, m', e, e', (c m e).1, by rw [k', ← k]; exact (c m e).1, by rw [f, f'], by rw [g, g']⟩

/-- the second month of the list of 2034 is a leap month: the year 2033 has a leap eleventh month -/
example : ∃ m, (make (astro Libm.cut) 2034).months[1]? = some m ∧ m.isLeap = true ∧ ¬ HasPrincipal (astro Libm.cut) 2034 m := by
  have B := Ephem.facts Libm.cut_good
  have L := Ephem.link B (Y := 2033) (by norm_num) (by norm_num)
  have l13 : leapOf (astro Libm.cut) 2033 = 13 := by
    rw [Ephem.leapOf_eq B (by norm_num) (by norm_num), if_pos (by decide)]
  have l1 : leapOf (astro Libm.cut) 2034 = 1 := by
    rw [l13] at L
    rcases L with ⟨-, ⟨h, -⟩ | h | ⟨h, -⟩⟩ | ⟨-, h, -⟩
    · omega
    · exact h.2
    · omega
    · omega
  obtain ⟨m, e, k, -⟩ := Ephem.window B (Y := 2034) (by norm_num) (by norm_num) (i := 1) (by norm_num)
  rw [Ephem.key_eq B (by norm_num) (by norm_num) (by norm_num), l1] at k
  have hl : m.isLeap = true := by
    rw [Prod.mk.injEq] at k
    unfold LunarMonth.isLeap
    rw [decide_eq_true_iff, k.2]
    decide +kernel
  obtain ⟨n, a, -, -, -, d⟩ := C85_leap_rule Libm.cut_good 2034 (by norm_num) (by norm_num)
  exact ⟨m, e, hl, ((d 1 (by omega) m e).1 hl).2.1⟩

end
