import Verif.Proof.Ephem.Keys
import Verif.Spec.LeapRule

/-! # The leap month is the first without a principal term -/

namespace Ephem
open F64 LunarYear Spec

theorem leapLoop_spec (hs jq : List ℤ) (h : hs.getD 13 0 ≤ jq.getD 24 0) : ∀ n i : ℕ, 12 - i ≤ n → i ≤ 12 →
    hs.getD (leapLoop hs jq i + 1) 0 ≤ jq.getD (2 * leapLoop hs jq i) 0 ∧
      ∀ j, i ≤ j → j < leapLoop hs jq i → jq.getD (2 * j) 0 < hs.getD (j + 1) 0 := by
  intro n
  induction n with
  | zero =>
    intro i a b
    obtain rfl : i = 12 := by omega
    rw [leapLoop, if_neg (by norm_num; exact h)]
    exact ⟨h, fun j a b => by omega⟩
  | succ n ih =>
    intro i a b
    rw [leapLoop]
    split_ifs with c
    · have : i ≠ 12 := by rintro rfl; exact absurd h (not_le.mpr c.1)
      obtain ⟨u, v⟩ := ih (i + 1) (by omega) (by omega)
      refine ⟨u, fun j p q => ?_⟩
      by_cases e : i = j
      · rw [← e]; exact c.1
      · exact v j (by omega) q
    · have : hs.getD (i + 1) 0 ≤ jq.getD (2 * i) 0 := by
        by_contra d
        exact c ⟨not_le.1 d, by omega⟩
      exact ⟨this, fun j a b => by omega⟩

theorem name_leap {li i : ℕ} (h1 : 1 ≤ li) (h2 : li ≤ 16) (hi : i < 15) : (name li i).2 < 0 ↔ i = li := by
  have key : ∀ li ∈ List.range 17, 1 ≤ li → ∀ i ∈ List.range 15, ((name li i).2 < 0 ↔ i = li) := by decide +kernel
  exact key li (by simp; omega) h1 i (by simpa using hi)

theorem name_end {st : ℤ} {li li' : ℕ} (h1 : 1 ≤ li) (h2 : li ≤ 16) (h : Link st li li') : name li st.toNat = (0, 11) := by
  have key : ∀ li ∈ List.range 17, 1 ≤ li → (li ≤ 12 → name li 13 = (0, 11)) ∧ (13 ≤ li → name li 12 = (0, 11)) := by decide +kernel
  have := key li (by simp; omega) h1
  unfold Link at h
  rcases h with ⟨rfl, h⟩ | ⟨rfl, h, -⟩
  · exact this.2 (by omega)
  · exact this.1 h

theorem Link.thirteen {li li' : ℕ} (h : Link ((13 : ℕ) : ℤ) li li') : li ≤ 12 := by
  rcases h with ⟨e, -⟩ | ⟨-, h, -⟩
  · norm_num at e
  · exact h

theorem Link.twelve {li li' : ℕ} (h : Link ((12 : ℕ) : ℤ) li li') : 13 ≤ li := by
  rcases h with ⟨-, h⟩ | ⟨e, -⟩
  · omega
  · norm_num at e

variable {A : Astro} {D N : ℤ → ℤ} {T : ℤ → ℚ} {lo hi : ℤ} (B : Facts A D N T lo hi)
include B

theorem principal_eq {Y : ℤ} (h1 : lo ≤ Y) (h2 : Y ≤ hi) {j : ℕ} (hj : j ≤ 12) :
    principal A Y j = D (24 * (Y - 2000) + 18 + 2 * j) + J2000 := by
  unfold principal
  rw [B.toBins.jq_get h1 h2 (by omega)]
  push_cast
  rfl

/-- principal terms are about 30 days from each other -/
theorem D_diff {Y : ℤ} (h1 : lo ≤ Y) (h2 : Y ≤ hi) {i j : ℕ} (hij : i ≤ j) (hj : j ≤ 12) :
    30.43685 * ((j : ℚ) - i) - 9.2 ≤ (D (24 * (Y - 2000) + 18 + 2 * j) : ℚ) - D (24 * (Y - 2000) + 18 + 2 * i) ∧
    (D (24 * (Y - 2000) + 18 + 2 * j) : ℚ) - D (24 * (Y - 2000) + 18 + 2 * i) ≤ 30.43685 * ((j : ℚ) - i) + 9.2 := by
  have a := B.d (24 * (Y - 2000) + 18 + 2 * i) (by omega) (by omega)
  have b := B.d (24 * (Y - 2000) + 18 + 2 * j) (by omega) (by omega)
  push_cast at a b
  constructor <;> linarith [a.1, a.2, b.1, b.2]

theorem D_lt {Y : ℤ} (h1 : lo ≤ Y) (h2 : Y ≤ hi) {i j : ℕ} (hij : i < j) (hj : j ≤ 12) :
    D (24 * (Y - 2000) + 18 + 2 * i) < D (24 * (Y - 2000) + 18 + 2 * j) := by
  have := (D_diff B h1 h2 hij.le hj).1
  have q : (i : ℚ) + 1 ≤ j := by exact_mod_cast hij
  have : (D (24 * (Y - 2000) + 18 + 2 * i) : ℚ) < D (24 * (Y - 2000) + 18 + 2 * j) := by linarith
  exact_mod_cast this

theorem D_le {Y : ℤ} (h1 : lo ≤ Y) (h2 : Y ≤ hi) {i j : ℕ} (hij : i ≤ j) (hj : j ≤ 12) :
    D (24 * (Y - 2000) + 18 + 2 * i) ≤ D (24 * (Y - 2000) + 18 + 2 * j) := by
  rcases hij.lt_or_eq with h | rfl
  · exact (D_lt B h1 h2 h hj).le
  · exact le_rfl

/-- in a year with thirteen months, a principal term is not before the month of its number -/
theorem not_before {Y : ℤ} (h1 : lo ≤ Y) (h2 : Y ≤ hi) (h : N (start B Y + 13) ≤ D (24 * (Y - 2000) + 18 + 24)) {j : ℕ} (hj : j ≤ 12) :
    N (start B Y + j) ≤ D (24 * (Y - 2000) + 18 + 2 * j) := by
  by_contra c
  rw [not_le] at c
  have r : ∀ j : ℤ, -1 ≤ j → j ≤ 16 → InRange lo hi (start B Y + j) := fun j => inRange B h1 h2
  have n := (N_diff B (k := start B Y + j) (j := 13 - j) (r _ (by omega) (by omega))
    (by rw [add_assoc]; exact r _ (by omega) (by omega))).1
  rw [show start B Y + (j : ℤ) + ((13 - j : ℕ) : ℤ) = start B Y + 13 by omega, Nat.cast_sub (by omega)] at n
  have d := (D_diff B h1 h2 hj le_rfl).2
  push_cast at n d
  have e1 : (N (start B Y + 13) : ℚ) ≤ D (24 * (Y - 2000) + 18 + 24) := by exact_mod_cast h
  have e2 : (D (24 * (Y - 2000) + 18 + 2 * j) : ℚ) < N (start B Y + j) := by exact_mod_cast c
  have e3 : (0 : ℚ) ≤ j := Nat.cast_nonneg j
  linarith

theorem leap_rule {Y : ℤ} (h1 : lo ≤ Y) (h2 : Y < hi) : ∃ n : ℕ, (n = 12 ∨ n = 13) ∧ start B (Y + 1) = start B Y + n ∧
    (∀ m, (make A Y).months[0]? = some m → (m.year, m.month) = (Y - 1, 11) ∧ InMonth m (principal A Y 0)) ∧
    (∀ m, (make A Y).months[n]? = some m → (m.year, m.month) = (Y, 11) ∧ InMonth m (principal A Y 12)) ∧
    (n = 13 → ∃ i m, i < 13 ∧ (make A Y).months[i]? = some m ∧ m.isLeap = true) ∧
    ∀ i < n, ∀ m, (make A Y).months[i]? = some m → (m.isLeap = true ↔
      n = 13 ∧ ¬ HasPrincipal A Y m ∧ ∀ i' < i, ∀ m', (make A Y).months[i']? = some m' → HasPrincipal A Y m') := by
  obtain ⟨a1, a2, -, -, -⟩ := start_spec B h1 h2.le
  obtain ⟨b1, b2, -, -, -⟩ := start_spec B (Y := Y + 1) (by omega) (by omega)
  rw [show 24 * (Y + 1 - 2000) + 18 = 24 * (Y - 2000) + 18 + 24 by ring] at b1 b2
  have L := link B h1 h2
  have lb := leapOf_bounds A Y
  -- the months of the list
  have mo : ∀ i, i < 15 → ∀ m, (make A Y).months[i]? = some m →
      (m.year, m.month) = (Y + (name (leapOf A Y) i).1, (name (leapOf A Y) i).2) ∧
      (m.isLeap = true ↔ i = leapOf A Y) ∧ ∀ d, InMonth m (d + J2000) ↔ N (start B Y + i) ≤ d ∧ d < N (start B Y + (i + 1 : ℕ)) := by
    intro i hi' m hm
    obtain ⟨m', e, e1, e2, e3⟩ := window B h1 h2.le hi'
    rw [hm] at e
    cases e
    rw [key_eq B h1 h2.le hi'] at e1
    rw [add_assoc, first_eq B h1 h2.le (by omega) (by omega), first_eq B h1 h2.le (by omega) (by omega)] at e3
    rw [first_eq B h1 h2.le (by omega) (by omega)] at e2
    refine ⟨e1, ?_, ?_⟩
    · rw [← name_leap lb.1 lb.2 hi']
      rw [Prod.mk.injEq] at e1
      unfold LunarMonth.isLeap
      rw [decide_eq_true_iff, e1.2]
    · intro d
      unfold InMonth
      rw [e2, e3]
      push_cast
      omega
  have pr := fun j (hj : j ≤ 12) => principal_eq B h1 h2.le hj
  have st : ∃ n : ℕ, (n = 12 ∨ n = 13) ∧ start B (Y + 1) = start B Y + n := by
    rcases L.step with e | e
    · exact ⟨12, Or.inl rfl, by push_cast; omega⟩
    · exact ⟨13, Or.inr rfl, by push_cast; omega⟩
  obtain ⟨n, hn, hs⟩ := st
  have en : start B (Y + 1) - start B Y = n := by omega
  rw [en] at L
  rw [hs] at b1 b2
  have p0 : principal A Y 0 = D (24 * (Y - 2000) + 18) + J2000 := by simpa using pr 0 (by norm_num)
  have p12 : principal A Y 12 = D (24 * (Y - 2000) + 18 + 24) + J2000 := by simpa using pr 12 (by norm_num)
  refine ⟨n, hn, hs, ?_, ?_, ?_, ?_⟩
  · intro m hm
    obtain ⟨q1, -, q3⟩ := mo 0 (by norm_num) m hm
    rw [name_zero lb.1 lb.2] at q1
    refine ⟨by rw [q1]; rfl, ?_⟩
    rw [p0, q3]
    exact ⟨by simpa using a1, by simpa using a2⟩
  · intro m hm
    obtain ⟨q1, -, q3⟩ := mo n (by omega) m hm
    have := name_end lb.1 lb.2 L
    rw [Int.toNat_natCast] at this
    rw [this] at q1
    refine ⟨by rw [q1]; simp, ?_⟩
    rw [p12, q3]
    exact ⟨b1, by push_cast; rw [← add_assoc]; exact b2⟩
  · rintro rfl
    have h12 : leapOf A Y ≤ 12 := L.thirteen
    obtain ⟨m, hm, -⟩ := window B h1 h2.le (i := leapOf A Y) (by omega)
    exact ⟨_, m, by omega, hm, (mo _ (by omega) m hm).2.1.2 rfl⟩
  · rcases hn with rfl | rfl
    · intro i hi' m hm
      have : 13 ≤ leapOf A Y := L.twelve
      rw [(mo i (by omega) m hm).2.1]
      constructor
      · intro e; omega
      · rintro ⟨e, -⟩; omega
    · have h12 : leapOf A Y ≤ 12 := L.thirteen
      push_cast at b1 b2
      -- the leap month was found by the loop
      have hl := leapOf_eq B h1 h2.le
      have nl : Y ∉ LEAP_11 ∧ Y ∉ LEAP_12 := by
        constructor
        · intro c; rw [if_pos c] at hl; omega
        · intro c
          by_cases c1 : Y ∈ LEAP_11
          · rw [if_pos c1] at hl; omega
          · rw [if_neg c1, if_pos c] at hl; omega
      rw [if_neg nl.1, if_neg nl.2, if_pos b1] at hl
      obtain ⟨s1, s2⟩ := leapLoop_spec (hsOf A Y) (computeJq A Y)
        (by rw [hs_get B h1 h2.le (i := 13) (by norm_num), B.toBins.jq_get h1 h2.le (i := 24) (by norm_num)]; exact b1)
        11 1 (by norm_num) (by norm_num)
      rw [← hl] at s1 s2
      generalize leapOf A Y = r at *
      rw [hs_get B h1 h2.le (by omega), B.toBins.jq_get h1 h2.le (by omega)] at s1
      have lt : ∀ j, j < r → D (24 * (Y - 2000) + 18 + 2 * j) < N (start B Y + (j + 1 : ℕ)) := by
        intro j hj
        rcases Nat.eq_zero_or_pos j with rfl | hp
        · simpa using a2
        · have := s2 j hp hj
          rw [hs_get B h1 h2.le (by omega), B.toBins.jq_get h1 h2.le (by omega)] at this
          push_cast at this ⊢
          exact this
      have has : ∀ i, i < r → ∀ m, (make A Y).months[i]? = some m → HasPrincipal A Y m := by
        intro i hi' m hm
        refine ⟨i, by omega, ?_⟩
        rw [pr i (by omega), (mo i (by omega) m hm).2.2]
        exact ⟨not_before B h1 h2.le b1 (by omega), lt i hi'⟩
      have none : ∀ m, (make A Y).months[r]? = some m → ¬ HasPrincipal A Y m := by
        rintro m hm ⟨j, hj, hj'⟩
        rw [pr j hj, (mo r (by omega) m hm).2.2] at hj'
        by_cases c : j < r
        · have := D_le B h1 h2.le (i := j) (j := r - 1) (by omega) (by omega)
          have l := lt (r - 1) (by omega)
          rw [show r - 1 + 1 = r by omega] at l
          omega
        · have := D_le B h1 h2.le (i := r) (j := j) (by omega) hj
          push_cast at s1
          push_cast at hj'
          omega
      intro i hi' m hm
      rw [(mo i (by omega) m hm).2.1]
      constructor
      · rintro rfl
        exact ⟨rfl, none m hm, fun i' hi m' => has i' hi m'⟩
      · rintro ⟨-, u, v⟩
        rcases lt_trichotomy i r with c | c | c
        · exact absurd (has i c m hm) u
        · exact c
        · obtain ⟨m', hm', -⟩ := window B h1 h2.le (i := r) (by omega)
          exact absurd (v r c m' hm') (none m' hm')

end Ephem
