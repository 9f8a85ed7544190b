import Verif.Proof.Ephem.NewYear

/-! # Lunar months and the months of the pillars

The first day of lunar month `m` lies not far from the principal term of this number, and so between the Jie of the month
before and the Jie of the month after. -/

open ShouXing High Spec Low LunarYear

namespace Ephem

/-- which principal term month `i` of a list is named after -/
theorem name_number {li i : ℕ} (h1 : 1 ≤ li) (h2 : li ≤ 16) (hi : i < 12 ∨ li ≤ 12 ∧ i < 13) :
    (i < li → 12 * (name li i).1 + |(name li i).2| + 1 = i ∧ 0 < (name li i).2) ∧
    (i = li → 12 * (name li i).1 + |(name li i).2| + 2 = i ∧ (name li i).2 < 0) ∧
    (li < i → 12 * (name li i).1 + |(name li i).2| + 2 = i ∧ 0 < (name li i).2) := by
  have key : ∀ li ∈ List.range 17, 1 ≤ li → ∀ i ∈ List.range 13, (i < 12 ∨ li ≤ 12 ∧ i < 13) →
    (i < li → 12 * (name li i).1 + |(name li i).2| + 1 = i ∧ 0 < (name li i).2) ∧
    (i = li → 12 * (name li i).1 + |(name li i).2| + 2 = i ∧ (name li i).2 < 0) ∧
    (li < i → 12 * (name li i).1 + |(name li i).2| + 2 = i ∧ 0 < (name li i).2) := by decide +kernel
  exact key li (by simp; omega) h1 i (by simp; omega) hi

variable {M : Libm} (hM : M.Good)
include hM

/-- every year has months 1 to 12 -/
theorem has_month {Y m : ℤ} (h1 : 1584 ≤ Y) (h2 : Y ≤ 6890) (m1 : 1 ≤ m) (m2 : m ≤ 12) : ∃ k, key (full hM).toFacts k = (Y, m) := by
  have tab : ∀ li ∈ List.range 17, 1 ≤ li → ∀ m ∈ List.range 12, ∃ i ∈ List.range 15, name li i = (0, (m : ℤ) + 1) := by decide +kernel
  have lb := leapOf_bounds (astro M) Y
  obtain ⟨i, hi, e⟩ := tab (leapOf (astro M) Y) (by simp; omega) lb.1 (m - 1).toNat (by simp; omega)
  refine ⟨start (full hM).toFacts Y + i, ?_⟩
  rw [key_eq (full hM).toFacts h1 h2 (by simpa using hi), e]
  simp only [add_zero, Prod.mk.injEq, true_and]
  omega

/-- the first day of a month and the principal term of its number -/
theorem near_window {W : ℤ} (h1 : 1585 ≤ W) (h2 : W ≤ 4999) {i : ℕ} (hi : (i : ℤ) < start (full hM).toFacts (W + 1) - start (full hM).toFacts W)
    {n : ℤ} (hn : n = 24 * (W + (name (leapOf (astro M) W) i).1 - 2000) + 20 + 2 * |(name (leapOf (astro M) W) i).2|) :
    (0 < (name (leapOf (astro M) W) i).2 → dayT M n - 37 ≤ dayN M (start (full hM).toFacts W + i) ∧ dayN M (start (full hM).toFacts W + i) ≤ dayT M n + 8) ∧
    ((name (leapOf (astro M) W) i).2 < 0 → dayT M n < dayN M (start (full hM).toFacts W + i) ∧ dayN M (start (full hM).toFacts W + i + 1) ≤ dayT M (n + 2)) := by
  have B := (full hM).toFacts
  obtain ⟨a1, a2, s1, s2, -⟩ := start_spec B (Y := W) (by omega) (by omega)
  obtain ⟨b1, b2, -, -, -⟩ := start_spec B (Y := W + 1) (by omega) (by omega)
  rw [show 24 * (W + 1 - 2000) + 18 = 24 * (W - 2000) + 18 + 24 by ring] at b1 b2
  have y1 : (1585 : ℚ) ≤ W := by exact_mod_cast h1
  have y2 : (W : ℚ) ≤ 4999 := by exact_mod_cast h2
  have r1 : ((-5160 : ℤ) : ℚ) < (start B W : ℤ) := by push_cast; linarith
  have r2 : ((start B W : ℤ) : ℚ) < ((37120 : ℤ) : ℚ) := by push_cast; linarith
  have r1 := Int.cast_lt.1 r1
  have r2 := Int.cast_lt.1 r2
  have st : ∀ a b : ℕ, a ≤ b → b ≤ 15 → dayN M (start B W + b) ≤ dayN M (start B W + a) + 30 * (b - a) := by
    intro a b h h'
    have := (steps hM (k := start B W + a) (j := b - a) (by omega) (by omega)).2
    rw [show start B W + (a : ℤ) + ((b - a : ℕ) : ℤ) = start B W + b by omega] at this
    omega
  have dd : ∀ a b : ℕ, a ≤ b → b ≤ 12 →
      30.43685 * ((b : ℚ) - a) - 9.2 ≤ (dayT M (24 * (W - 2000) + 18 + 2 * b) : ℚ) - dayT M (24 * (W - 2000) + 18 + 2 * a) :=
    fun a b h h' => (D_diff B (Y := W) (by omega) (by omega) h h').1
  -- from the solstice before and from the solstice after
  have low : ∀ a b c d : ℕ, a ≤ b → b ≤ 12 → d = c + (b - a) → d ≤ 15 → dayN M (start B W + c) ≤ dayT M (24 * (W - 2000) + 18 + 2 * a) →
      dayN M (start B W + d) ≤ dayT M (24 * (W - 2000) + 18 + 2 * b) + 8 := by
    intro a b c d h1 h2 h3 h4 h
    rcases h1.eq_or_lt with e | e
    · subst e
      rw [h3, Nat.sub_self, Nat.add_zero]
      omega
    have p := st c d (by omega) h4
    have q := dd a b h1 h2
    have ab : (a : ℚ) + 1 ≤ b := by exact_mod_cast e
    have p' : (dayN M (start B W + d) : ℚ) ≤ dayN M (start B W + c) + 30 * ((b : ℚ) - a) := by
      have : dayN M (start B W + d) ≤ dayN M (start B W + c) + 30 * ((b : ℤ) - a) := by omega
      exact_mod_cast this
    have h' : (dayN M (start B W + c) : ℚ) ≤ dayT M (24 * (W - 2000) + 18 + 2 * a) := by exact_mod_cast h
    have : (dayN M (start B W + d) : ℚ) < ((dayT M (24 * (W - 2000) + 18 + 2 * b) + 9 : ℤ) : ℚ) := by push_cast; linarith
    have := Int.cast_lt.1 this
    omega
  have high : ∀ b d e : ℕ, b < 12 → e = d + (12 - b) → e ≤ 13 → dayT M (24 * (W - 2000) + 18 + 24) < dayN M (start B W + (e + 1 : ℕ)) →
      dayT M (24 * (W - 2000) + 18 + 2 * b) - 37 ≤ dayN M (start B W + d) := by
    intro b d e h1 h3 h4 h
    have p := st d (e + 1) (by omega) (by omega)
    have q := dd b 12 h1.le le_rfl
    have ab : (b : ℚ) + 1 ≤ 12 := by exact_mod_cast h1
    have p' : (dayN M (start B W + (e + 1 : ℕ)) : ℚ) ≤ dayN M (start B W + d) + 30 * (13 - (b : ℚ)) := by
      have : dayN M (start B W + (e + 1 : ℕ)) ≤ dayN M (start B W + d) + 30 * (13 - (b : ℤ)) := by omega
      exact_mod_cast this
    have h' : ((dayT M (24 * (W - 2000) + 18 + 24) + 1 : ℤ) : ℚ) ≤ dayN M (start B W + (e + 1 : ℕ)) := by exact_mod_cast h
    push_cast at q h' p'
    have : ((dayT M (24 * (W - 2000) + 18 + 2 * b) - 38 : ℤ) : ℚ) < dayN M (start B W + d) := by push_cast; linarith
    have := Int.cast_lt.1 this
    omega
  have lb := leapOf_bounds (astro M) W
  have L := link B (Y := W) (by omega) (by omega)
  rcases start_next B (Y := W) (by omega) (by omega) with ⟨e, h12⟩ | ⟨e, h13⟩
  · have l13 : 13 ≤ leapOf (astro M) W := by
      rw [e, show start B W + 12 - start B W = ((12 : ℕ) : ℤ) by push_cast; ring] at L
      exact L.twelve
    have hi' : i < 12 := by omega
    obtain ⟨q1, q2⟩ := (name_number lb.1 lb.2 (Or.inl hi')).1 (by omega)
    obtain rfl : n = 24 * (W - 2000) + 18 + 2 * i := by omega
    refine ⟨fun _ => ⟨?_, ?_⟩, fun h => by omega⟩
    · refine high i i 12 hi' (by omega) (by norm_num) ?_
      push_cast
      exact h12
    · refine low 0 i 0 i (by omega) (by omega) (by omega) (by omega) ?_
      push_cast
      simpa using a1
  · have h12 : leapOf (astro M) W ≤ 12 := by
      rw [e, show start B W + 13 - start B W = ((13 : ℕ) : ℤ) by push_cast; ring] at L
      exact L.thirteen
    rw [e] at b1 b2
    have hi' : i < 13 := by omega
    have hl := leapOf_eq B (Y := W) (by omega) (by omega)
    have nl : W ∉ LEAP_11 ∧ W ∉ LEAP_12 := by
      constructor
      · intro c; rw [if_pos c] at hl; omega
      · intro c
        by_cases c1 : W ∈ LEAP_11
        · rw [if_pos c1] at hl; omega
        · rw [if_neg c1, if_pos c] at hl; omega
    rw [if_neg nl.1, if_neg nl.2, if_pos b1] at hl
    obtain ⟨u1, u2⟩ := leapLoop_spec (hsOf (astro M) W) (computeJq (astro M) W)
      (by rw [hs_get B (Y := W) (by omega) (by omega) (i := 13) (by norm_num), B.toBins.jq_get (Y := W) (by omega) (by omega) (i := 24) (by norm_num)]; exact b1)
      11 1 (by norm_num) (by norm_num)
    rw [← hl] at u1 u2
    obtain ⟨n1, n2, n3⟩ := name_number (li := leapOf (astro M) W) (i := i) lb.1 lb.2 (Or.inr ⟨h12, hi'⟩)
    generalize leapOf (astro M) W = r at *
    rw [hs_get B (Y := W) (by omega) (by omega) (by omega), B.toBins.jq_get (Y := W) (by omega) (by omega) (by omega)] at u1
    have lt : ∀ j, j < r → dayT M (24 * (W - 2000) + 18 + 2 * j) < dayN M (start B W + (j + 1 : ℕ)) := by
      intro j hj
      rcases Nat.eq_zero_or_pos j with rfl | hp
      · simpa using a2
      · have := u2 j hp hj
        rw [hs_get B (Y := W) (by omega) (by omega) (by omega), B.toBins.jq_get (Y := W) (by omega) (by omega) (by omega)] at this
        push_cast at this ⊢
        exact this
    push_cast at u1
    rcases lt_trichotomy i r with c | c | c
    · obtain ⟨q1, q2⟩ := n1 c
      obtain rfl : n = 24 * (W - 2000) + 18 + 2 * i := by omega
      have x1 := not_before B (Y := W) (by omega) (by omega) b1 (j := i) (by omega)
      have x2 := lt i c
      have x3 := st i (i + 1) (by omega) (by omega)
      push_cast at x3 x2
      exact ⟨fun _ => ⟨by omega, by omega⟩, fun h => by omega⟩
    · obtain ⟨q1, q2⟩ := n2 c
      have x2 := lt (r - 1) (by omega)
      rw [show r - 1 + 1 = r by omega, show 24 * (W - 2000) + 18 + 2 * ((r - 1 : ℕ) : ℤ) = n by omega] at x2
      rw [show 24 * (W - 2000) + 18 + 2 * (r : ℤ) = n + 2 by omega] at u1
      subst c
      exact ⟨fun h => by omega, fun _ => ⟨x2, by rw [add_assoc]; exact u1⟩⟩
    · obtain ⟨q1, q2⟩ := n3 c
      obtain ⟨j, rfl⟩ : ∃ j, i = j + 1 := ⟨i - 1, by omega⟩
      obtain rfl : n = 24 * (W - 2000) + 18 + 2 * j := by omega
      refine ⟨fun _ => ⟨?_, ?_⟩, fun h => by omega⟩
      · refine high j (j + 1) 13 (by omega) (by omega) (by norm_num) ?_
        push_cast
        rw [show start B W + 13 + 1 = start B W + 14 by ring] at b2
        exact b2
      · refine low r j (r + 1) (j + 1) (by omega) (by omega) (by omega) (by omega) ?_
        push_cast
        exact u1

/-- the first day of a month, that of the next, and the principal term of its number -/
theorem near_principal {k Y m : ℤ} (hk : key (full hM).toFacts k = (Y, m)) (h1 : 1586 ≤ Y) (h2 : Y ≤ 4998) :
    ∃ a b, first (full hM).toFacts k = a + J2000 ∧ first (full hM).toFacts (k + 1) = b + J2000 ∧ a + 29 ≤ b ∧ b ≤ a + 30 ∧
      (0 < m → dayT M (24 * (Y - 2000) + 20 + 2 * |m|) - 37 ≤ a ∧ a ≤ dayT M (24 * (Y - 2000) + 20 + 2 * |m|) + 8) ∧
      (m < 0 → dayT M (24 * (Y - 2000) + 20 + 2 * |m|) < a ∧ b ≤ dayT M (24 * (Y - 2000) + 20 + 2 * |m| + 2)) := by
  have B := (full hM).toFacts
  have hY : (key B k).1 = Y := by rw [hk]
  obtain ⟨g1, g2⟩ := home B (k := k) (by rw [hY]; omega) (by rw [hY]; omega)
  rw [hY] at g1 g2
  have main : ∀ W, 1585 ≤ W → W ≤ 4999 → start B W ≤ k → k < start B (W + 1) → ∃ a b, first B k = a + J2000 ∧ first B (k + 1) = b + J2000 ∧ a + 29 ≤ b ∧ b ≤ a + 30 ∧
      (0 < m → dayT M (24 * (Y - 2000) + 20 + 2 * |m|) - 37 ≤ a ∧ a ≤ dayT M (24 * (Y - 2000) + 20 + 2 * |m|) + 8) ∧
      (m < 0 → dayT M (24 * (Y - 2000) + 20 + 2 * |m|) < a ∧ b ≤ dayT M (24 * (Y - 2000) + 20 + 2 * |m| + 2)) := by
    intro W w1 w2 k1 k2
    obtain ⟨i, rfl⟩ : ∃ i : ℕ, k = start B W + i := ⟨(k - start B W).toNat, by omega⟩
    obtain ⟨-, -, s1, s2, -⟩ := start_spec B (Y := W) (by omega) (by omega)
    have y1 : (1585 : ℚ) ≤ W := by exact_mod_cast w1
    have y2 : (W : ℚ) ≤ 4999 := by exact_mod_cast w2
    have r1 : ((-5160 : ℤ) : ℚ) < (start B W : ℤ) := by push_cast; linarith
    have r2 : ((start B W : ℤ) : ℚ) < ((37120 : ℤ) : ℚ) := by push_cast; linarith
    have r1 := Int.cast_lt.1 r1
    have r2 := Int.cast_lt.1 r2
    have nx := start_next B (Y := W) (by omega) (by omega)
    rw [key_eq B (by omega) (by omega) (by omega), Prod.mk.injEq] at hk
    have t := steps hM (k := start B W + i) (j := 1) (by omega) (by push_cast; omega)
    have e := near_window hM w1 w2 (i := i) (by omega) rfl
    rw [hk.1, hk.2] at e
    push_cast at t
    refine ⟨_, _, first_eq B (by omega) (by omega) (by omega) (by omega), by rw [add_assoc]; exact first_eq B (by omega) (by omega) (by omega) (by omega), ?_⟩
    rw [← add_assoc]
    exact ⟨by omega, by omega, e⟩
  by_cases c : k < start B (Y + 1)
  · exact main Y (by omega) (by omega) g1 c
  · refine main (Y + 1) (by omega) (by omega) (by omega) ?_
    have a := start_next B (Y := Y) (by omega) (by omega)
    have b := start_next B (Y := Y + 1) (by omega) (by omega)
    omega

/-- terms are at least 14.3 days from each other -/
theorem termV_gap {n : ℤ} (h1 : 24 * (1584 - 2000) ≤ n) {j : ℕ} (h2 : n + j ≤ 24 * (6892 - 2000)) : termV M n + 14.3 * j ≤ termV M (n + j) := by
  induction j with
  | zero => simp
  | succ j ih =>
    have a := ih (by push_cast at h2; omega)
    have b := (one_v hM (n := n + j) (by omega) (by push_cast at h2; omega)).1
    rw [show n + ((j + 1 : ℕ) : ℤ) = n + j + 1 by push_cast; ring]
    push_cast
    linarith

/-- the day of a term from its moment -/
theorem moment_v {n : ℤ} (h1 : 24 * (1584 - 2000) + 17 ≤ n) (h2 : n ≤ 24 * (6890 - 2000) + 47) :
    termV M n + 2451545 - 1.0011 ≤ JD.jdn (moment (full hM) n).date ∧ (JD.jdn (moment (full hM) n).date : ℚ) ≤ termV M n + 2451545 + 0.0011 := by
  have x := moment_near (full hM) h1 h2
  have tx := abs_le.1 (term_facts hM (n := n) (by omega) (by omega)).2.2.2
  constructor <;> linarith [x.1, x.2, tx.1, tx.2]

theorem moment_lt {n m : ℤ} (h1 : 24 * (1584 - 2000) + 17 ≤ n) (h : n < m) (h2 : m ≤ 24 * (6890 - 2000) + 47) :
    JD.jdn (moment (full hM) n).date < JD.jdn (moment (full hM) m).date := by
  have a := moment_v hM (n := n) h1 (by omega)
  have b := moment_v hM (n := m) (by omega) h2
  have g := termV_gap hM (n := n) (j := (m - n).toNat) (by omega) (by omega)
  rw [show n + ((m - n).toNat : ℤ) = m by omega] at g
  have : (1 : ℚ) ≤ (m - n).toNat := by exact_mod_cast (by omega : 1 ≤ (m - n).toNat)
  have : (JD.jdn (moment (full hM) n).date : ℚ) < JD.jdn (moment (full hM) m).date := by linarith [a.2, b.1]
  exact_mod_cast this

/-- the month of a day lies between the Jie of the month before and the second Jie after -/
theorem jie_around {k Y m d : ℤ} (hk : key (full hM).toFacts k = (Y, m)) (h1 : 1586 ≤ Y) (h2 : Y ≤ 4998) (hm : 1 ≤ |m| ∧ |m| ≤ 12)
    (d1 : first (full hM).toFacts k ≤ d) (d2 : d < first (full hM).toFacts (k + 1)) :
    JD.jdn (moment (full hM) (24 * (Y - 2000) + 20 + 2 * |m| - 3)).date < d ∧ d < JD.jdn (moment (full hM) (24 * (Y - 2000) + 20 + 2 * |m| + 3)).date ∧
    (m < 0 → JD.jdn (moment (full hM) (24 * (Y - 2000) + 20 + 2 * |m| - 1)).date < d) ∧
    (d = first (full hM).toFacts k → d < JD.jdn (moment (full hM) (24 * (Y - 2000) + 20 + 2 * |m| + 1)).date) := by
  obtain ⟨a, b, ea, eb, ab, ba, pos, neg⟩ := near_principal hM hk h1 h2
  generalize hn : 24 * (Y - 2000) + 20 + 2 * |m| = n at *
  have hn1 : 24 * (1584 - 2000) + 60 ≤ n := by omega
  have hn2 : n ≤ 24 * (6890 - 2000) := by omega
  have v := term_facts hM (n := n) (by omega) (by omega)
  have v' := term_facts hM (n := n + 2) (by omega) (by omega)
  have g3 := termV_gap hM (n := n - 3) (j := 3) (by omega) (by push_cast; omega)
  have g1 := termV_gap hM (n := n - 1) (j := 1) (by omega) (by push_cast; omega)
  have f1 := termV_gap hM (n := n) (j := 1) (by omega) (by push_cast; omega)
  have f3 := termV_gap hM (n := n) (j := 3) (by omega) (by push_cast; omega)
  have f2 := termV_gap hM (n := n + 2) (j := 1) (by omega) (by push_cast; omega)
  have f2' := (one_v hM (n := n + 1) (by omega) (by omega)).2
  rw [show n - 3 + ((3 : ℕ) : ℤ) = n by push_cast; ring] at g3
  rw [show n - 1 + ((1 : ℕ) : ℤ) = n by push_cast; ring] at g1
  rw [show n + 2 + ((1 : ℕ) : ℤ) = n + 3 by push_cast; ring] at f2
  rw [show n + 1 + 1 = n + 2 by ring] at f2'
  push_cast at g3 g1 f1 f3 f2
  have m3 := (moment_v hM (n := n - 3) (by omega) (by omega)).2
  have m1 := (moment_v hM (n := n - 1) (by omega) (by omega)).2
  have p1 := (moment_v hM (n := n + 1) (by omega) (by omega)).1
  have p3 := (moment_v hM (n := n + 3) (by omega) (by omega)).1
  have t1 := abs_le.1 v.2.2.1
  have t2 := abs_le.1 v.2.2.2
  have t1' := abs_le.1 v'.2.2.1
  have t2' := abs_le.1 v'.2.2.2
  have hJ : J2000 = 2451545 := rfl
  -- the four days in terms of the principal term
  have q3 : JD.jdn (moment (full hM) (n - 3)).date < dayT M n - 38 + J2000 := by
    rw [hJ]
    have : (JD.jdn (moment (full hM) (n - 3)).date : ℚ) < ((dayT M n - 38 + 2451545 : ℤ) : ℚ) := by push_cast; linarith [t1.2, t2.2]
    exact Int.cast_lt.1 this
  have q1 : JD.jdn (moment (full hM) (n - 1)).date < dayT M n + J2000 := by
    rw [hJ]
    have : (JD.jdn (moment (full hM) (n - 1)).date : ℚ) < ((dayT M n + 2451545 : ℤ) : ℚ) := by push_cast; linarith [t1.2, t2.2]
    exact Int.cast_lt.1 this
  have w1 : dayT M n + 9 + J2000 < JD.jdn (moment (full hM) (n + 1)).date := by
    rw [hJ]
    have : ((dayT M n + 9 + 2451545 : ℤ) : ℚ) < JD.jdn (moment (full hM) (n + 1)).date := by push_cast; linarith [t1.1, t2.1]
    exact Int.cast_lt.1 this
  have w3 : dayT M n + 38 + J2000 < JD.jdn (moment (full hM) (n + 3)).date := by
    rw [hJ]
    have : ((dayT M n + 38 + 2451545 : ℤ) : ℚ) < JD.jdn (moment (full hM) (n + 3)).date := by push_cast; linarith [t1.1, t2.1]
    exact Int.cast_lt.1 this
  have w3' : dayT M (n + 2) + 9 + J2000 < JD.jdn (moment (full hM) (n + 3)).date := by
    rw [hJ]
    have : ((dayT M (n + 2) + 9 + 2451545 : ℤ) : ℚ) < JD.jdn (moment (full hM) (n + 3)).date := by push_cast; linarith [t1'.1, t2'.1]
    exact Int.cast_lt.1 this
  have w1' : dayT M (n + 2) - 21 + J2000 < JD.jdn (moment (full hM) (n + 1)).date := by
    rw [hJ]
    have : ((dayT M (n + 2) - 21 + 2451545 : ℤ) : ℚ) < JD.jdn (moment (full hM) (n + 1)).date := by push_cast; linarith [t1'.1, t2'.1]
    exact Int.cast_lt.1 this
  rcases lt_or_gt_of_ne (show m ≠ 0 by rintro rfl; simp at hm) with c | c
  · have := neg c
    refine ⟨by omega, by omega, fun _ => by omega, fun _ => by omega⟩
  · have := pos c
    refine ⟨by omega, by omega, fun h => by omega, fun _ => by omega⟩

/-- the pillar of the month by days and by instants: number `P` from the Jie with number `2 P - 47887` on -/
theorem pillar_between {s : Solar} (hs : s.Valid) (h1 : 1584 < s.year) (h2 : s.year < 6890) {l : Lunar} (hl : Lunar.fromSolar (astro M) s = .ok l) :
    (∃ P, l.getMonthInGanZhi = .ok (ganZhi P) ∧ 24 * (1584 - 2000) + 17 ≤ 2 * P - 47887 ∧ 2 * P - 47885 ≤ 24 * (6890 - 2000) + 47 ∧
      JD.jdn (moment (full hM) (2 * P - 47887)).date ≤ JD.jdn s.date ∧ JD.jdn s.date < JD.jdn (moment (full hM) (2 * P - 47885)).date) ∧
    (∃ P, l.getMonthInGanZhiExact = .ok (ganZhi P) ∧ 24 * (1584 - 2000) + 17 ≤ 2 * P - 47887 ∧ 2 * P - 47885 ≤ 24 * (6890 - 2000) + 47 ∧
      JD.jdn (moment (full hM) (2 * P - 47887)).date ≤ JD.jdn s.date ∧ JD.jdn s.date ≤ JD.jdn (moment (full hM) (2 * P - 47885)).date) := by
  obtain ⟨f1, Pr, -, -, t⟩ := made hM hs h1 h2 hl
  obtain ⟨⟨k, k1, k2, k3⟩, ⟨j, j1, j2, j3⟩⟩ := C35_count_exists l.solar Pr.made.1 _ _ Pr.table
  have e := C35_month_pillar_exact l Pr.made Pr.range Pr.table Pr.near k k1 k2 k3
  have d := C35_month_pillar_day l Pr.made Pr.range Pr.table Pr.near j j1 j2 j3
  rw [f1] at e d k2 k3 j2 j3
  have val : ∀ i : ℕ, i < 31 → (moment (full hM) (24 * (s.year - 2000) + 17 + i)).Valid :=
    fun i hi => (moment_spec (full hM) (n := 24 * (s.year - 2000) + 17 + i) (by omega) (by omega)).2.1
  -- the first Jie of the table is in the year before, the last in the year after
  have y0 : (moment (full hM) (24 * (s.year - 2000) + 17 + (0 : ℕ))).year ≤ s.year - 1 := by
    refine moment_le (full hM) (by push_cast; omega) (by push_cast; omega) (by omega) (by omega) ?_
    push_cast
    linarith
  have y30 : s.year + 1 ≤ (moment (full hM) (24 * (s.year - 2000) + 17 + (30 : ℕ))).year := by
    refine moment_ge (full hM) (by push_cast; omega) (by push_cast; omega) (by omega) (by omega) ?_
    push_cast
    linarith
  have z0 : JD.jdn (moment (full hM) (24 * (s.year - 2000) + 17 + (0 : ℕ))).date < JD.jdn s.date :=
    (JD.jdn_lt_iff (val 0 (by norm_num)).1 hs.1).2 (.inl (by change (moment (full hM) _).year < s.year; omega))
  have z30 : JD.jdn s.date < JD.jdn (moment (full hM) (24 * (s.year - 2000) + 17 + (30 : ℕ))).date :=
    (JD.jdn_lt_iff hs.1 (val 30 (by norm_num)).1).2 (.inl (by change s.year < (moment (full hM) _).year; omega))
  have core : ∀ k : ℕ, k ≤ 16 → (∀ i < k, 2 * i < 31 → JD.jdn (moment (full hM) (24 * (s.year - 2000) + 17 + (2 * i : ℕ))).date ≤ JD.jdn s.date) →
      (2 * k < 31 → JD.jdn s.date ≤ JD.jdn (moment (full hM) (24 * (s.year - 2000) + 17 + (2 * k : ℕ))).date) → 1 ≤ k ∧ k ≤ 15 := by
    intro k a b c
    constructor
    · by_contra h
      obtain rfl : k = 0 := by omega
      have := c (by norm_num)
      exact absurd z0 (not_lt.2 this)
    · by_contra h
      obtain rfl : k = 16 := by omega
      have := b 15 (by norm_num) (by norm_num)
      exact absurd z30 (not_lt.2 this)
  have sec : ∀ x y : Solar, x.Valid → y.Valid → Cal.secNo x ≤ Cal.secNo y → JD.jdn x.date ≤ JD.jdn y.date := by
    intro x y hx hy h
    have cx := hx.2
    have cy := hy.2
    rw [JD.jdn_eq hx.1, JD.jdn_eq hy.1]
    unfold ClockOk at cx cy
    unfold Cal.secNo at h
    omega
  have day : ∀ x y : Solar, x.Valid → y.Valid → (Cal.dn x.date ≤ Cal.dn y.date ↔ JD.jdn x.date ≤ JD.jdn y.date) := by
    intro x y hx hy
    rw [JD.jdn_eq hx.1, JD.jdn_eq hy.1]
    omega
  constructor
  · have a : ∀ i < j, 2 * i < 31 → JD.jdn (moment (full hM) (24 * (s.year - 2000) + 17 + (2 * i : ℕ))).date ≤ JD.jdn s.date := fun i hi hi' =>
      (day _ _ (val _ hi') hs).1 ((Solar.dayAtOrBefore_iff (val _ hi') hs).1 (j2 i hi _ (t _ hi')))
    have b : 2 * j < 31 → JD.jdn s.date < JD.jdn (moment (full hM) (24 * (s.year - 2000) + 17 + (2 * j : ℕ))).date := fun hj => by
      have := (Solar.dayBefore_iff hs (val _ hj)).1 (j3 _ (t _ hj))
      rw [JD.jdn_eq hs.1, JD.jdn_eq (val _ hj).1]
      omega
    obtain ⟨c1, c2⟩ := core j j1 a (fun h => (b h).le)
    refine ⟨_, d, by omega, by omega, ?_, ?_⟩
    · have := a (j - 1) (by omega) (by omega)
      rwa [show 24 * (s.year - 2000) + 17 + ((2 * (j - 1) : ℕ) : ℤ) = 2 * (12 * (s.year - 4) + j - 1) - 47887 by omega] at this
    · have := b (by omega)
      rwa [show 24 * (s.year - 2000) + 17 + ((2 * j : ℕ) : ℤ) = 2 * (12 * (s.year - 4) + j - 1) - 47885 by omega] at this
  · have a : ∀ i < k, 2 * i < 31 → JD.jdn (moment (full hM) (24 * (s.year - 2000) + 17 + (2 * i : ℕ))).date ≤ JD.jdn s.date := fun i hi hi' =>
      sec _ _ (val _ hi') hs ((Solar.atOrBefore_iff (val _ hi') hs).1 (k2 i hi _ (t _ hi')))
    have b : 2 * k < 31 → JD.jdn s.date ≤ JD.jdn (moment (full hM) (24 * (s.year - 2000) + 17 + (2 * k : ℕ))).date := fun hk =>
      sec _ _ hs (val _ hk) ((Solar.before_iff hs (val _ hk)).1 (k3 _ (t _ hk))).le
    obtain ⟨c1, c2⟩ := core k k1 a b
    refine ⟨_, e, by omega, by omega, ?_, ?_⟩
    · have := a (k - 1) (by omega) (by omega)
      rwa [show 24 * (s.year - 2000) + 17 + ((2 * (k - 1) : ℕ) : ℤ) = 2 * (12 * (s.year - 4) + k - 1) - 47887 by omega] at this
    · have := b (by omega)
      rwa [show 24 * (s.year - 2000) + 17 + ((2 * k : ℕ) : ℤ) = 2 * (12 * (s.year - 4) + k - 1) - 47885 by omega] at this

end Ephem
