import Verif.Props.Everyday
import Verif.Props.TermDates

/-! # C110: the dog days and the nine nines by the civil date

C87 tells the decades of summer and the nines of winter from the solar terms of the table of a moment.  Here the terms are gone: a
year has its day of July and its day of August, and its day of December, and these say what every moment of the season is told. -/

section
open Spec LunarYear ShouXing Lunar

variable {M : Libm}

/-- days of the summer counted from 1 June -/
private theorem summer {Y : ℤ} (hY : 1584 ≤ Y) {d : ℤ} (hd : 1 ≤ d) : JD.jdn ⟨Y, 6, d⟩ = JD.jdn ⟨Y, 6, 1⟩ + (d - 1) ∧
    JD.jdn ⟨Y, 7, d⟩ = JD.jdn ⟨Y, 6, 1⟩ + 30 + (d - 1) ∧ JD.jdn ⟨Y, 8, d⟩ = JD.jdn ⟨Y, 6, 1⟩ + 61 + (d - 1) := by
  unfold JD.jdn JD.corr JD.my JD.mm
  dsimp only
  norm_num
  refine ⟨?_, ?_, ?_⟩ <;> split_ifs <;> omega

/-- days of the winter counted from 1 December -/
private theorem winter {Y : ℤ} (hY : 1584 ≤ Y) {d : ℤ} (hd : 1 ≤ d) : JD.jdn ⟨Y, 12, d⟩ = JD.jdn ⟨Y, 12, 1⟩ + (d - 1) ∧
    JD.jdn ⟨Y + 1, 1, d⟩ = JD.jdn ⟨Y, 12, 1⟩ + 31 + (d - 1) ∧ JD.jdn ⟨Y + 1, 2, d⟩ = JD.jdn ⟨Y, 12, 1⟩ + 62 + (d - 1) ∧
    JD.jdn ⟨Y, 7, 1⟩ = JD.jdn ⟨Y, 12, 1⟩ - 153 ∧ JD.jdn ⟨Y, 12, 1⟩ + 210 < JD.jdn ⟨Y + 1, 7, 1⟩ := by
  have c : (Y + 1) / 100 - (Y + 1) / 100 / 4 ≤ Y / 100 - Y / 100 / 4 + 1 := by
    have : (Y + 1) / 100 = Y / 100 ∨ (Y + 1) / 100 = Y / 100 + 1 := by omega
    omega
  unfold JD.jdn JD.corr JD.my JD.mm
  dsimp only
  norm_num
  refine ⟨?_, ?_, ?_, ?_, ?_⟩ <;> split_ifs <;> omega

private theorem isGeng_iff (n : ℤ) : IsGeng n ↔ (n - 11) % 10 = 6 := by
  unfold IsGeng stem
  have h : 0 ≤ (n - 11) % 10 ∧ (n - 11) % 10 < 10 := by omega
  generalize (n - 11) % 10 = m at h ⊢
  have key : ∀ m : Fin 10, (stems.getD (((m : ℕ) : ℤ)).toNat '?' = '庚') ↔ ((m : ℕ) : ℤ) = 6 := by decide
  have := key ⟨m.toNat, by omega⟩
  simpa [Int.toNat_of_nonneg h.1] using this

/-- **C110** the dog days of a year: 初伏 begins on a day `d` of July and 末伏 on day `d - 11` or `d - 1` of August, both 庚 days; the
three parts follow one another without a gap and there are no dog days outside. -/
theorem C110_fu (hM : M.Good) (Y : ℤ) (h1 : 1584 < Y) (h2 : Y < 6890) :
    ∃ d e : ℤ, (6 ≤ d ∧ d ≤ 22) ∧ (e = d - 11 ∨ e = d - 1) ∧ (1 ≤ e ∧ e ≤ 18) ∧ (Y ≤ 2731 → 10 ≤ d ∧ 6 ≤ e) ∧ (1961 ≤ Y → Y ≤ 2099 → d ≤ 21 ∧ e ≤ 17) ∧
      ∃ F E, IsDay F ⟨Y, 7, d⟩ ∧ IsDay E ⟨Y, 8, e⟩ ∧ IsGeng F ∧ IsGeng E ∧
        ∀ (s : Solar), s.Valid → s.year = Y → ∀ n, IsDay n s.date → ∀ l, Lunar.fromSolar (astro M) s = .ok l →
          l.getFu (astro M) = .ok (if n < F then none else if n < F + 10 then some (['初', '伏'], n - F + 1)
            else if n < E then some (['中', '伏'], n - (F + 10) + 1) else if n < E + 10 then some (['末', '伏'], n - E + 1) else none) := by
  obtain ⟨v1, -⟩ := Ephem.moment_window hM h1.le h2.le (i := 13) (by norm_num)
  obtain ⟨v2, -⟩ := Ephem.moment_window hM h1.le h2.le (i := 16) (by norm_num)
  obtain ⟨b1, b1', y1, m1, u1, u1'⟩ := Ephem.possible_date hM h1.le h2.le (i := 13) (by norm_num) (by norm_num)
  obtain ⟨b2, b2', y2, m2, u2, u2'⟩ := Ephem.possible_date hM h1.le h2.le (i := 16) (by norm_num) (by norm_num)
  have r1 := fun h => Ephem.rare_date hM (Y := Y) h1.le h (i := 13) (by norm_num) (by norm_num)
  have r2 := fun h => Ephem.rare_date hM (Y := Y) h1.le h (i := 16) (by norm_num) (by norm_num)
  have q1 := fun h h' => Ephem.usual_date hM (Y := Y) h h' (i := 13) (by norm_num) (by norm_num)
  have q2 := fun h h' => Ephem.usual_date hM (Y := Y) h h' (i := 16) (by norm_num) (by norm_num)
  have sd := Ephem.summer_days hM h1.le h2.le
  have terms : ∀ (s : Solar), s.Valid → s.year = Y → ∀ l, Lunar.fromSolar (astro M) s = .ok l →
      term l.jieQi ['夏', '至'] = .ok (Ephem.moment (Ephem.full hM) (24 * (Y - 2000) + 17 + (13 : ℕ))) ∧
      term l.jieQi ['立', '秋'] = .ok (Ephem.moment (Ephem.full hM) (24 * (Y - 2000) + 17 + (16 : ℕ))) := by
    intro s hs hY l hl
    subst hY
    obtain ⟨f1, P, -, -, t⟩ := Ephem.made hM hs h1 h2 hl
    exact ⟨term_key P.table.len (by decide) (t 13 (by norm_num)), term_key P.table.len (by decide) (t 16 (by norm_num))⟩
  generalize Ephem.moment (Ephem.full hM) (24 * (Y - 2000) + 17 + (13 : ℕ)) = x at *
  generalize Ephem.moment (Ephem.full hM) (24 * (Y - 2000) + 17 + (16 : ℕ)) = q at *
  simp only [possibleDays, rareDays, usualDays, Nat.reduceSub, List.getElem?_cons_succ, List.getElem?_cons_zero, Option.some.injEq] at b1' b2' r1 r2 q1 q2
  subst b1' b2'
  have r1 : Y ≤ 2731 → 20 ≤ x.day := fun h => by obtain ⟨_, e, -, -, a, -⟩ := r1 h; subst e; exact_mod_cast a
  have r2 : Y ≤ 2731 → 6 ≤ q.day := fun h => by obtain ⟨_, e, -, -, a, -⟩ := r2 h; subst e; exact_mod_cast a
  have q1 : 1961 ≤ Y → Y ≤ 2099 → x.day ≤ 22 := fun h h' => by obtain ⟨_, e, -, -, -, a⟩ := q1 h h'; subst e; exact_mod_cast a
  have q2 : 1961 ≤ Y → Y ≤ 2099 → q.day ≤ 8 := fun h h' => by obtain ⟨_, e, -, -, -, a⟩ := q2 h h'; subst e; exact_mod_cast a
  norm_num at u1 u1' u2 u2' m1 m2
  have dx : x.date = ⟨Y, 6, x.day⟩ := by rw [← y1, ← m1]; rfl
  have dq : q.date = ⟨Y, 8, q.day⟩ := by rw [← y2, ← m2]; rfl
  have jx := (summer h1.le (d := x.day) (by omega)).1
  have jq := (summer h1.le (d := q.day) (by omega)).2.2
  rw [← dx] at jx
  rw [← dq] at jq
  -- the first Geng days
  obtain ⟨g, hg, g1, g2⟩ : ∃ g, IsGeng g ∧ JD.jdn x.date ≤ g ∧ g < JD.jdn x.date + 10 := by
    refine ⟨JD.jdn x.date + (17 - JD.jdn x.date) % 10, (isGeng_iff _).2 ?_, ?_, ?_⟩ <;> omega
  obtain ⟨m, hm, k1, k2⟩ : ∃ g, IsGeng g ∧ JD.jdn q.date ≤ g ∧ g < JD.jdn q.date + 10 := by
    refine ⟨JD.jdn q.date + (17 - JD.jdn q.date) % 10, (isGeng_iff _).2 ?_, ?_, ?_⟩ <;> omega
  have G := (isGeng_iff g).1 hg
  have K := (isGeng_iff m).1 hm
  have gm : m = g + 40 ∨ m = g + 50 := by omega
  set J := JD.jdn ⟨Y, 6, 1⟩ with hJ
  have jd := (summer h1.le (d := g + 20 - J - 29) (by omega)).2.1
  have je := (summer h1.le (d := m - J - 60) (by omega)).2.2
  have z1 : (⟨Y, 7, g + 20 - J - 29⟩ : Date).Valid := by
    refine ⟨by norm_num, by norm_num, ?_, ?_, fun h => absurd h.2.1 (by norm_num)⟩
    · change 1 ≤ g + 20 - J - 29
      omega
    · change g + 20 - J - 29 ≤ lastDay Y 7
      rw [show lastDay Y 7 = 31 from rfl]
      omega
  have z2 : (⟨Y, 8, m - J - 60⟩ : Date).Valid := by
    refine ⟨by norm_num, by norm_num, ?_, ?_, fun h => absurd h.2.1 (by norm_num)⟩
    · change 1 ≤ m - J - 60
      omega
    · change m - J - 60 ≤ lastDay Y 8
      rw [show lastDay Y 8 = 31 from rfl]
      omega
  refine ⟨g + 20 - J - 29, m - J - 60, by omega, by omega, by omega, fun h => ?_, fun h h' => ?_, g + 20, m, (isDay_iff z1).2 (by rw [jd]; ring),
    (isDay_iff z2).2 (by rw [je]; ring), (isGeng_iff _).2 (by omega), hm, ?_⟩
  · have := r1 h
    have := r2 h
    omega
  · have := q1 h h'
    have := q2 h h'
    omega
  intro s hs hY n hn l hl
  obtain ⟨t1, t2⟩ := terms s hs hY l hl
  obtain ⟨xz, lq, e1, e2, -, -, -, -, key⟩ := C87_fu hM s hs (by omega) (by omega) l hl
  rw [t1] at e1
  rw [t2] at e2
  cases e1
  cases e2
  obtain ⟨p0, p1, p2, p3, p4⟩ := key n _ _ g m hn ((isDay_iff v1).2 rfl) ((isDay_iff v2).2 rfl) ⟨hg, g1, g2⟩ ⟨hm, k1, k2⟩
  split_ifs with c1 c2 c3 c4
  · exact p0 c1
  · exact p1 (by omega) (by omega)
  · have := p2 (by omega) c3
    rw [this, add_assoc g 20 10]
    norm_num
  · exact p3 (by omega) (by omega)
  · exact p4 (by omega)

/-- **C110** the nine nines of a winter: from a day `d` of December, eighty-one days, over New Year and whichever table of terms the
moment has; there are none in the rest of the half-years on both sides of New Year. -/
theorem C110_nines (hM : M.Good) (Y : ℤ) (h1 : 1585 < Y) (h2 : Y < 6889) :
    ∃ d : ℤ, (19 ≤ d ∧ d ≤ 23) ∧ (Y ≤ 2731 → 20 ≤ d) ∧ (1961 ≤ Y → Y ≤ 2099 → 21 ≤ d ∧ d ≤ 22) ∧
      ∃ W, IsDay W ⟨Y, 12, d⟩ ∧
        ∀ (s : Solar), s.Valid → (s.year = Y ∧ 7 ≤ s.month ∨ s.year = Y + 1 ∧ s.month ≤ 6) → ∀ n, IsDay n s.date →
          ∀ l, Lunar.fromSolar (astro M) s = .ok l →
          l.getShuJiu = .ok (if W ≤ n ∧ n < W + 81 then some (numeral9 ((n - W) / 9 + 1) ++ ['九'], (n - W) % 9 + 1) else none) := by
  obtain ⟨v0, -⟩ := Ephem.moment_window hM (Y := Y - 1) (by omega) (by omega) (i := 25) (by norm_num)
  obtain ⟨v1, -⟩ := Ephem.moment_window hM (Y := Y) (by omega) (by omega) (i := 25) (by norm_num)
  obtain ⟨v2, -⟩ := Ephem.moment_window hM (Y := Y + 1) (by omega) (by omega) (i := 25) (by norm_num)
  obtain ⟨b0, b0', y0, m0, u0, u0'⟩ := Ephem.possible_date hM (Y := Y - 1) (by omega) (by omega) (i := 25) (by norm_num) (by norm_num)
  obtain ⟨b1, b1', y1, m1, u1, u1'⟩ := Ephem.possible_date hM (Y := Y) (by omega) (by omega) (i := 25) (by norm_num) (by norm_num)
  obtain ⟨b2, b2', y2, m2, u2, u2'⟩ := Ephem.possible_date hM (Y := Y + 1) (by omega) (by omega) (i := 25) (by norm_num) (by norm_num)
  have r1 := fun h => Ephem.rare_date hM (Y := Y) (by omega) h (i := 25) (by norm_num) (by norm_num)
  have q1 := fun h h' => Ephem.usual_date hM (Y := Y) h h' (i := 25) (by norm_num) (by norm_num)
  have terms : ∀ (s : Solar), s.Valid → 1584 < s.year → s.year < 6890 → ∀ l, Lunar.fromSolar (astro M) s = .ok l →
      term l.jieQi ['冬', '至'] = .ok (Ephem.moment (Ephem.full hM) (24 * (s.year - 1 - 2000) + 17 + (25 : ℕ))) ∧
      term l.jieQi ['D', 'O', 'N', 'G', '_', 'Z', 'H', 'I'] = .ok (Ephem.moment (Ephem.full hM) (24 * (s.year - 2000) + 17 + (25 : ℕ))) := by
    intro s hs g1 g2 l hl
    obtain ⟨f1, P, -, -, t⟩ := Ephem.made hM hs g1 g2 hl
    refine ⟨?_, term_key P.table.len (by decide) (t 25 (by norm_num))⟩
    rw [show 24 * (s.year - 1 - 2000) + 17 + ((25 : ℕ) : ℤ) = 24 * (s.year - 2000) + 17 + ((1 : ℕ) : ℤ) by push_cast; ring]
    exact term_key P.table.len (by decide) (t 1 (by norm_num))
  have tY : ∀ (s : Solar), s.Valid → s.year = Y → ∀ l, Lunar.fromSolar (astro M) s = .ok l →
      term l.jieQi ['冬', '至'] = .ok (Ephem.moment (Ephem.full hM) (24 * (Y - 1 - 2000) + 17 + (25 : ℕ))) ∧
      term l.jieQi ['D', 'O', 'N', 'G', '_', 'Z', 'H', 'I'] = .ok (Ephem.moment (Ephem.full hM) (24 * (Y - 2000) + 17 + (25 : ℕ))) :=
    fun s hs e l hl => e ▸ terms s hs (by omega) (by omega) l hl
  have tZ : ∀ (s : Solar), s.Valid → s.year = Y + 1 → ∀ l, Lunar.fromSolar (astro M) s = .ok l →
      term l.jieQi ['冬', '至'] = .ok (Ephem.moment (Ephem.full hM) (24 * (Y - 2000) + 17 + (25 : ℕ))) ∧
      term l.jieQi ['D', 'O', 'N', 'G', '_', 'Z', 'H', 'I'] = .ok (Ephem.moment (Ephem.full hM) (24 * (Y + 1 - 2000) + 17 + (25 : ℕ))) := by
    intro s hs e l hl
    have := terms s hs (by omega) (by omega) l hl
    rwa [e, add_sub_cancel_right] at this
  clear terms
  generalize Ephem.moment (Ephem.full hM) (24 * (Y - 1 - 2000) + 17 + (25 : ℕ)) = x0 at *
  generalize Ephem.moment (Ephem.full hM) (24 * (Y - 2000) + 17 + (25 : ℕ)) = x1 at *
  generalize Ephem.moment (Ephem.full hM) (24 * (Y + 1 - 2000) + 17 + (25 : ℕ)) = x2 at *
  simp only [possibleDays, rareDays, usualDays, Nat.reduceSub, List.getElem?_cons_succ, List.getElem?_cons_zero, Option.some.injEq] at b0' b1' b2' r1 q1
  subst b0' b1' b2'
  have r1 : Y ≤ 2731 → 20 ≤ x1.day := fun h => by obtain ⟨_, e, -, -, a, -⟩ := r1 h; subst e; exact_mod_cast a
  have q1 : 1961 ≤ Y → Y ≤ 2099 → 21 ≤ x1.day ∧ x1.day ≤ 22 := fun h h' => by
    obtain ⟨_, e, -, -, a, b⟩ := q1 h h'
    subst e
    exact ⟨by exact_mod_cast a, by exact_mod_cast b⟩
  norm_num at u0 u0' u1 u1' u2 u2' m0 m1 m2
  have d0 : x0.date = ⟨Y - 1, 12, x0.day⟩ := by rw [← y0, ← m0]; rfl
  have d1 : x1.date = ⟨Y, 12, x1.day⟩ := by rw [← y1, ← m1]; rfl
  have d2 : x2.date = ⟨Y + 1, 12, x2.day⟩ := by rw [← y2, ← m2]; rfl
  have j0 := winter (Y := Y - 1) (by omega) (d := x0.day) (by omega)
  have j1 := winter (Y := Y) (by omega) (d := x1.day) (by omega)
  have j2 := winter (Y := Y + 1) (by omega) (d := x2.day) (by omega)
  rw [sub_add_cancel] at j0
  rw [← d0] at j0
  rw [← d1] at j1
  rw [← d2] at j2
  refine ⟨x1.day, by omega, r1, q1, JD.jdn x1.date, d1 ▸ (isDay_iff v1).2 rfl, ?_⟩
  intro s hs hY n hn l hl
  have N := (isDay_iff hs.1).1 hn
  have one : ∀ Z : ℤ, (⟨Z, 7, 1⟩ : Date).Valid := fun Z =>
    ⟨by norm_num, by norm_num, by norm_num, by rw [show lastDay _ _ = 31 from rfl]; norm_num, fun h => absurd h.2.1 (by norm_num)⟩
  have fin : ∀ w1 w2 : ℤ, ((∀ k j, 1 ≤ k → k ≤ 9 → 1 ≤ j → j ≤ 9 → (n = w1 + 9 * (k - 1) + (j - 1) ∨ n = w2 + 9 * (k - 1) + (j - 1)) →
          l.getShuJiu = .ok (some (numeral9 k ++ ['九'], j))) ∧
        ((n < w1 ∨ w1 + 81 ≤ n ∧ n < w2 ∨ w2 + 81 ≤ n) → l.getShuJiu = .ok none)) →
        (w1 = JD.jdn x1.date ∧ n < w2 ∨ w2 = JD.jdn x1.date ∧ w1 + 81 ≤ n) →
      l.getShuJiu = .ok (if JD.jdn x1.date ≤ n ∧ n < JD.jdn x1.date + 81 then
        some (numeral9 ((n - JD.jdn x1.date) / 9 + 1) ++ ['九'], (n - JD.jdn x1.date) % 9 + 1) else none) := by
    intro w1 w2 key h
    clear N
    generalize JD.jdn x1.date = W at *
    clear j0 j1 j2 r1 q1
    split_ifs with c
    · exact key.1 _ _ (by omega) (by omega) (by omega) (by omega) (by omega)
    · exact key.2 (by omega)
  obtain ⟨z1, z2, e1, e2, -, -, key⟩ := C87_nines hM s hs (by omega) (by omega) l hl
  rcases hY with ⟨hY, c⟩ | ⟨hY, c⟩
  · obtain ⟨t1, t2⟩ := tY s hs hY l hl
    rw [t1] at e1
    rw [t2] at e2
    cases e1
    cases e2
    refine fin _ _ (key n _ _ hn ((isDay_iff v0).2 rfl) ((isDay_iff v1).2 rfl)) (.inr ⟨rfl, ?_⟩)
    have : ¬ JD.jdn s.date < JD.jdn ⟨Y, 7, 1⟩ := by
      rw [JD.jdn_lt_iff hs.1 (one Y)]
      change ¬ (s.year < Y ∨ (s.year = Y ∧ (s.month < 7 ∨ (s.month = 7 ∧ s.day < 1))))
      have : 1 ≤ s.day := hs.1.2.2.1
      omega
    omega
  · obtain ⟨t1, t2⟩ := tZ s hs hY l hl
    rw [t1] at e1
    rw [t2] at e2
    cases e1
    cases e2
    refine fin _ _ (key n _ _ hn ((isDay_iff v1).2 rfl) ((isDay_iff v2).2 rfl)) (.inl ⟨rfl, ?_⟩)
    have : JD.jdn s.date < JD.jdn ⟨Y + 1, 7, 1⟩ := by
      rw [JD.jdn_lt_iff hs.1 (one _)]
      exact .inr ⟨hY, .inl (show s.month < 7 by omega)⟩
    omega

/-- **C110** every moment of January and February is in one of the nines, whatever the year -/
theorem C110_new_year (hM : M.Good) (s : Solar) (hs : s.Valid) (h1 : 1586 < s.year) (h2 : s.year < 6890) (hm : s.month ≤ 2) (l : Lunar)
    (hl : Lunar.fromSolar (astro M) s = .ok l) :
    ∃ k j, 1 ≤ k ∧ k ≤ 9 ∧ 1 ≤ j ∧ j ≤ 9 ∧ l.getShuJiu = .ok (some (numeral9 k ++ ['九'], j)) := by
  obtain ⟨d, hd, -, -, W, hW, key⟩ := C110_nines hM (s.year - 1) (by omega) (by omega)
  have v : (⟨s.year - 1, 12, d⟩ : Date).Valid :=
    ⟨by norm_num, by norm_num, by change 1 ≤ d; omega, by rw [show lastDay _ _ = 31 from rfl]; change d ≤ 31; omega, fun h => absurd h.2.1 (by norm_num)⟩
  have w := winter (Y := s.year - 1) (by omega) (d := d) (by omega)
  have x := winter (Y := s.year - 1) (by omega) (d := s.day) hs.1.2.2.1
  rw [sub_add_cancel] at x
  rw [isDay_iff v] at hW
  have := key s hs (.inr ⟨by ring, by omega⟩) _ ((isDay_iff hs.1).2 rfl) l hl
  have c : W ≤ JD.jdn s.date ∧ JD.jdn s.date < W + 81 := by
    have m1 : 1 ≤ s.month := hs.1.1
    have d1 : 1 ≤ s.day := hs.1.2.2.1
    have d2 : s.day ≤ lastDay s.year s.month := hs.1.2.2.2.1
    have e : s.date = ⟨s.year, s.month, s.day⟩ := rfl
    rcases (by omega : s.month = 1 ∨ s.month = 2) with h | h
    · rw [h, show lastDay s.year 1 = 31 from rfl] at d2
      rw [e, h]
      omega
    · rw [h, show lastDay s.year 2 = if Leap s.year then 29 else 28 from rfl] at d2
      rw [e, h]
      split_ifs at d2 <;> omega
  rw [if_pos c] at this
  exact ⟨_, _, by omega, by omega, by omega, by omega, this⟩

/-- **C110** from 22 July to 10 August every moment is in the dog days, before 6 July and after 27 August none is -/
theorem C110_summer (hM : M.Good) (s : Solar) (hs : s.Valid) (h1 : 1584 < s.year) (h2 : s.year < 6890) (l : Lunar)
    (hl : Lunar.fromSolar (astro M) s = .ok l) :
    (s.month = 7 ∧ 22 ≤ s.day ∨ s.month = 8 ∧ s.day ≤ 10 → ∃ f, l.getFu (astro M) = .ok (some f)) ∧
    (s.month < 7 ∨ s.month = 7 ∧ s.day < 6 ∨ s.month = 8 ∧ 27 < s.day ∨ 8 < s.month → l.getFu (astro M) = .ok none) := by
  obtain ⟨d, e, hd, ed, he, -, -, F, E, hF, hE, -, -, key⟩ := C110_fu hM s.year h1 h2
  have v : (⟨s.year, 7, d⟩ : Date).Valid :=
    ⟨by norm_num, by norm_num, by change 1 ≤ d; omega, by rw [show lastDay _ _ = 31 from rfl]; change d ≤ 31; omega, fun h => absurd h.2.1 (by norm_num)⟩
  have w : (⟨s.year, 8, e⟩ : Date).Valid :=
    ⟨by norm_num, by norm_num, by change 1 ≤ e; omega, by rw [show lastDay _ _ = 31 from rfl]; change e ≤ 31; omega, fun h => absurd h.2.1 (by norm_num)⟩
  have w' : (⟨s.year, 8, e + 10⟩ : Date).Valid :=
    ⟨by norm_num, by norm_num, by change 1 ≤ e + 10; omega, by rw [show lastDay _ _ = 31 from rfl]; change e + 10 ≤ 31; omega, fun h => absurd h.2.1 (by norm_num)⟩
  rw [isDay_iff v] at hF
  rw [isDay_iff w] at hE
  have x := summer h1.le (d := e) (by omega)
  have y := summer h1.le (d := e + 10) (by omega)
  have z := summer h1.le (d := d) (by omega)
  have long : F + 20 ≤ E := by omega
  have E' : E + 10 = JD.jdn ⟨s.year, 8, e + 10⟩ := by omega
  have := key s hs rfl _ ((isDay_iff hs.1).2 rfl) l hl
  have a : JD.jdn s.date < F ↔ s.month < 7 ∨ s.month = 7 ∧ s.day < d := by
    rw [hF, JD.jdn_lt_iff hs.1 v]
    change (s.year < s.year ∨ (s.year = s.year ∧ (s.month < 7 ∨ (s.month = 7 ∧ s.day < d)))) ↔ _
    simp
  have b : JD.jdn s.date < E + 10 ↔ s.month < 8 ∨ s.month = 8 ∧ s.day < e + 10 := by
    rw [E', JD.jdn_lt_iff hs.1 w']
    change (s.year < s.year ∨ (s.year = s.year ∧ (s.month < 8 ∨ (s.month = 8 ∧ s.day < e + 10)))) ↔ _
    simp
  have d1 : 1 ≤ s.day := hs.1.2.2.1
  rw [this]
  generalize JD.jdn s.date = n at *
  clear key this E' x y z hF hE v w w'
  constructor
  · intro h
    have c1 : ¬ n < F := by rw [a]; omega
    have c2 : n < E + 10 := by rw [b]; omega
    rw [if_neg c1]
    split_ifs
    · exact ⟨_, rfl⟩
    · exact ⟨_, rfl⟩
    · exact ⟨_, rfl⟩
  · intro h
    by_cases c : n < F
    · rw [if_pos c]
    · have c2 : ¬ n < E + 10 := by rw [b]; rw [a] at c; omega
      rw [if_neg c, if_neg (by omega), if_neg (by omega), if_neg c2]

/-- in 2026 the dog days begin on the day of July the first 庚 day of the summer gives, and 末伏 on the matching day of August -/
example : ∃ d e : ℤ, 10 ≤ d ∧ d ≤ 21 ∧ 6 ≤ e ∧ e ≤ 17 ∧ (e = d - 11 ∨ e = d - 1) ∧ ∃ F, IsDay F ⟨2026, 7, d⟩ ∧ IsGeng F := by
  obtain ⟨d, e, a, b, -, c, f, F, E, g, -, h, -⟩ := C110_fu Libm.cut_good 2026 (by norm_num) (by norm_num)
  exact ⟨d, e, (c (by norm_num)).1, (f (by norm_num) (by norm_num)).1, (c (by norm_num)).2, (f (by norm_num) (by norm_num)).2, b, F, g, h⟩

/-- the nines of the winter of 2026 are counted from 21 or 22 December; if it is the 22nd, New Year's day is the second day of the second nine -/
example : ∃ W : ℤ, (W = JD.jdn ⟨2026, 12, 21⟩ ∨ W = JD.jdn ⟨2026, 12, 22⟩) ∧ ∃ l, Lunar.fromSolar (astro Libm.cut) ⟨2027, 1, 1, 8, 0, 0⟩ = .ok l ∧
    (W = JD.jdn ⟨2026, 12, 22⟩ → l.getShuJiu = .ok (some (['二', '九'], 2))) := by
  obtain ⟨d, -, -, c, W, w, k⟩ := C110_nines Libm.cut_good 2026 (by norm_num) (by norm_num)
  obtain ⟨l, e, -⟩ := C84_round_trip Libm.cut_good ⟨2027, 1, 1, 8, 0, 0⟩ (by decide) (by decide) (by decide)
  have := k _ (by decide) (.inr ⟨by norm_num, by norm_num⟩) _ ((isDay_iff (by decide)).2 rfl) l e
  have c := c (by norm_num) (by norm_num)
  rcases (by omega : d = 21 ∨ d = 22) with h | h <;> subst h
  · exact ⟨W, .inl ((isDay_iff (by decide)).1 w), l, e, fun h => by
      rw [(isDay_iff (by decide)).1 w] at h
      exact absurd h (by decide)⟩
  · refine ⟨W, .inr ((isDay_iff (by decide)).1 w), l, e, fun h => ?_⟩
    rw [this, h]
    rfl

/-- Saint Valentine's day of any year is in a nine -/
example : ∃ l k j, Lunar.fromSolar (astro Libm.cut) ⟨2027, 2, 14, 8, 0, 0⟩ = .ok l ∧ 1 ≤ k ∧ k ≤ 9 ∧ l.getShuJiu = .ok (some (numeral9 k ++ ['九'], j)) := by
  obtain ⟨l, e, -⟩ := C84_round_trip Libm.cut_good ⟨2027, 2, 14, 8, 0, 0⟩ (by decide) (by decide) (by decide)
  obtain ⟨k, j, a, b, -, -, c⟩ := C110_new_year Libm.cut_good _ (by decide) (by decide) (by decide) (by decide) l e
  exact ⟨l, k, j, e, a, b, c⟩

/-- 1 August is in the dog days, 1 October is not -/
example : ∃ l l' f, Lunar.fromSolar (astro Libm.cut) ⟨2026, 8, 1, 8, 0, 0⟩ = .ok l ∧ Lunar.fromSolar (astro Libm.cut) ⟨2026, 10, 1, 8, 0, 0⟩ = .ok l' ∧
    l.getFu (astro Libm.cut) = .ok (some f) ∧ l'.getFu (astro Libm.cut) = .ok none := by
  obtain ⟨l, e, -⟩ := C84_round_trip Libm.cut_good ⟨2026, 8, 1, 8, 0, 0⟩ (by decide) (by decide) (by decide)
  obtain ⟨l', e', -⟩ := C84_round_trip Libm.cut_good ⟨2026, 10, 1, 8, 0, 0⟩ (by decide) (by decide) (by decide)
  obtain ⟨f, hf⟩ := (C110_summer Libm.cut_good _ (by decide) (by decide) (by decide) l e).1 (.inr ⟨rfl, by norm_num⟩)
  exact ⟨l, l', f, e, e', hf, (C110_summer Libm.cut_good _ (by decide) (by decide) (by decide) l' e').2 (.inr (.inr (.inr (by norm_num))))⟩
end
