import Verif.Proof.Ephem.Dates
import Verif.Props.TermGaps

/-! # C91: on which days of the solar year the terms fall -/

section
open Spec ShouXing Lunar

variable {M : Libm}

/-- **C91** entry `i` of the table of a moment of year `Y`, from 小寒 (2) to 冬至 (25), is in month `i / 2` of `Y`, on one of the days
of the lists of `Spec/TermDates.lean`. -/
theorem C91_dates (hM : M.Good) (s : Solar) (hs : s.Valid) (h1 : 1584 < s.year) (h2 : s.year < 6890) (l : Lunar)
    (hl : Lunar.fromSolar (astro M) s = .ok l) (i : ℕ) (i1 : 2 ≤ i) (i2 : i ≤ 25) (p : Solar) (hp : l.jieQi[i]? = some p) :
    p.year = s.year ∧ p.month = i / 2 ∧ (∃ d, possibleDays[i - 2]? = some d ∧ d.1 ≤ p.day ∧ p.day ≤ d.2) ∧
      (s.year ≤ 2731 → ∃ d, rareDays[i - 2]? = some d ∧ d.1 ≤ p.day ∧ p.day ≤ d.2) ∧
      (1961 ≤ s.year → s.year ≤ 2099 → ∃ d, usualDays[i - 2]? = some d ∧ d.1 ≤ p.day ∧ p.day ≤ d.2) := by
  obtain ⟨-, -, -, -, t⟩ := Ephem.made hM hs h1 h2 hl
  rw [t i (by omega)] at hp
  cases hp
  obtain ⟨d, a, b, c, e, f⟩ := Ephem.possible_date hM h1.le h2.le i1 i2
  refine ⟨b, c, ⟨d, a, e, f⟩, fun h => ?_, fun h h' => ?_⟩
  · obtain ⟨d, a, -, -, e, f⟩ := Ephem.rare_date hM h1.le h i1 i2
    exact ⟨d, a, e, f⟩
  · obtain ⟨d, a, -, -, e, f⟩ := Ephem.usual_date hM h h' i1 i2
    exact ⟨d, a, e, f⟩

/-- **C91** the terms people ask about, 1961-2099: 立春 is on 3 to 5 February, 清明 on 4 or 5 April, 夏至 on 20 to 22 June, 冬至 on 21 or 22 December. -/
theorem C91_known (hM : M.Good) (s : Solar) (hs : s.Valid) (h1 : 1961 ≤ s.year) (h2 : s.year ≤ 2099) (l : Lunar)
    (hl : Lunar.fromSolar (astro M) s = .ok l) :
    ∃ lc qm xz dz, term l.jieQi ['立', '春'] = .ok lc ∧ term l.jieQi ['清', '明'] = .ok qm ∧ term l.jieQi ['夏', '至'] = .ok xz ∧
      term l.jieQi ['D', 'O', 'N', 'G', '_', 'Z', 'H', 'I'] = .ok dz ∧
      (lc.year = s.year ∧ lc.month = 2 ∧ 3 ≤ lc.day ∧ lc.day ≤ 5) ∧ (qm.year = s.year ∧ qm.month = 4 ∧ 4 ≤ qm.day ∧ qm.day ≤ 5) ∧
      (xz.year = s.year ∧ xz.month = 6 ∧ 20 ≤ xz.day ∧ xz.day ≤ 22) ∧ (dz.year = s.year ∧ dz.month = 12 ∧ 21 ≤ dz.day ∧ dz.day ≤ 22) := by
  obtain ⟨-, P, -, -, t⟩ := Ephem.made hM hs (by omega) (by omega) hl
  have key := fun i i1 i2 p hp => C91_dates hM s hs (by omega) (by omega) l hl i i1 i2 p hp
  obtain ⟨a1, a2, -, -, a⟩ := key 4 (by norm_num) (by norm_num) _ (t 4 (by norm_num))
  obtain ⟨b1, b2, -, -, b⟩ := key 8 (by norm_num) (by norm_num) _ (t 8 (by norm_num))
  obtain ⟨c1, c2, -, -, c⟩ := key 13 (by norm_num) (by norm_num) _ (t 13 (by norm_num))
  obtain ⟨d1, d2, -, -, d⟩ := key 25 (by norm_num) (by norm_num) _ (t 25 (by norm_num))
  obtain ⟨_, e, a⟩ := a h1 h2
  cases e
  obtain ⟨_, e, b⟩ := b h1 h2
  cases e
  obtain ⟨_, e, c⟩ := c h1 h2
  cases e
  obtain ⟨_, e, d⟩ := d h1 h2
  cases e
  exact ⟨_, _, _, _, term_key P.table.len (by decide) (t 4 (by norm_num)), term_key P.table.len (by decide) (t 8 (by norm_num)),
    term_key P.table.len (by decide) (t 13 (by norm_num)), term_key P.table.len (by decide) (t 25 (by norm_num)),
    ⟨a1, a2, a⟩, ⟨b1, b2, b⟩, ⟨c1, c2, c⟩, d1, d2, d⟩

/-- Qing Ming of 2026 -/
example : ∃ l qm, Lunar.fromSolar (astro Libm.cut) ⟨2026, 11, 16, 12, 0, 0⟩ = .ok l ∧ term l.jieQi ['清', '明'] = .ok qm ∧
    (qm.date = ⟨2026, 4, 4⟩ ∨ qm.date = ⟨2026, 4, 5⟩) := by
  obtain ⟨l, e, -⟩ := C84_round_trip Libm.cut_good ⟨2026, 11, 16, 12, 0, 0⟩ (by decide) (by decide) (by decide)
  obtain ⟨-, qm, -, -, -, a, -, -, -, ⟨b1, b2, b3, b4⟩, -⟩ := C91_known Libm.cut_good _ (by decide) (by decide) (by decide) l e
  refine ⟨l, qm, e, a, ?_⟩
  simp only [Solar.date, Date.mk.injEq]
  dsimp only at b1
  omega

/-- an entry of the table falls on the day of the moment only if it is one of the two of the month -/
private theorem of_month (hM : M.Good) {s : Solar} (hs : s.Valid) (h1 : 1584 < s.year) (h2 : s.year < 6890) {l : Lunar}
    (hl : Lunar.fromSolar (astro M) s = .ok l) {i : ℕ} {p : Solar} (hp : l.jieQi[i]? = some p) (hd : p.date = s.date) :
    (i : ℤ) = 2 * s.month ∨ (i : ℤ) = 2 * s.month + 1 := by
  obtain ⟨-, P, -, -, t⟩ := Ephem.made hM hs h1 h2 hl
  have hi : i < 31 := by rw [← P.table.len]; exact (List.getElem?_eq_some_iff.1 hp).1
  have hy : p.year = s.year := congrArg Date.y hd
  have hm : p.month = s.month := congrArg Date.m hd
  rw [t i hi] at hp
  cases hp
  have m1 := hs.1.1
  have m2 := hs.1.2.1
  simp only [Solar.date] at m1 m2
  rcases Nat.lt_or_ge i 2 with c | c
  · obtain ⟨-, -, b, -⟩ := Ephem.possible_date hM (Y := s.year - 1) (by omega) (by omega) (i := 24 + i) (by omega) (by omega)
    rw [show 24 * (s.year - 1 - 2000) + 17 + ((24 + i : ℕ) : ℤ) = 24 * (s.year - 2000) + 17 + i by push_cast; ring] at b
    omega
  rcases Nat.lt_or_ge i 26 with c' | c'
  · obtain ⟨-, -, -, b, -⟩ := Ephem.possible_date hM (Y := s.year) h1.le h2.le (i := i) (by omega) (by omega)
    omega
  · obtain ⟨-, -, b, -⟩ := Ephem.possible_date hM (Y := s.year + 1) (by omega) (by omega) (i := i - 24) (by omega) (by omega)
    rw [show 24 * (s.year + 1 - 2000) + 17 + ((i - 24 : ℕ) : ℤ) = 24 * (s.year - 2000) + 17 + i by omega] at b
    omega

/-- the two terms of a month, on the days of the table -/
theorem month_terms (hM : M.Good) (Y k : ℤ) (h1 : 1584 < Y) (h2 : Y < 6890) (k1 : 1 ≤ k) (k2 : k ≤ 12) :
    ∀ dj dq : ℤ, dj = (Ephem.moment (Ephem.full hM) (24 * (Y - 2000) + 17 + ((2 * k.toNat : ℕ) : ℤ))).day →
      dq = (Ephem.moment (Ephem.full hM) (24 * (Y - 2000) + 17 + ((2 * k.toNat + 1 : ℕ) : ℤ))).day → 1 ≤ dj ∧ dj ≤ 10 ∧ 16 ≤ dq ∧ dq ≤ 25 ∧
      ∀ s : Solar, s.Valid → s.year = Y → s.month = k → ∀ l, Lunar.fromSolar (astro M) s = .ok l →
        l.getJie = .ok (if s.day = dj then termName (2 * k.toNat) else []) ∧
        l.getQi = .ok (if s.day = dq then termName (2 * k.toNat + 1) else []) ∧
        l.getJieQi = .ok (if s.day = dj then termName (2 * k.toNat) else if s.day = dq then termName (2 * k.toNat + 1) else []) := by
  rintro dj dq rfl rfl
  obtain ⟨a, ha, ya, ma, a1, a2⟩ := Ephem.possible_date hM h1.le h2.le (i := 2 * k.toNat) (by omega) (by omega)
  obtain ⟨b, hb, yb, mb, b1, b2⟩ := Ephem.possible_date hM h1.le h2.le (i := 2 * k.toNat + 1) (by omega) (by omega)
  have lim : ∀ j : ℕ, j < 12 → ∀ d, possibleDays[2 * j]? = some d → 1 ≤ d.1 ∧ d.2 ≤ 10 := by
    intro j hj
    interval_cases j <;> · intro d h; cases h; decide
  have lim' : ∀ j : ℕ, j < 12 → ∀ d, possibleDays[2 * j + 1]? = some d → 16 ≤ d.1 ∧ d.2 ≤ 25 := by
    intro j hj
    interval_cases j <;> · intro d h; cases h; decide
  have la := lim (k.toNat - 1) (by omega) a (by rw [← ha]; congr 1; omega)
  have lb := lim' (k.toNat - 1) (by omega) b (by rw [← hb]; congr 1; omega)
  refine ⟨by omega, by omega, by omega, by omega, ?_⟩
  · intro s hs hY hk l hl
    subst hY
    subst hk
    obtain ⟨f1, P, -, -, t⟩ := Ephem.made hM hs h1 h2 hl
    have tj := t (2 * s.month.toNat) (by omega)
    have tq := t (2 * s.month.toNat + 1) (by omega)
    generalize Ephem.moment (Ephem.full hM) (24 * (s.year - 2000) + 17 + ((2 * s.month.toNat : ℕ) : ℤ)) = p at *
    generalize Ephem.moment (Ephem.full hM) (24 * (s.year - 2000) + 17 + ((2 * s.month.toNat + 1 : ℕ) : ℤ)) = q at *
    have pd : p.date = s.date ↔ s.day = p.day := by
      simp only [Solar.date, Date.mk.injEq]
      omega
    have qd : q.date = s.date ↔ s.day = q.day := by
      simp only [Solar.date, Date.mk.injEq]
      omega
    have ne : ¬ (s.day = p.day ∧ s.day = q.day) := by omega
    have entry : ∀ i x, l.jieQi[i]? = some x → x.date = s.date → (i = 2 * s.month.toNat ∧ x = p) ∨ (i = 2 * s.month.toNat + 1 ∧ x = q) := by
      intro i x hx hd
      rcases of_month hM hs h1 h2 hl hx hd with c | c
      · obtain rfl : i = 2 * s.month.toNat := by omega
        rw [tj] at hx
        cases hx
        exact .inl ⟨rfl, rfl⟩
      · obtain rfl : i = 2 * s.month.toNat + 1 := by omega
        rw [tq] at hx
        cases hx
        exact .inr ⟨rfl, rfl⟩
    refine ⟨?_, ?_, ?_⟩
    · rcases C62_name P.table.len .jie with ⟨i, x, x1, x2, x3, -, x5⟩ | ⟨x1, x2⟩
      · rw [f1] at x3
        rcases entry i x x2 x3 with ⟨rfl, rfl⟩ | ⟨rfl, rfl⟩
        · rw [if_pos (pd.1 x3)]
          exact x5
        · simp only [TermKind.has] at x1
          omega
      · rw [f1] at x1
        rw [if_neg (fun c => x1 _ _ (by simp only [TermKind.has]; omega) tj (pd.2 c))]
        exact x2
    · rcases C62_name P.table.len .qi with ⟨i, x, x1, x2, x3, -, x5⟩ | ⟨x1, x2⟩
      · rw [f1] at x3
        rcases entry i x x2 x3 with ⟨rfl, rfl⟩ | ⟨rfl, rfl⟩
        · simp only [TermKind.has] at x1
          omega
        · rw [if_pos (qd.1 x3)]
          exact x5
      · rw [f1] at x1
        rw [if_neg (fun c => x1 _ _ (by simp only [TermKind.has]; omega) tq (qd.2 c))]
        exact x2
    · rcases C62_name P.table.len .all with ⟨i, x, x1, x2, x3, -, x5⟩ | ⟨x1, x2⟩
      · rw [f1] at x3
        rcases entry i x x2 x3 with ⟨rfl, rfl⟩ | ⟨rfl, rfl⟩
        · rw [if_pos (pd.1 x3)]
          exact x5
        · rw [if_neg (fun c => ne ⟨c, qd.1 x3⟩), if_pos (qd.1 x3)]
          exact x5
      · rw [f1] at x1
        rw [if_neg (fun c => x1 _ _ trivial tj (pd.2 c)), if_neg (fun c => x1 _ _ trivial tq (qd.2 c))]
        exact x2

/-- **C91** every solar month has exactly two terms: a Jie on one of its days 1 to 10 and a Qi on one of its days 16 to 25,
and `getJie`, `getQi`, `getJieQi` name them on these days, at any hour, and on no others. -/
theorem C91_month (hM : M.Good) (Y k : ℤ) (h1 : 1584 < Y) (h2 : Y < 6890) (k1 : 1 ≤ k) (k2 : k ≤ 12) :
    ∃ dj dq : ℤ, 1 ≤ dj ∧ dj ≤ 10 ∧ 16 ≤ dq ∧ dq ≤ 25 ∧
      ∀ s : Solar, s.Valid → s.year = Y → s.month = k → ∀ l, Lunar.fromSolar (astro M) s = .ok l →
        l.getJie = .ok (if s.day = dj then termName (2 * k.toNat) else []) ∧
        l.getQi = .ok (if s.day = dq then termName (2 * k.toNat + 1) else []) ∧
        l.getJieQi = .ok (if s.day = dj then termName (2 * k.toNat) else if s.day = dq then termName (2 * k.toNat + 1) else []) :=
  ⟨_, _, month_terms hM Y k h1 h2 k1 k2 _ _ rfl rfl⟩

/-- 13 November 2026 has no solar term -/
example : ∃ l, Lunar.fromSolar (astro Libm.cut) ⟨2026, 11, 13, 9, 30, 0⟩ = .ok l ∧ l.getJieQi = .ok [] := by
  obtain ⟨l, e, -⟩ := C84_round_trip Libm.cut_good ⟨2026, 11, 13, 9, 30, 0⟩ (by decide) (by decide) (by decide)
  obtain ⟨dj, dq, a, b, c, d, h⟩ := C91_month Libm.cut_good 2026 11 (by norm_num) (by norm_num) (by norm_num) (by norm_num)
  have := (h _ (by decide) rfl rfl l e).2.2
  rw [if_neg (by dsimp only; omega), if_neg (by dsimp only; omega)] at this
  exact ⟨l, e, this⟩

end
