import Verif.Proof.Ephem.Made
import Verif.Props.DayText
import Verif.Props.MonthLength
import Verif.Props.NineStar
import Verif.Props.Yun
import Verif.Props.Zao

/-! # C87-C89: what is computed from solar terms and months, in the calendar of the library itself

C42, C46, C47, C48, C51, C55, C78 and C80 suppose that solar terms and months are where they should be.  Here this is known:
the functions are those of the library (`ShouXing.astro M`), nothing is supposed about the sky. -/

section
open Spec LunarYear ShouXing Lunar

variable {M : Libm}

private theorem in_year (hM : M.Good) {Y : ℤ} (h1 : 1584 ≤ Y) (h2 : Y ≤ 6890) {i : ℕ} (i2 : 2 < i) (i25 : i ≤ 25) :
    (Ephem.moment (Ephem.full hM) (24 * (Y - 2000) + 17 + i)).year = Y := by
  have a1 : ((3 : ℕ) : ℚ) ≤ i := by exact_mod_cast i2
  have a2 : (i : ℚ) ≤ ((25 : ℕ) : ℚ) := by exact_mod_cast i25
  push_cast at a1 a2
  refine le_antisymm (Ephem.moment_le _ (by omega) (by omega) (by omega) (by omega) ?_) (Ephem.moment_ge _ (by omega) (by omega) (by omega) (by omega) ?_)
  · push_cast
    linarith
  · push_cast
    linarith

/-! ## C87 -/

/-- **C87** the nine nines of winter: let `w1`, `w2` be the days of the two winter solstices of the table of terms.  The
`j`-th day of the `k`-th nine is that many days after one of them, and there are no others. -/
theorem C87_nines (hM : M.Good) (s : Solar) (hs : s.Valid) (h1 : 1584 < s.year) (h2 : s.year < 6890) (l : Lunar)
    (hl : Lunar.fromSolar (astro M) s = .ok l) :
    ∃ z1 z2, term l.jieQi ['冬', '至'] = .ok z1 ∧ term l.jieQi ['D', 'O', 'N', 'G', '_', 'Z', 'H', 'I'] = .ok z2 ∧ z1.Valid ∧ z2.Valid ∧
      ∀ n w1 w2, IsDay n s.date → IsDay w1 z1.date → IsDay w2 z2.date →
        (∀ k j, 1 ≤ k → k ≤ 9 → 1 ≤ j → j ≤ 9 → (n = w1 + 9 * (k - 1) + (j - 1) ∨ n = w2 + 9 * (k - 1) + (j - 1)) →
          l.getShuJiu = .ok (some (numeral9 k ++ ['九'], j))) ∧
        ((n < w1 ∨ w1 + 81 ≤ n ∧ n < w2 ∨ w2 + 81 ≤ n) → l.getShuJiu = .ok none) := by
  obtain ⟨f1, P, -, -, t⟩ := Ephem.made hM hs h1 h2 hl
  have v1 := P.table.valid _ (List.mem_of_getElem? (t 1 (by norm_num)))
  have v2 := P.table.valid _ (List.mem_of_getElem? (t 25 (by norm_num)))
  refine ⟨_, _, term_key P.table.len (by decide) (t 1 (by norm_num)), term_key P.table.len (by decide) (t 25 (by norm_num)), v1, v2, ?_⟩
  intro n w1 w2 hn hw1 hw2
  refine C46_nines P.table P.made.1 _ _ (t 1 (by norm_num)) (t 25 (by norm_num)) n w1 w2 (by rw [f1]; exact hn) hw1 hw2 ?_
  rw [isDay_iff v1.1] at hw1
  rw [isDay_iff v2.1] at hw2
  have a := Ephem.moment_day (Ephem.full hM) (n := 24 * (s.year - 2000) + 17 + (1 : ℕ)) (by omega) (by omega)
  have b := Ephem.moment_day (Ephem.full hM) (n := 24 * (s.year - 2000) + 17 + (25 : ℕ)) (by omega) (by omega)
  rw [← hw1] at a
  rw [← hw2] at b
  push_cast at a b
  have : ((w1 + 81 : ℤ) : ℚ) ≤ w2 := by push_cast; linarith [a.2, b.1]
  exact_mod_cast this

/-- New Year's day of 2027 is in some nine of winter or in none, as the solstices have it -/
example : ∃ l z1, Lunar.fromSolar (astro Libm.cut) ⟨2027, 1, 1, 8, 0, 0⟩ = .ok l ∧ term l.jieQi ['冬', '至'] = .ok z1 ∧
    (IsDay (JD.jdn ⟨2027, 1, 1⟩ - 10) z1.date → l.getShuJiu = .ok (some (['二', '九'], 2))) := by
  obtain ⟨l, e, -⟩ := C84_round_trip Libm.cut_good ⟨2027, 1, 1, 8, 0, 0⟩ (by decide) (by decide) (by decide)
  obtain ⟨z1, z2, a, -, -, v2, c⟩ := C87_nines Libm.cut_good _ (by decide) (by decide) (by decide) l e
  refine ⟨l, z1, e, a, fun h => ?_⟩
  exact (c (JD.jdn ⟨2027, 1, 1⟩) _ (JD.jdn z2.date) ((isDay_iff (by decide)).2 rfl) h ((isDay_iff v2.1).2 rfl)).1 2 2 (by norm_num) (by norm_num)
    (by norm_num) (by norm_num) (.inl (by ring))

/-- **C87** the three decades of summer: let `g` be the first 庚 day on or after the summer solstice and `m` the first one on
or after Li Qiu. -/
theorem C87_fu (hM : M.Good) (s : Solar) (hs : s.Valid) (h1 : 1584 < s.year) (h2 : s.year < 6890) (l : Lunar)
    (hl : Lunar.fromSolar (astro M) s = .ok l) :
    ∃ xz lq, term l.jieQi ['夏', '至'] = .ok xz ∧ term l.jieQi ['立', '秋'] = .ok lq ∧ xz.Valid ∧ lq.Valid ∧ xz.year = s.year ∧ lq.year = s.year ∧
      ∀ n a b g m, IsDay n s.date → IsDay a xz.date → IsDay b lq.date → (IsGeng g ∧ a ≤ g ∧ g < a + 10) → (IsGeng m ∧ b ≤ m ∧ m < b + 10) →
        (n < g + 20 → l.getFu (astro M) = .ok none) ∧
        (g + 20 ≤ n → n < g + 30 → l.getFu (astro M) = .ok (some (['初', '伏'], n - (g + 20) + 1))) ∧
        (g + 30 ≤ n → n < m → l.getFu (astro M) = .ok (some (['中', '伏'], n - (g + 30) + 1))) ∧
        (m ≤ n → n < m + 10 → l.getFu (astro M) = .ok (some (['末', '伏'], n - m + 1))) ∧
        (m + 10 ≤ n → l.getFu (astro M) = .ok none) := by
  obtain ⟨f1, P, -, -, t⟩ := Ephem.made hM hs h1 h2 hl
  have y1 := in_year hM h1.le h2.le (i := 13) (by norm_num) (by norm_num)
  have y2 := in_year hM h1.le h2.le (i := 16) (by norm_num) (by norm_num)
  have v1 := P.table.valid _ (List.mem_of_getElem? (t 13 (by norm_num)))
  have v2 := P.table.valid _ (List.mem_of_getElem? (t 16 (by norm_num)))
  refine ⟨_, _, term_key P.table.len (by decide) (t 13 (by norm_num)), term_key P.table.len (by decide) (t 16 (by norm_num)), v1, v2, y1, y2, ?_⟩
  intro n a b g m hn ha hb hg hm
  refine C47_decades (Ephem.almanac (Ephem.full hM)) P.table P.made.1 _ _ (t 13 (by norm_num)) (t 16 (by norm_num)) (by omega) (by omega)
    n a b g m (by rw [f1]; exact hn) ha hb ?_ hg hm
  have := Ephem.summer_days hM h1.le h2.le
  rw [isDay_iff v1.1] at ha
  rw [isDay_iff v2.1] at hb
  omega

/-- a day of 2026 thirty days after the first 庚 day on or after the summer solstice, if Li Qiu is later than this, is in the middle decade -/
example : ∃ l xz lq, Lunar.fromSolar (astro Libm.cut) ⟨2026, 7, 25, 8, 0, 0⟩ = .ok l ∧ term l.jieQi ['夏', '至'] = .ok xz ∧ term l.jieQi ['立', '秋'] = .ok lq ∧
    (IsDay (JD.jdn ⟨2026, 6, 21⟩) xz.date → IsDay (JD.jdn ⟨2026, 8, 7⟩) lq.date → l.getFu (astro Libm.cut) = .ok (some (['中', '伏'], 1))) := by
  obtain ⟨l, e, -⟩ := C84_round_trip Libm.cut_good ⟨2026, 7, 25, 8, 0, 0⟩ (by decide) (by decide) (by decide)
  obtain ⟨xz, lq, a, b, -, -, -, -, c⟩ := C87_fu Libm.cut_good _ (by decide) (by decide) (by decide) l e
  refine ⟨l, xz, lq, e, a, b, fun h h' => ?_⟩
  have := (c (JD.jdn ⟨2026, 7, 25⟩) _ _ (JD.jdn ⟨2026, 6, 25⟩) (JD.jdn ⟨2026, 8, 14⟩) ((isDay_iff (by decide)).2 rfl) h h'
    (by unfold IsGeng; decide) (by unfold IsGeng; decide)).2.2.1
    (by decide) (by decide)
  rw [this]
  rfl

/-- **C87** the day star: let `Z1`, `X`, `Z2` be the 甲子 days nearest to the winter solstice, the summer solstice and the next
winter solstice. -/
theorem C87_day_star (hM : M.Good) (s : Solar) (hs : s.Valid) (h1 : 1585 < s.year) (h2 : s.year < 6890) (l : Lunar)
    (hl : Lunar.fromSolar (astro M) s = .ok l) :
    ∃ z1 x z2, term l.jieQi ['冬', '至'] = .ok z1 ∧ term l.jieQi ['夏', '至'] = .ok x ∧
      term l.jieQi ['D', 'O', 'N', 'G', '_', 'Z', 'H', 'I'] = .ok z2 ∧ z1.Valid ∧ x.Valid ∧ z2.Valid ∧ z1.year = s.year - 1 ∧ x.year = s.year ∧ z2.year = s.year ∧
      ∀ n a b c Z1 X Z2, IsDay n s.date → IsDay a z1.date → IsDay b x.date → IsDay c z2.date →
        IsNearJiaZi Z1 a → IsNearJiaZi X b → IsNearJiaZi Z2 c →
        (Z1 ≤ n → n < X → l.getDayNineStar (astro M) = .ok ⟨(n - Z1) % 9⟩) ∧
        (X ≤ n → n < Z2 → l.getDayNineStar (astro M) = .ok ⟨(X - 1 - n) % 9⟩) ∧
        (Z2 ≤ n → l.getDayNineStar (astro M) = .ok ⟨(n - Z2) % 9⟩) ∧
        (n < Z1 → l.getDayNineStar (astro M) = .ok ⟨(Z1 - 1 - n) % 9⟩) := by
  obtain ⟨f1, P, -, -, t⟩ := Ephem.made hM hs (by omega) h2 hl
  have y2 := in_year hM (by omega) h2.le (i := 13) (by norm_num) (by norm_num)
  have y3 := in_year hM (by omega) h2.le (i := 25) (by norm_num) (by norm_num)
  have y1 : (Ephem.moment (Ephem.full hM) (24 * (s.year - 2000) + 17 + (1 : ℕ))).year = s.year - 1 := by
    refine le_antisymm (Ephem.moment_le _ (by omega) (by omega) (by omega) (by omega) ?_) (Ephem.moment_ge _ (by omega) (by omega) (by omega) (by omega) ?_)
    · push_cast
      linarith
    · push_cast
      linarith
  have v1 := P.table.valid _ (List.mem_of_getElem? (t 1 (by norm_num)))
  have v2 := P.table.valid _ (List.mem_of_getElem? (t 13 (by norm_num)))
  have v3 := P.table.valid _ (List.mem_of_getElem? (t 25 (by norm_num)))
  refine ⟨_, _, _, term_key P.table.len (by decide) (t 1 (by norm_num)), term_key P.table.len (by decide) (t 13 (by norm_num)),
    term_key P.table.len (by decide) (t 25 (by norm_num)), v1, v2, v3, y1, y2, y3, ?_⟩
  intro n a b c Z1 X Z2 hn ha hb hc hZ1 hX hZ2
  refine C48_day (Ephem.almanac (Ephem.full hM)) P.table P.made.1 P.range _ _ _ (t 1 (by norm_num)) (t 13 (by norm_num)) (t 25 (by norm_num))
    (by omega) (by omega) n a b c Z1 X Z2 (by rw [f1]; exact hn) ha hb hc hZ1 hX hZ2 ?_
  rw [isDay_iff v1.1] at ha
  rw [isDay_iff v2.1] at hb
  rw [isDay_iff v3.1] at hc
  have p := Ephem.moment_day (Ephem.full hM) (n := 24 * (s.year - 2000) + 17 + (1 : ℕ)) (by omega) (by omega)
  have q := Ephem.moment_day (Ephem.full hM) (n := 24 * (s.year - 2000) + 17 + (13 : ℕ)) (by omega) (by omega)
  have r := Ephem.moment_day (Ephem.full hM) (n := 24 * (s.year - 2000) + 17 + (25 : ℕ)) (by omega) (by omega)
  rw [← ha] at p
  rw [← hb] at q
  rw [← hc] at r
  push_cast at p q r
  have g1 : ((a + 59 : ℤ) : ℚ) ≤ b := by push_cast; linarith [p.2, q.1]
  have g2 : ((b + 59 : ℤ) : ℚ) ≤ c := by push_cast; linarith [q.2, r.1]
  exact ⟨by exact_mod_cast g1, by exact_mod_cast g2⟩

/-- a day of 2026 with the winter solstice ten days before -/
example : ∃ l z1, Lunar.fromSolar (astro Libm.cut) ⟨2026, 1, 1, 8, 0, 0⟩ = .ok l ∧ term l.jieQi ['冬', '至'] = .ok z1 ∧ z1.year = 2025 := by
  obtain ⟨l, e, -⟩ := C84_round_trip Libm.cut_good ⟨2026, 1, 1, 8, 0, 0⟩ (by decide) (by decide) (by decide)
  obtain ⟨z1, x, z2, a, -, -, -, -, -, b, -⟩ := C87_day_star Libm.cut_good _ (by decide) (by decide) (by decide) l e
  exact ⟨l, z1, e, a, b⟩

/-- **C87** the festivals by solar terms: the day before Qing Ming, and the fifth 戊 days after Li Chun and Li Qiu. -/
theorem C87_other_festivals (hM : M.Good) (s : Solar) (hs : s.Valid) (h1 : 1584 < s.year) (h2 : s.year < 6890) (l : Lunar)
    (hl : Lunar.fromSolar (astro M) s = .ok l) :
    ∃ lc qm lq, term l.jieQi ['立', '春'] = .ok lc ∧ term l.jieQi ['清', '明'] = .ok qm ∧ term l.jieQi ['立', '秋'] = .ok lq ∧ lc.Valid ∧ qm.Valid ∧ lq.Valid ∧
      ∀ n q a b, IsDay n s.date → IsDay q qm.date → IsDay a lc.date → IsDay b lq.date →
        l.getOtherFestivals (astro M) = .ok (otherFestival l.month l.day ++ (if n + 1 = q then [['寒', '食', '节']] else []) ++
          (if FifthWu a n then [['春', '社']] else []) ++ (if FifthWu b n then [['秋', '社']] else [])) := by
  obtain ⟨f1, P, -, -, t⟩ := Ephem.made hM hs h1 h2 hl
  have y2 := in_year hM h1.le h2.le (i := 16) (by norm_num) (by norm_num)
  refine ⟨_, _, _, term_key P.table.len (by decide) (t 4 (by norm_num)), term_key P.table.len (by decide) (t 8 (by norm_num)),
    term_key P.table.len (by decide) (t 16 (by norm_num)), P.table.valid _ (List.mem_of_getElem? (t 4 (by norm_num))),
    P.table.valid _ (List.mem_of_getElem? (t 8 (by norm_num))), P.table.valid _ (List.mem_of_getElem? (t 16 (by norm_num))), ?_⟩
  intro n q a b hn hq ha hb
  exact C78_other_festivals (Ephem.almanac (Ephem.full hM)) s l hs h1 h2 hl _ _ _ (t 4 (by norm_num)) (t 8 (by norm_num)) (t 16 (by norm_num))
    (by omega) n q a b hn hq ha hb

/-- 2026-04-04 is the day before Qing Ming, if this is on the fifth -/
example : ∃ l qm, Lunar.fromSolar (astro Libm.cut) ⟨2026, 4, 4, 8, 0, 0⟩ = .ok l ∧ term l.jieQi ['清', '明'] = .ok qm ∧
    (IsDay (JD.jdn ⟨2026, 4, 5⟩) qm.date → ∃ r, l.getOtherFestivals (astro Libm.cut) = .ok r ∧ ['寒', '食', '节'] ∈ r) := by
  obtain ⟨l, e, -⟩ := C84_round_trip Libm.cut_good ⟨2026, 4, 4, 8, 0, 0⟩ (by decide) (by decide) (by decide)
  obtain ⟨lc, qm, lq, -, a, -, v1, -, v3, c⟩ := C87_other_festivals Libm.cut_good _ (by decide) (by decide) (by decide) l e
  refine ⟨l, qm, e, a, fun h => ⟨_, c (JD.jdn ⟨2026, 4, 4⟩) _ _ _ ((isDay_iff (by decide)).2 rfl) h ((isDay_iff v1.1).2 rfl) ((isDay_iff v3.1).2 rfl), ?_⟩⟩
  rw [if_pos (by decide)]
  simp

/-! ## C88 -/

/-- **C88** the constructor of lunar dates leaves a proper date behind (what is proved of proper dates - pillars, charts,
double-hours, mansions and so on - holds of every existing moment), and its full description never fails. -/
theorem C88_full (hM : M.Good) (s : Solar) (hs : s.Valid) (h1 : 1584 < s.year) (h2 : s.year ≤ 5000) :
    ∃ l w, Lunar.fromSolar (astro M) s = .ok l ∧ l.Proper ∧ l.toFullString (astro M) = .ok (dateWords l.year.toNat l.month l.day ++ w) := by
  obtain ⟨l, lm, e, -, d1, d2, d3⟩ := C86_day hM s hs h1 h2
  obtain ⟨f1, P, m, -, t⟩ := Ephem.made hM hs h1 (by omega) e
  obtain ⟨u, g1, hu, gc, gd⟩ := Cal.nextDay_spec hs 1
  have uy : u.date.y ≤ s.date.y + 1 := BaZi.year_near hs.1 hu.1 (by omega)
  simp only [Solar.date] at uy
  have y2 := in_year hM h1.le (show s.year ≤ 6890 by omega) (i := 16) (by norm_num) (by norm_num)
  have ny := P.near
  rw [f1] at ny
  obtain ⟨w, hw⟩ := C80_full (Ephem.almanac (Ephem.full hM)) s u l hs g1 h1 (by omega) (by omega) (by norm_num) e (by omega) m ⟨d1, by omega⟩ (by
    intro q hq
    rw [t 16 (by norm_num)] at hq
    cases hq
    omega)
  exact ⟨l, w, e, P, hw⟩

/-- the full description of the last day of the year 3000 -/
example : ∃ l w, Lunar.fromSolar (astro Libm.cut) ⟨3000, 12, 31, 23, 30, 0⟩ = .ok l ∧ l.toFullString (astro Libm.cut) = .ok w := by
  obtain ⟨l, w, e, -, h⟩ := C88_full Libm.cut_good ⟨3000, 12, 31, 23, 30, 0⟩ (by decide) (by decide) (by decide)
  exact ⟨l, _, e, h⟩

private theorem after_year (hM : M.Good) {s : Solar} (hs : s.Valid) (h1 : 1584 < s.year) (h2 : s.year < 6890) {l : Lunar}
    (hl : Lunar.fromSolar (astro M) s = .ok l) (k : TermKind) :
    (∃ i t, k.has i ∧ l.jieQi[i]? = some t ∧ t.Valid ∧ s.year < t.year) ∧ ∃ i t, k.has i ∧ l.jieQi[i]? = some t ∧ t.Valid ∧ t.year < s.year := by
  obtain ⟨f1, P, -, -, t⟩ := Ephem.made hM hs h1 h2 hl
  have later : ∀ i : ℕ, 28 ≤ i → i ≤ 29 → s.year < (Ephem.moment (Ephem.full hM) (24 * (s.year - 2000) + 17 + i)).year := by
    intro i i1 i2
    have a1 : ((28 : ℕ) : ℚ) ≤ i := by exact_mod_cast i1
    push_cast at a1
    have := Ephem.moment_ge (Ephem.full hM) (n := 24 * (s.year - 2000) + 17 + i) (y := s.year + 1) (by omega) (by omega) (by omega) (by omega) (by
      push_cast
      linarith)
    omega
  have earlier : ∀ i : ℕ, i ≤ 1 → (Ephem.moment (Ephem.full hM) (24 * (s.year - 2000) + 17 + i)).year < s.year := by
    intro i i1
    have a1 : (i : ℚ) ≤ ((1 : ℕ) : ℚ) := by exact_mod_cast i1
    push_cast at a1
    have := Ephem.moment_le (Ephem.full hM) (n := 24 * (s.year - 2000) + 17 + i) (y := s.year - 1) (by omega) (by omega) (by omega) (by omega) (by
      push_cast
      linarith)
    omega
  have get : ∀ i : ℕ, i < 31 → (Ephem.moment (Ephem.full hM) (24 * (s.year - 2000) + 17 + i)).Valid :=
    fun i hi => P.table.valid _ (List.mem_of_getElem? (t i hi))
  cases k with
  | all => exact ⟨⟨28, _, trivial, t 28 (by norm_num), get 28 (by norm_num), later 28 le_rfl (by norm_num)⟩, 0, _, trivial, t 0 (by norm_num),
      get 0 (by norm_num), earlier 0 (by norm_num)⟩
  | jie => exact ⟨⟨28, _, rfl, t 28 (by norm_num), get 28 (by norm_num), later 28 le_rfl (by norm_num)⟩, 0, _, rfl, t 0 (by norm_num),
      get 0 (by norm_num), earlier 0 (by norm_num)⟩
  | qi => exact ⟨⟨29, _, rfl, t 29 (by norm_num), get 29 (by norm_num), later 29 (by norm_num) le_rfl⟩, 1, _, rfl, t 1 (by norm_num),
      get 1 (by norm_num), earlier 1 le_rfl⟩

/-- **C88** the terms before and after: every existing moment has a Jie, a Qi and a solar term at or before it and one after
it, the nearest of its kind in the table. -/
theorem C88_terms (hM : M.Good) (s : Solar) (hs : s.Valid) (h1 : 1584 < s.year) (h2 : s.year < 6890) (l : Lunar)
    (hl : Lunar.fromSolar (astro M) s = .ok l) (k : TermKind) :
    (∃ i t, k.has i ∧ l.jieQi[i]? = some t ∧ Solar.Before s t ∧ (∀ j u, k.has j → l.jieQi[j]? = some u → Solar.Before s u → i ≤ j) ∧
      nextOf k l false = .ok (some ⟨termName i, i % 2 = 0, i % 2 = 1, t⟩)) ∧
    ∃ i t, k.has i ∧ l.jieQi[i]? = some t ∧ Solar.AtOrBefore t s ∧ (∀ j u, k.has j → l.jieQi[j]? = some u → Solar.AtOrBefore u s → j ≤ i) ∧
      prevOf k l false = .ok (some ⟨termName i, i % 2 = 0, i % 2 = 1, t⟩) := by
  obtain ⟨f1, P, -⟩ := Ephem.made hM hs h1 h2 hl
  obtain ⟨⟨i, t, a1, a2, a3, a4⟩, j, u, b1, b2, b3, b4⟩ := after_year hM hs h1 h2 hl k
  constructor
  · rcases C45_next P.table P.made.1 P.range k with h | ⟨h, -⟩
    · rw [f1] at h
      exact h
    · have := h i t a1 a2
      rw [f1, Solar.atOrBefore_iff a3 hs] at this
      have := BaZi.secNo_year a3 hs this
      omega
  · rcases C45_prev P.table P.made.1 P.range k with h | ⟨h, -⟩
    · rw [f1] at h
      exact h
    · have := h j u b1 b2
      rw [f1, Solar.before_iff hs b3] at this
      have := BaZi.secNo_year hs b3 this.le
      omega

/-- 2026-02-04 at four has a Jie before it and one after -/
example : ∃ l p q, Lunar.fromSolar (astro Libm.cut) ⟨2026, 2, 4, 4, 0, 0⟩ = .ok l ∧ l.getPrevJie = .ok (some p) ∧ l.getNextJie = .ok (some q) := by
  obtain ⟨l, e, -⟩ := C84_round_trip Libm.cut_good ⟨2026, 2, 4, 4, 0, 0⟩ (by decide) (by decide) (by decide)
  obtain ⟨⟨i, t, -, -, -, -, a⟩, j, u, -, -, -, -, b⟩ := C88_terms Libm.cut_good _ (by decide) (by decide) (by decide) l e .jie
  exact ⟨l, _, _, e, b, a⟩

theorem mapM_mem {α β : Type} {f : α → Except PyErr β} {l : List α} {r : List β} (h : l.mapM f = .ok r) {b : β} (hb : b ∈ r) :
    ∃ a, f a = .ok b := by
  induction l generalizing r with
  | nil =>
    cases h
    cases hb
  | cons a l ih =>
    rw [List.mapM_cons] at h
    cases ha : f a with
    | error x => rw [ha] at h; cases h
    | ok c =>
      rw [ha] at h
      cases hl : l.mapM f with
      | error x => rw [hl] at h; cases h
      | ok r' =>
        rw [hl] at h
        cases h
        rcases List.mem_cons.1 hb with rfl | hb
        · exact ⟨a, ha⟩
        · exact ih hl hb

/-- **C88** the start of the luck of a chart is computed for every birth, sex and school, and so are its decades; the pillar of
a year of a decade is that of the calendar year. -/
theorem C88_luck (hM : M.Good) (s : Solar) (hs : s.Valid) (h1 : 1584 < s.year) (h2 : s.year < 6890) (l : Lunar)
    (hl : Lunar.fromSolar (astro M) s = .ok l) (e : EightChar) (he : e.lunar = l) (gender sect n : ℤ) :
    ∃ u st ds, Yun.make e gender sect = .ok u ∧ u.lunar = l ∧ u.getStartSolar = .ok st ∧ st.Valid ∧ u.getDaYun n = .ok ds ∧ ds.length = n.toNat ∧
      ∀ d ∈ ds, ∀ j, (LiuNian.make d j).getGanZhi (astro M) = .ok (ganZhi ((LiuNian.make d j).year - 4)) := by
  obtain ⟨f1, P, -, -, t⟩ := Ephem.made hM hs h1 h2 hl
  obtain ⟨⟨i, q, -, -, -, -, hn⟩, j, p, -, -, -, -, hp⟩ := C88_terms hM s hs h1 h2 l hl .jie
  have hP : e.lunar.Proper := by rw [he]; exact P
  obtain ⟨y, hy⟩ := EightChar.exists_at hP .year
  have make : ∃ u, Yun.make e gender sect = .ok u ∧ u.lunar = e.lunar := by
    by_cases c : sect = 2
    · subst c
      obtain ⟨u, -, a, b, -⟩ := C50_start_minutes hP y hy.get gender _ _ (by rw [he]; exact hp) (by rw [he]; exact hn)
      exact ⟨u, a, b⟩
    · obtain ⟨u, -, a, b, -⟩ := C50_start hP y hy.get gender sect c _ _ (by rw [he]; exact hp) (by rw [he]; exact hn)
      exact ⟨u, a, b⟩
  obtain ⟨u, eu, ul⟩ := make
  rw [he] at ul
  obtain ⟨-, -, -, st, -, -, -, g1, g2, -⟩ := C51_start_solar u (by rw [ul]; exact P.made.1)
  obtain ⟨ds, d1, d2, d3⟩ := C51_decades u st g1 n
  refine ⟨u, st, ds, eu, ul, g1, g2, d1, d2, fun d hd j => ?_⟩
  have y4 := in_year hM h1.le h2.le (i := 4) (by norm_num) (by norm_num)
  have v4 := P.table.valid _ (List.mem_of_getElem? (t 4 (by norm_num)))
  obtain ⟨lx, ex, -⟩ := (Ephem.almanac (Ephem.full hM)).fromSolar_table v4 (by omega) (by omega)
  obtain ⟨x1, X, -⟩ := Ephem.made hM v4 (by omega) (by omega) ex
  have near := X.near
  rw [x1] at near
  have hmk : ∃ i, DaYun.make u i = .ok d := by
    unfold Yun.getDaYun at d1
    exact mapM_mem d1 hd
  obtain ⟨i, hi⟩ := hmk
  exact C51_year_pillar (Ephem.almanac (Ephem.full hM)) s hs h1 h2 (by omega) l lx _ hl (t 4 (by norm_num)) ex near u ul i d hi j

/-- the decades of a woman born on 2026-02-04 -/
example : ∃ l u ds, Lunar.fromSolar (astro Libm.cut) ⟨2026, 2, 4, 4, 0, 0⟩ = .ok l ∧ Yun.make ⟨2, l⟩ 0 1 = .ok u ∧ u.getDaYun 10 = .ok ds ∧ ds.length = 10 := by
  obtain ⟨l, e, -⟩ := C84_round_trip Libm.cut_good ⟨2026, 2, 4, 4, 0, 0⟩ (by decide) (by decide) (by decide)
  obtain ⟨u, st, ds, a, -, -, -, b, c, -⟩ := C88_luck Libm.cut_good _ (by decide) (by decide) (by decide) l e ⟨2, l⟩ rfl 0 1 10
  exact ⟨l, u, ds, e, a, b, c⟩

/-! ## C89 -/

/-- a month `fromYm` knows is one of the sequence -/
theorem month_key (hM : M.Good) {y mo : ℤ} (h1 : 1584 ≤ y) (h2 : y ≤ 6890) {m : LunarMonth} (h : LunarMonth.fromYm (astro M) y mo = some m) :
    ∃ i : ℕ, i < 15 ∧ m.year = y ∧ m.month = mo ∧ (m.year, m.month) = (Ephem.almanac (Ephem.full hM)).key ((Ephem.almanac (Ephem.full hM)).start y + i) ∧
      m.firstJulianDay = (Ephem.almanac (Ephem.full hM)).first ((Ephem.almanac (Ephem.full hM)).start y + i) ∧
      m.dayCount = (Ephem.almanac (Ephem.full hM)).first ((Ephem.almanac (Ephem.full hM)).start y + i + 1) -
        (Ephem.almanac (Ephem.full hM)).first ((Ephem.almanac (Ephem.full hM)).start y + i) := by
  unfold LunarMonth.fromYm getMonth at h
  have a := List.mem_of_find?_eq_some h
  have b := List.find?_some h
  rw [decide_eq_true_iff, make_year] at b
  obtain ⟨i, hi⟩ := List.getElem?_of_mem a
  obtain ⟨hi', -⟩ := List.getElem?_eq_some_iff.1 hi
  rw [months_length] at hi'
  obtain ⟨m', e, f⟩ := (Ephem.almanac (Ephem.full hM)).window y h1 h2 i hi'
  rw [hi] at e
  cases e
  exact ⟨i, hi', b.1, b.2, f⟩

/-- **C89** `LunarMonth.next`: the month after begins on the day after the last; `a` months away there is a month, later
exactly when `a` is positive; and going back the same number of months leads to the same month. -/
theorem C89_next (hM : M.Good) (y mo : ℤ) (m : LunarMonth) (h : LunarMonth.fromYm (astro M) y mo = some m) (a : ℤ)
    (h1 : 12 * (1585 - y) ≤ a) (h2 : a ≤ 12 * (6890 - y) - 15) (y1 : 1585 ≤ y) (y2 : y ≤ 6888) (fuel : ℕ) (hf : a.natAbs + 2 ≤ fuel) :
    (∃ m', m.next (astro M) (fuel + 1) 1 = some m' ∧ m'.firstJulianDay = m.firstJulianDay + m.dayCount) ∧
    ∃ m' m'', m.next (astro M) fuel a = some m' ∧ (m.firstJulianDay < m'.firstJulianDay ↔ 0 < a) ∧ m'.next (astro M) fuel (-a) = some m'' ∧
      (m''.year, m''.month, m''.firstJulianDay, m''.dayCount) = (m.year, m.month, m.firstJulianDay, m.dayCount) := by
  obtain ⟨i, hi, my, -, mk, mf, mc⟩ := month_key hM (by omega) (by omega) h
  have B := (Ephem.full hM).toFacts
  have s1 := Ephem.start_mono B (Y := 1585) (Y' := y) (by norm_num) (by omega) y1
  have s2 := Ephem.start_mono B (Y := y) (Y' := 6890) (by omega) le_rfl (by omega)
  have s0 := Ephem.start_mono B (Y := 1584) (Y' := 1585) le_rfl (by norm_num) (by norm_num)
  have st : ∀ Y, (Ephem.almanac (Ephem.full hM)).start Y = Ephem.start B Y := fun Y => rfl
  constructor
  · obtain ⟨m', e, -, f, -⟩ := C42_next (Ephem.almanac (Ephem.full hM)) _ 1 m mk (by omega) (by omega) (by rw [st, st]; omega) (by rw [st, st]; omega)
      (fuel + 1) (by simp only [Int.natAbs_one]; omega)
    exact ⟨m', e, by rw [f, mf, mc]; ring⟩
  · obtain ⟨m', e, k', f, c'⟩ := C42_next (Ephem.almanac (Ephem.full hM)) _ a m mk (by omega) (by omega) (by rw [st, st]; omega)
      (by rw [st, st]; omega) fuel hf
    have yr : 1584 ≤ m'.year ∧ m'.year ≤ 6890 := by
      obtain ⟨Y, Y1, Y2, Y3, Y4⟩ := Ephem.home_exists B (k := (Ephem.almanac (Ephem.full hM)).start y + i + a) (by rw [st]; omega)
      rw [st] at Y3 Y4
      have Y5 : Y < 6890 := by
        by_contra c
        obtain rfl : Y = 6890 := by omega
        omega
      have Y6 : 1585 ≤ Y := by
        by_contra c
        obtain rfl : Y = 1584 := by omega
        norm_num at Y4
        omega
      have step := Ephem.start_step B Y1 Y5
      have Y4' : Ephem.start B y + i + a < Ephem.start B (Y + 1) := by
        rcases Y4 with h | h
        · omega
        · exact h
      obtain ⟨j, hj⟩ : ∃ j : ℕ, Ephem.start B y + i + a = Ephem.start B Y + j := ⟨(Ephem.start B y + i + a - Ephem.start B Y).toNat, by omega⟩
      have nr := (Ephem.almanac (Ephem.full hM)).near Y Y1 Y2 j (by omega)
      rw [st, ← hj, ← st, ← k'] at nr
      dsimp only at nr
      omega
    obtain ⟨m'', e'', k'', f'', c''⟩ := C42_next (Ephem.almanac (Ephem.full hM)) _ (-a) m' k' yr.1 yr.2 (by rw [st, st]; omega)
      (by rw [st, st]; omega) fuel (by rw [Int.natAbs_neg]; exact hf)
    rw [show (Ephem.almanac (Ephem.full hM)).start y + i + a + -a = (Ephem.almanac (Ephem.full hM)).start y + i by ring] at k'' f'' c''
    refine ⟨m', m'', e, ?_, e'', ?_⟩
    · rw [mf, f, (Ephem.almanac (Ephem.full hM)).mono.lt_iff_lt]
      omega
    · have q := k''.trans mk.symm
      rw [show m''.year = m.year from congrArg Prod.fst q, show m''.month = m.month from congrArg Prod.snd q, f'', c'', mf, mc]

/-- **C89** the sayings about the first days of the year: every number they name is that of the first day of month 1 with the
branch or stem of the saying, and none of them fails. -/
theorem C89_sayings (hM : M.Good) (Y : ℤ) (h1 : 1584 < Y) (h2 : Y < 6890) :
    ∃ m, LunarMonth.fromYm (astro M) Y 1 = some m ∧
      (∀ p ∈ [(getTouLiang, '子', "", "鼠偷粮"), (getCaoZi, '子', "草子", "分"), (getGengTian, '丑', "", "牛耕田"),
        (getHuaShou, '卯', "花收", "分"), (getZhiShui, '辰', "", "龙治水"), (getTuoGu, '午', "", "马驮谷"),
        (getQiangMi, '酉', "", "鸡抢米"), (getKanCan, '酉', "", "姑看蚕"), (getGongZhu, '亥', "", "屠共猪")],
        ∃ n, FirstBranch m.firstJulianDay p.2.1 n ∧ p.1 (astro M) (make (astro M) Y) = .ok (p.2.2.1.toList ++ numeral12 n ++ p.2.2.2.toList)) ∧
      (∀ p ∈ [(getJiaTian, '甲', "甲田", "分"), (getFenBing, '丙', "", "人分饼"), (getDeJin, '辛', "", "日得金")],
        ∃ n, FirstStem m.firstJulianDay p.2.1 n ∧ p.1 (astro M) (make (astro M) Y) = .ok (p.2.2.1.toList ++ numeral12 n ++ p.2.2.2.toList)) ∧
      ∃ n a b, FirstBranch m.firstJulianDay '寅' n ∧ FirstStem m.firstJulianDay '丙' a ∧ FirstStem m.firstJulianDay '丁' b ∧
        (make (astro M) Y).getRenBing (astro M) = .ok (numeral12 n ++ ['人'] ++ numeral12 a ++ ['丙']) ∧
        (make (astro M) Y).getRenChu (astro M) = .ok (numeral12 n ++ ['人'] ++ numeral12 b ++ ['锄']) := by
  obtain ⟨H, S⟩ := C84_almanac hM
  obtain ⟨k, x, hk, hx, hd, hy⟩ := S.newYear Y h1.le h2.le
  obtain ⟨m, e, f, -⟩ := H.getMonth_some (k := k) (by rw [hk]; exact h1.le) (by rw [hk]; exact h2.le)
  rw [hk] at e
  refine ⟨m, e, ?_⟩
  rw [f]
  exact ⟨C55_branches H Y k h1.le h2.le hk x hx hd (by omega) (by omega), C55_stems H Y k h1.le h2.le hk x hx hd (by omega) (by omega),
    C55_double H Y k h1.le h2.le hk x hx hd (by omega) (by omega)⟩

/-- a hundred months on from month 1 of 2026 -/
example : ∃ m m', LunarMonth.fromYm (astro Libm.cut) 2026 1 = some m ∧ m.next (astro Libm.cut) 200 100 = some m' ∧ m.firstJulianDay < m'.firstJulianDay := by
  obtain ⟨m, e, -⟩ := C89_sayings Libm.cut_good 2026 (by norm_num) (by norm_num)
  obtain ⟨-, m', -, a, b, -⟩ := C89_next Libm.cut_good 2026 1 m e 100 (by norm_num) (by norm_num) (by norm_num) (by norm_num) 200 (by norm_num)
  exact ⟨m, m', e, a, b.2 (by norm_num)⟩

end
