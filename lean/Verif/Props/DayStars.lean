import Verif.Props.Everyday
import Verif.Props.TermDates

/-! # C111, C112: the attributes of the nine stars, and the stars from day to day -/

section
open Spec LunarYear ShouXing Lunar LunarUtil

variable {M : Libm}

/-! ## C111: the stars stand on the Luo Shu square -/

/-- the magic square, south above -/
def luoShu : List (List ℕ) := [[4, 9, 2], [3, 5, 7], [8, 1, 6]]

/-- the eight trigrams of the later heaven around the middle -/
def palaces : List (List Char) := [['巽', '离', '坤'], ['震', '中', '兑'], ['艮', '坎', '乾']]

/-- their directions -/
def quarters : List (List String) := [["东南", "正南", "西南"], ["正东", "中宫", "正西"], ["东北", "正北", "西北"]]

/-- their phases: wood in the east, fire in the south, metal in the west, water in the north, earth on the diagonal -/
def palacePhases : List (List Char) := [['木', '火', '土'], ['木', '土', '金'], ['土', '水', '金']]

/-- the eight doors, 休生伤杜景死惊开 clockwise from the north; none in the middle -/
def doors : List (List String) := [["杜", "景", "死"], ["伤", "", "惊"], ["生", "休", "开"]]

/-- the star stands in row `r`, column `c` of the square: number, place, direction, phase and door are those of the palace; it is 阳 in the
palaces from the north-west (exclusive) to the south-east (inclusive) and in the middle, else 阴 -/
def StandsIn (s : NineStar) (r c : ℕ) : Prop :=
  s.index + 1 = ((luoShu.getD r []).getD c 0 : ℕ) ∧ s.getNumber = .ok (numeral9 ((luoShu.getD r []).getD c 0 : ℕ)) ∧
  s.getPosition = .ok [(palaces.getD r []).getD c '?'] ∧ s.getPositionDesc = .ok ((quarters.getD r []).getD c "?").toList ∧
  s.getWuXing = .ok [(palacePhases.getD r []).getD c '?'] ∧ s.getBaMenInQiMen = .ok ((doors.getD r []).getD c "?").toList ∧
  s.getYinYangInQiMen = .ok (if c = 0 ∨ c = 1 ∧ 0 < r then ['阳'] else ['阴']) ∧
  ∃ name col, s.getColor = .ok [col] ∧ s.getNameInBeiDou = .ok name ∧ name.length = 2 ∧
    s.toString = .ok (numeral9 ((luoShu.getD r []).getD c 0 : ℕ) ++ [col] ++ [(palacePhases.getD r []).getD c '?'] ++ name)

private theorem in_square (i : ℤ) (h0 : 0 ≤ i) (h8 : i < 9) : ∃ r c, r < 3 ∧ c < 3 ∧ StandsIn ⟨i⟩ r c := by
  have key : ∀ i : ℤ, ∀ r c : ℕ, i + 1 = ((luoShu.getD r []).getD c 0 : ℕ) ∧ NineStar.getNumber ⟨i⟩ = .ok (numeral9 ((luoShu.getD r []).getD c 0 : ℕ)) ∧
      NineStar.getPosition ⟨i⟩ = .ok [(palaces.getD r []).getD c '?'] ∧ NineStar.getPositionDesc ⟨i⟩ = .ok ((quarters.getD r []).getD c "?").toList ∧
      NineStar.getWuXing ⟨i⟩ = .ok [(palacePhases.getD r []).getD c '?'] ∧ NineStar.getBaMenInQiMen ⟨i⟩ = .ok ((doors.getD r []).getD c "?").toList ∧
      NineStar.getYinYangInQiMen ⟨i⟩ = .ok (if c = 0 ∨ c = 1 ∧ 0 < r then ['阳'] else ['阴']) →
      (∃ name col, NineStar.getColor ⟨i⟩ = .ok [col] ∧ NineStar.getNameInBeiDou ⟨i⟩ = .ok name ∧ name.length = 2) → StandsIn ⟨i⟩ r c := by
    rintro i r c ⟨a1, a2, a3, a4, a5, a6, a7⟩ ⟨name, col, b1, b2, b3⟩
    refine ⟨a1, a2, a3, a4, a5, a6, a7, name, col, b1, b2, b3, ?_⟩
    unfold NineStar.toString
    rw [a2, b1, a5, b2]
    rfl
  have : i = 0 ∨ i = 1 ∨ i = 2 ∨ i = 3 ∨ i = 4 ∨ i = 5 ∨ i = 6 ∨ i = 7 ∨ i = 8 := by omega
  rcases this with h | h | h | h | h | h | h | h | h <;> subst h
  · exact ⟨2, 1, by norm_num, by norm_num, key _ _ _ (by decide +kernel) ⟨_, _, rfl, rfl, rfl⟩⟩
  · exact ⟨0, 2, by norm_num, by norm_num, key _ _ _ (by decide +kernel) ⟨_, _, rfl, rfl, rfl⟩⟩
  · exact ⟨1, 0, by norm_num, by norm_num, key _ _ _ (by decide +kernel) ⟨_, _, rfl, rfl, rfl⟩⟩
  · exact ⟨0, 0, by norm_num, by norm_num, key _ _ _ (by decide +kernel) ⟨_, _, rfl, rfl, rfl⟩⟩
  · exact ⟨1, 1, by norm_num, by norm_num, key _ _ _ (by decide +kernel) ⟨_, _, rfl, rfl, rfl⟩⟩
  · exact ⟨2, 2, by norm_num, by norm_num, key _ _ _ (by decide +kernel) ⟨_, _, rfl, rfl, rfl⟩⟩
  · exact ⟨1, 2, by norm_num, by norm_num, key _ _ _ (by decide +kernel) ⟨_, _, rfl, rfl, rfl⟩⟩
  · exact ⟨2, 0, by norm_num, by norm_num, key _ _ _ (by decide +kernel) ⟨_, _, rfl, rfl, rfl⟩⟩
  · exact ⟨0, 1, by norm_num, by norm_num, key _ _ _ (by decide +kernel) ⟨_, _, rfl, rfl, rfl⟩⟩

/-- the 甲子 day nearest to a day exists -/
private theorem exists_near (a : ℤ) : ∃ z, IsNearJiaZi z a := by
  have jz : ∀ n : ℤ, n % 60 = 0 → ganZhi n = ['甲', '子'] := fun n h => by
    rw [show (['甲', '子'] : List Char) = ganZhi 0 from by decide, ganZhi_eq_iff]
    omega
  by_cases c : (a - 11) % 60 ≤ 29
  · exact ⟨a - (a - 11) % 60, jz _ (by omega), by omega, by omega⟩
  · exact ⟨a + 60 - (a - 11) % 60, jz _ (by omega), by omega, by omega⟩

/-- **C111** every star asked for at any moment, of the year, the month, the day or the hour, by any convention, has a place on the square. -/
theorem C111_stands (hM : M.Good) (s : Solar) (hs : s.Valid) (h1 : 1585 < s.year) (h2 : s.year < 6890) (l : Lunar)
    (hl : Lunar.fromSolar (astro M) s = .ok l) (sect : ℤ) :
    ∃ y m d t, l.getYearNineStar sect = .ok y ∧ l.getMonthNineStar sect = m ∧ l.getDayNineStar (astro M) = .ok d ∧ l.getTimeNineStar = .ok t ∧
      ∀ x ∈ [y, m, d, t], ∃ r c, r < 3 ∧ c < 3 ∧ StandsIn x r c := by
  obtain ⟨f1, P, -, -, t⟩ := Ephem.made hM hs (by omega) h2 hl
  have pill := C36_pillars l P.made P.range P.table P.near
  obtain ⟨p1, e1⟩ := pill _ (List.mem_cons_self ..)
  obtain ⟨p2, e2⟩ := pill _ (List.mem_cons_of_mem _ (List.mem_cons_self ..))
  obtain ⟨p3, e3⟩ := pill _ (List.mem_cons_of_mem _ (List.mem_cons_of_mem _ (List.mem_cons_self ..)))
  have hy : ∃ i, 0 ≤ i ∧ i < 9 ∧ l.getYearNineStar sect = .ok ⟨i⟩ := by
    have key : ∀ g, ∃ i, 0 ≤ i ∧ i < 9 ∧ l.yearNineStar g = .ok ⟨i⟩ := by
      intro g
      unfold yearNineStar
      rw [e1]
      refine ⟨_, ?_, ?_, rfl⟩
      all_goals
        generalize (62 + _ - _ : ℤ) = o
        split_ifs <;> omega
    unfold getYearNineStar
    rw [e1, e2, e3]
    split_ifs
    · exact key _
    · exact key _
    · exact key _
  have hm : ∃ i, 0 ≤ i ∧ i < 9 ∧ l.getMonthNineStar sect = ⟨i⟩ := by
    have key : ∀ a b, ∃ i, 0 ≤ i ∧ i < 9 ∧ monthNineStar a b = ⟨i⟩ := by
      intro a b
      unfold monthNineStar
      exact ⟨_, Int.emod_nonneg _ (by norm_num), Int.emod_lt_of_pos _ (by norm_num), rfl⟩
    unfold getMonthNineStar
    split_ifs
    · exact key _ _
    · exact key _ _
    · exact key _ _
  have hd : ∃ i, 0 ≤ i ∧ i < 9 ∧ l.getDayNineStar (astro M) = .ok ⟨i⟩ := by
    obtain ⟨z1, x, z2, -, -, -, v1, v2, v3, -, -, -, key⟩ := C87_day_star hM s hs h1 h2 l hl
    obtain ⟨Z1, n1⟩ := exists_near (JD.jdn z1.date)
    obtain ⟨X, n2⟩ := exists_near (JD.jdn x.date)
    obtain ⟨Z2, n3⟩ := exists_near (JD.jdn z2.date)
    obtain ⟨k1, k2, k3, k4⟩ := key _ _ _ _ _ _ _ ((isDay_iff hs.1).2 rfl) ((isDay_iff v1.1).2 rfl) ((isDay_iff v2.1).2 rfl) ((isDay_iff v3.1).2 rfl) n1 n2 n3
    have b : ∀ a : ℤ, 0 ≤ a % 9 ∧ a % 9 < 9 := fun a => ⟨Int.emod_nonneg _ (by norm_num), Int.emod_lt_of_pos _ (by norm_num)⟩
    rcases lt_or_ge (JD.jdn s.date) Z1 with c | c
    · exact ⟨_, (b _).1, (b _).2, k4 c⟩
    rcases lt_or_ge (JD.jdn s.date) X with c' | c'
    · exact ⟨_, (b _).1, (b _).2, k1 c c'⟩
    rcases lt_or_ge (JD.jdn s.date) Z2 with c'' | c''
    · exact ⟨_, (b _).1, (b _).2, k2 c' c''⟩
    · exact ⟨_, (b _).1, (b _).2, k3 c''⟩
  have ht : ∃ i, 0 ≤ i ∧ i < 9 ∧ l.getTimeNineStar = .ok ⟨i⟩ := by
    have b : ∀ a : ℤ, 0 ≤ a % 9 ∧ a % 9 < 9 := fun a => ⟨Int.emod_nonneg _ (by norm_num), Int.emod_lt_of_pos _ (by norm_num)⟩
    have key := C48_time P _ _ _ (t 1 (by norm_num)) (t 13 (by norm_num)) (t 25 (by norm_num))
    by_cases c : (Solar.DayAtOrBefore (Ephem.moment (Ephem.full hM) (24 * (s.year - 2000) + 17 + (1 : ℕ))) l.solar ∧
        Solar.DayBefore l.solar (Ephem.moment (Ephem.full hM) (24 * (s.year - 2000) + 17 + (13 : ℕ)))) ∨
        Solar.DayAtOrBefore (Ephem.moment (Ephem.full hM) (24 * (s.year - 2000) + 17 + (25 : ℕ))) l.solar
    · exact ⟨_, (b _).1, (b _).2, key.1 c⟩
    · exact ⟨_, (b _).1, (b _).2, key.2 c⟩
  obtain ⟨y, y1, y2, ey⟩ := hy
  obtain ⟨m, m1, m2, em⟩ := hm
  obtain ⟨d, d1, d2, ed⟩ := hd
  obtain ⟨u, u1, u2, eu⟩ := ht
  refine ⟨_, _, _, _, ey, em, ed, eu, fun x hx => ?_⟩
  simp only [List.mem_cons, List.not_mem_nil, or_false] at hx
  rcases hx with h | h | h | h <;> subst h
  · exact in_square y y1 y2
  · exact in_square m m1 m2
  · exact in_square d d1 d2
  · exact in_square u u1 u2

/-- **C111** stars in one line of the square make fifteen, and stars in one place are one star -/
theorem C111_fifteen (a b c : NineStar) (r s t u v w : ℕ) (ha : StandsIn a r s) (hb : StandsIn b t u) (hc : StandsIn c v w)
    (h : r < 3 ∧ s < 3 ∧ t < 3 ∧ u < 3 ∧ v < 3 ∧ w < 3)
    (line : (r = t ∧ t = v ∧ s ≠ u ∧ u ≠ w ∧ s ≠ w) ∨ (s = u ∧ u = w ∧ r ≠ t ∧ t ≠ v ∧ r ≠ v) ∨ (r = s ∧ t = u ∧ v = w ∧ r ≠ t ∧ t ≠ v ∧ r ≠ v) ∨
      (r + s = 2 ∧ t + u = 2 ∧ v + w = 2 ∧ r ≠ t ∧ t ≠ v ∧ r ≠ v)) :
    (a.index + 1) + (b.index + 1) + (c.index + 1) = 15 := by
  rw [ha.1, hb.1, hc.1]
  obtain ⟨h1, h2, h3, h4, h5, h6⟩ := h
  clear ha hb hc
  interval_cases r <;> interval_cases s <;> interval_cases t <;> interval_cases u <;> first | omega | (interval_cases v <;> interval_cases w <;> first | omega | rfl)

/-- south, middle and north -/
example : ∃ a b c, StandsIn a 0 1 ∧ StandsIn b 1 1 ∧ StandsIn c 2 1 ∧ (a.index + 1) + (b.index + 1) + (c.index + 1) = 15 := by
  have h : ∀ i j k : ℤ, StandsIn ⟨i⟩ 0 1 → StandsIn ⟨j⟩ 1 1 → StandsIn ⟨k⟩ 2 1 → (i + 1) + (j + 1) + (k + 1) = 15 := fun i j k a b c =>
    C111_fifteen _ _ _ 0 1 1 1 2 1 a b c (by omega) (.inr (.inl (by omega)))
  have s9 : StandsIn ⟨8⟩ 0 1 := ⟨by decide, by decide +kernel, by decide +kernel, by decide +kernel, by decide +kernel, by decide +kernel,
    by decide +kernel, ['隐', '元'], '紫', by decide +kernel, by decide +kernel, rfl, by decide +kernel⟩
  have s5 : StandsIn ⟨4⟩ 1 1 := ⟨by decide, by decide +kernel, by decide +kernel, by decide +kernel, by decide +kernel, by decide +kernel,
    by decide +kernel, ['玉', '衡'], '黄', by decide +kernel, by decide +kernel, rfl, by decide +kernel⟩
  have s1 : StandsIn ⟨0⟩ 2 1 := ⟨by decide, by decide +kernel, by decide +kernel, by decide +kernel, by decide +kernel, by decide +kernel,
    by decide +kernel, ['天', '枢'], '白', by decide +kernel, by decide +kernel, rfl, by decide +kernel⟩
  exact ⟨⟨8⟩, ⟨4⟩, ⟨0⟩, s9, s5, s1, h _ _ _ s9 s5 s1⟩

/-! ## C112: the stars from day to day -/

/-- **C112** the days on which the stars of the days turn: `Z Y` near the winter solstice of year `Y`, `X Y` near the summer solstice.  They
say the star of every day. -/
theorem C112_turns (hM : M.Good) :
    ∃ Z X : ℤ → ℤ, (∀ Y, 1585 ≤ Y → Y ≤ 6889 →
        (∃ w d, IsDay w ⟨Y, 12, d⟩ ∧ 19 ≤ d ∧ d ≤ 23 ∧ (1961 ≤ Y → Y ≤ 2099 → 21 ≤ d ∧ d ≤ 22) ∧ IsNearJiaZi (Z Y) w) ∧
        ∃ w d, IsDay w ⟨Y, 6, d⟩ ∧ 16 ≤ d ∧ d ≤ 23 ∧ (1961 ≤ Y → Y ≤ 2099 → 20 ≤ d ∧ d ≤ 22) ∧ IsNearJiaZi (X Y) w) ∧
      ∀ s : Solar, s.Valid → 1585 < s.year → s.year < 6890 → ∀ n, IsDay n s.date → ∀ l, Lunar.fromSolar (astro M) s = .ok l →
        l.getDayNineStar (astro M) = .ok ⟨(if n < Z (s.year - 1) then Z (s.year - 1) - 1 - n else if n < X s.year then n - Z (s.year - 1)
          else if n < Z s.year then X s.year - 1 - n else n - Z s.year) % 9⟩ := by
  choose N hN using exists_near
  refine ⟨fun Y => N (JD.jdn (Ephem.moment (Ephem.full hM) (24 * (Y - 2000) + 17 + (25 : ℕ))).date),
    fun Y => N (JD.jdn (Ephem.moment (Ephem.full hM) (24 * (Y - 2000) + 17 + (13 : ℕ))).date), fun Y h1 h2 => ⟨?_, ?_⟩, ?_⟩
  · beta_reduce
    obtain ⟨v, -⟩ := Ephem.moment_window hM (Y := Y) (by omega) (by omega) (i := 25) (by norm_num)
    obtain ⟨b, b', y, m, u, u'⟩ := Ephem.possible_date hM (Y := Y) (by omega) (by omega) (i := 25) (by norm_num) (by norm_num)
    have q := fun h h' => Ephem.usual_date hM (Y := Y) h h' (i := 25) (by norm_num) (by norm_num)
    generalize Ephem.moment (Ephem.full hM) (24 * (Y - 2000) + 17 + (25 : ℕ)) = x at *
    simp only [possibleDays, usualDays, Nat.reduceSub, List.getElem?_cons_succ, List.getElem?_cons_zero, Option.some.injEq] at b' q
    subst b'
    norm_num at u u' m
    have dx : x.date = ⟨Y, 12, x.day⟩ := by rw [← y, ← m]; rfl
    refine ⟨JD.jdn x.date, x.day, dx ▸ (isDay_iff v).2 rfl, u, u', fun h h' => ?_, hN _⟩
    obtain ⟨_, e, -, -, a, b⟩ := q h h'
    subst e
    exact ⟨by exact_mod_cast a, by exact_mod_cast b⟩
  · beta_reduce
    obtain ⟨v, -⟩ := Ephem.moment_window hM (Y := Y) (by omega) (by omega) (i := 13) (by norm_num)
    obtain ⟨b, b', y, m, u, u'⟩ := Ephem.possible_date hM (Y := Y) (by omega) (by omega) (i := 13) (by norm_num) (by norm_num)
    have q := fun h h' => Ephem.usual_date hM (Y := Y) h h' (i := 13) (by norm_num) (by norm_num)
    generalize Ephem.moment (Ephem.full hM) (24 * (Y - 2000) + 17 + (13 : ℕ)) = x at *
    simp only [possibleDays, usualDays, Nat.reduceSub, List.getElem?_cons_succ, List.getElem?_cons_zero, Option.some.injEq] at b' q
    subst b'
    norm_num at u u' m
    have dx : x.date = ⟨Y, 6, x.day⟩ := by rw [← y, ← m]; rfl
    refine ⟨JD.jdn x.date, x.day, dx ▸ (isDay_iff v).2 rfl, u, u', fun h h' => ?_, hN _⟩
    obtain ⟨_, e, -, -, a, b⟩ := q h h'
    subst e
    exact ⟨by exact_mod_cast a, by exact_mod_cast b⟩
  · intro s hs h1 h2 n hn l hl
    obtain ⟨z1, x, z2, e1, e2, e3, v1, v2, v3, -, -, -, key⟩ := C87_day_star hM s hs h1 h2 l hl
    obtain ⟨f1, P, -, -, t⟩ := Ephem.made hM hs (by omega) h2 hl
    rw [term_key P.table.len (by decide) (t 1 (by norm_num))] at e1
    rw [term_key P.table.len (by decide) (t 13 (by norm_num))] at e2
    rw [term_key P.table.len (by decide) (t 25 (by norm_num))] at e3
    cases e1
    cases e2
    cases e3
    obtain ⟨k1, k2, k3, k4⟩ := key n _ _ _ _ _ _ hn ((isDay_iff v1.1).2 rfl) ((isDay_iff v2.1).2 rfl) ((isDay_iff v3.1).2 rfl) (hN _) (hN _) (hN _)
    beta_reduce
    rw [show 24 * (s.year - 1 - 2000) + 17 + ((25 : ℕ) : ℤ) = 24 * (s.year - 2000) + 17 + ((1 : ℕ) : ℤ) by push_cast; ring]
    split_ifs with c1 c2 c3
    · exact k4 c1
    · exact k1 (not_lt.1 c1) c2
    · exact k2 (not_lt.1 c2) c3
    · exact k3 (not_lt.1 c3)

private theorem solstices {Y : ℤ} (hY : 1585 ≤ Y) {d e f : ℤ} (hd : 19 ≤ d ∧ d ≤ 23) (he : 16 ≤ e ∧ e ≤ 23) (hf : 19 ≤ f ∧ f ≤ 23) :
    JD.jdn ⟨Y - 1, 12, d⟩ + 150 ≤ JD.jdn ⟨Y, 6, e⟩ ∧ JD.jdn ⟨Y, 6, e⟩ + 150 ≤ JD.jdn ⟨Y, 12, f⟩ ∧
    JD.jdn ⟨Y, 1, 1⟩ = JD.jdn ⟨Y - 1, 12, 31⟩ + 1 := by
  have c : Y / 100 - Y / 100 / 4 ≤ (Y - 1) / 100 - (Y - 1) / 100 / 4 + 1 := by
    have : Y / 100 = (Y - 1) / 100 ∨ Y / 100 = (Y - 1) / 100 + 1 := by omega
    omega
  unfold JD.jdn JD.corr JD.my JD.mm
  dsimp only
  norm_num
  refine ⟨?_, ?_, ?_⟩ <;> split_ifs <;> omega

private theorem day_valid (Y m d : ℤ) (hm : m = 6 ∨ m = 12) (h1 : 1 ≤ d) (h2 : d ≤ 30) : (⟨Y, m, d⟩ : Date).Valid := by
  refine ⟨by change 1 ≤ m; omega, by change m ≤ 12; omega, h1, ?_, fun h => ?_⟩
  · change d ≤ lastDay Y m
    rcases hm with rfl | rfl
    · exact h2
    · rw [show lastDay Y 12 = 31 from rfl]
      omega
  · have := h.2.1
    change m = 10 at this
    omega

private theorem jiaZi_mod {n : ℤ} (h : ganZhi (n - 11) = ['甲', '子']) : n % 60 = 11 := by
  rw [show (['甲', '子'] : List Char) = ganZhi 0 from by decide, ganZhi_eq_iff] at h
  omega

private theorem day_pillar (hM : M.Good) {s : Solar} (hs : s.Valid) (h1 : 1584 < s.year) (h2 : s.year < 6890) {n : ℤ} (hn : IsDay n s.date) {l : Lunar}
    (hl : Lunar.fromSolar (astro M) s = .ok l) : l.getDayInGanZhi = .ok (ganZhi (n - 11)) := by
  obtain ⟨f1, P, -⟩ := Ephem.made hM hs h1 h2 hl
  have f := (made_fields P.made (by rw [f1]; omega) (by rw [f1]; omega)).2.2.1
  rw [f1, ← (isDay_iff hs.1).1 hn] at f
  exact pair_eq f.1 f.2.1

/-- **C112** from one day to the next within a civil year the star goes up or down by one, or else the new day is a 甲子 day and has the first
or the ninth star. Over New Year this fails: `C112_new_year_violated`. -/
theorem C112_step_partial (hM : M.Good) (s s' : Solar) (hs : s.Valid) (hs' : s'.Valid) (h1 : 1585 < s.year) (h2 : s.year < 6890) (hy : s'.year = s.year)
    (n : ℤ) (hn : IsDay n s.date) (hn' : IsDay (n + 1) s'.date) (l l' : Lunar) (hl : Lunar.fromSolar (astro M) s = .ok l)
    (hl' : Lunar.fromSolar (astro M) s' = .ok l') :
    ∃ a b : ℤ, l.getDayNineStar (astro M) = .ok ⟨a⟩ ∧ l'.getDayNineStar (astro M) = .ok ⟨b⟩ ∧
      (b = (a + 1) % 9 ∨ b = (a - 1) % 9 ∨ l'.getDayInGanZhi = .ok ['甲', '子'] ∧ (b = 0 ∨ b = 8)) := by
  obtain ⟨Z, X, tt, key⟩ := C112_turns hM
  have e := key s hs h1 h2 n hn l hl
  have e' := key s' hs' (by omega) (by omega) (n + 1) hn' l' hl'
  rw [hy] at e'
  obtain ⟨⟨w, d, hw, d1, d2, -, zw⟩, -⟩ := tt (s.year - 1) (by omega) (by omega)
  obtain ⟨⟨w2, f, hw2, f1, f2, -, zw2⟩, w1, g, hw1, g1, g2, -, xw⟩ := tt s.year (by omega) (by omega)
  rw [isDay_iff (day_valid _ _ _ (.inr rfl) (by omega) (by omega))] at hw hw2
  rw [isDay_iff (day_valid _ _ _ (.inl rfl) (by omega) (by omega))] at hw1
  have so := solstices (Y := s.year) (by omega) ⟨d1, d2⟩ ⟨g1, g2⟩ ⟨f1, f2⟩
  have p := day_pillar hM hs' (by omega) (by omega) hn' hl'
  refine ⟨_, _, e, e', ?_⟩
  have o1 : Z (s.year - 1) + 60 ≤ X s.year := by have := zw.2.2; have := xw.2.1; omega
  have o2 : X s.year + 60 ≤ Z s.year := by have := xw.2.2; have := zw2.2.1; omega
  have jp : ∀ z, ganZhi (z - 11) = ['甲', '子'] → n + 1 = z → l'.getDayInGanZhi = .ok ['甲', '子'] := fun z h1 h2 => by rw [p, h2, h1]
  have p0 := jp _ zw.1
  have p1 := jp _ xw.1
  have p2 := jp _ zw2.1
  clear e e' p jp zw xw zw2 so hw hw1 hw2 tt key
  generalize Z (s.year - 1) = z0 at *
  generalize X s.year = x at *
  generalize Z s.year = z at *
  by_cases c0 : n + 1 = z0
  · refine .inr (.inr ⟨p0 c0, .inl ?_⟩)
    rw [if_neg (by omega), if_pos (by omega)]
    omega
  by_cases c1 : n + 1 = x
  · refine .inr (.inr ⟨p1 c1, .inr ?_⟩)
    rw [if_neg (by omega), if_neg (by omega), if_pos (by omega)]
    omega
  by_cases c2 : n + 1 = z
  · refine .inr (.inr ⟨p2 c2, .inl ?_⟩)
    rw [if_neg (by omega), if_neg (by omega), if_neg (by omega)]
    omega
  clear p0 p1 p2
  split_ifs <;> omega

/-- the stars of the last and the first day of years, by the turns -/
private theorem new_year (hM : M.Good) (Y : ℤ) (h1 : 1585 < Y) (h2 : Y < 6889) (s s' : Solar) (hs : s.Valid) (hs' : s'.Valid)
    (e : s.year = Y ∧ s.month = 12 ∧ s.day = 31) (e' : s'.year = Y + 1 ∧ s'.month = 1 ∧ s'.day = 1)
    (l l' : Lunar) (hl : Lunar.fromSolar (astro M) s = .ok l) (hl' : Lunar.fromSolar (astro M) s' = .ok l') :
    ∃ x z w1 w2 d1 d2 : ℤ, (IsDay w1 ⟨Y, 6, d1⟩ ∧ 16 ≤ d1 ∧ d1 ≤ 23 ∧ (1961 ≤ Y → Y ≤ 2099 → 20 ≤ d1 ∧ d1 ≤ 22) ∧ IsNearJiaZi x w1) ∧
      (IsDay w2 ⟨Y, 12, d2⟩ ∧ 19 ≤ d2 ∧ d2 ≤ 23 ∧ (1961 ≤ Y → Y ≤ 2099 → 21 ≤ d2 ∧ d2 ≤ 22) ∧ IsNearJiaZi z w2) ∧
      l.getDayNineStar (astro M) = .ok ⟨(if JD.jdn ⟨Y, 12, 31⟩ < z then x - 1 - JD.jdn ⟨Y, 12, 31⟩ else JD.jdn ⟨Y, 12, 31⟩ - z) % 9⟩ ∧
      l'.getDayNineStar (astro M) = .ok ⟨(if JD.jdn ⟨Y, 12, 31⟩ + 1 < z then z - 1 - (JD.jdn ⟨Y, 12, 31⟩ + 1) else JD.jdn ⟨Y, 12, 31⟩ + 1 - z) % 9⟩ ∧
      l'.getDayInGanZhi = .ok (ganZhi (JD.jdn ⟨Y, 12, 31⟩ + 1 - 11)) := by
  obtain ⟨Z, X, tt, key⟩ := C112_turns hM
  have dt : s.date = ⟨Y, 12, 31⟩ := by rw [← e.1, ← e.2.1, ← e.2.2]; rfl
  have dt' : s'.date = ⟨Y + 1, 1, 1⟩ := by
    change (⟨s'.year, s'.month, s'.day⟩ : Date) = _
    rw [e'.1, e'.2.1, e'.2.2]
  obtain ⟨⟨w, d, hw, d1, d2, -, zw⟩, -⟩ := tt (Y - 1) (by omega) (by omega)
  obtain ⟨⟨w2, f, hw2, f1, f2, q2, zw2⟩, w1, g, hw1, g1, g2, q1, xw⟩ := tt Y (by omega) (by omega)
  obtain ⟨-, w3, i, hw3, i1, i2, -, xw3⟩ := tt (Y + 1) (by omega) (by omega)
  have so := solstices (Y := Y) (by omega) ⟨d1, d2⟩ ⟨g1, g2⟩ ⟨f1, f2⟩
  have so' := solstices (Y := Y + 1) (by omega) (d := f) ⟨f1, f2⟩ ⟨i1, i2⟩ ⟨f1, f2⟩
  have hn' : IsDay (JD.jdn ⟨Y, 12, 31⟩ + 1) s'.date := by
    rw [isDay_iff hs'.1, dt', so'.2.2, add_sub_cancel_right]
  have k := key s hs (by omega) (by omega) _ ((isDay_iff hs.1).2 (congrArg JD.jdn dt.symm)) l hl
  have k' := key s' hs' (by omega) (by omega) _ hn' l' hl'
  have jf : JD.jdn ⟨Y, 12, f⟩ ≤ JD.jdn ⟨Y, 12, 31⟩ ∧ JD.jdn ⟨Y, 12, 31⟩ ≤ JD.jdn ⟨Y, 12, f⟩ + 12 := by
    unfold JD.jdn JD.corr JD.my JD.mm
    dsimp only
    norm_num
    constructor <;> split_ifs <;> omega
  refine ⟨X Y, Z Y, w1, w2, g, f, ⟨hw1, g1, g2, q1, xw⟩, ⟨hw2, f1, f2, q2, zw2⟩, ?_, ?_, day_pillar hM hs' (by omega) (by omega) hn' hl'⟩
  all_goals
    rw [isDay_iff (day_valid _ _ _ (.inr rfl) (by omega) (by omega))] at hw hw2
    rw [isDay_iff (day_valid _ _ _ (.inl rfl) (by omega) (by omega))] at hw1 hw3
    have a1 := zw.2.2
    have a2 := xw.2
    have a3 := zw2.2
    have a4 := xw3.2
    rw [add_sub_cancel_right] at so'
  · rw [k, e.1]
    rw [if_neg (by omega), if_neg (by omega)]
  · rw [k', e'.1, add_sub_cancel_right]
    rw [if_pos (show JD.jdn ⟨Y, 12, 31⟩ + 1 < X (Y + 1) by omega)]

/-- **C112** the same over New Year, if the turns of summer and winter are 180 days apart -/
theorem C112_new_year_partial (hM : M.Good) (Y : ℤ) (h1 : 1585 < Y) (h2 : Y < 6889) (s s' : Solar) (hs : s.Valid) (hs' : s'.Valid)
    (e : s.year = Y ∧ s.month = 12 ∧ s.day = 31) (e' : s'.year = Y + 1 ∧ s'.month = 1 ∧ s'.day = 1)
    (l l' : Lunar) (hl : Lunar.fromSolar (astro M) s = .ok l) (hl' : Lunar.fromSolar (astro M) s' = .ok l') :
    ∃ x z w1 w2 d1 d2 : ℤ, (IsDay w1 ⟨Y, 6, d1⟩ ∧ 16 ≤ d1 ∧ d1 ≤ 23 ∧ IsNearJiaZi x w1) ∧ (IsDay w2 ⟨Y, 12, d2⟩ ∧ 19 ≤ d2 ∧ d2 ≤ 23 ∧ IsNearJiaZi z w2) ∧
      (z = x + 180 → ∃ a b : ℤ, l.getDayNineStar (astro M) = .ok ⟨a⟩ ∧ l'.getDayNineStar (astro M) = .ok ⟨b⟩ ∧
      (b = (a + 1) % 9 ∨ b = (a - 1) % 9 ∨ l'.getDayInGanZhi = .ok ['甲', '子'] ∧ b = 0)) := by
  obtain ⟨x, z, w1, w2, d1, d2, ⟨a1, a2, a3, -, a4⟩, ⟨b1, b2, b3, -, b4⟩, k, k', p⟩ := new_year hM Y h1 h2 s s' hs hs' e e' l l' hl hl'
  refine ⟨x, z, w1, w2, d1, d2, ⟨a1, a2, a3, a4⟩, ⟨b1, b2, b3, b4⟩, fun h => ⟨_, _, k, k', ?_⟩⟩
  rw [p]
  generalize JD.jdn ⟨Y, 12, 31⟩ = n at *
  by_cases c : n + 1 = z
  · refine .inr (.inr ⟨by rw [c, b4.1], ?_⟩)
    rw [if_neg (by omega)]
    omega
  · clear k k' p a1 b1 a4 b4
    subst h
    split_ifs <;> omega

/-- **C112** it fails at other New Years, whatever `math.sin` and `math.cos` are within their accuracy: the last day of 2008 has the fourth star and the first day of 2009 the ninth, and
this is no 甲子 day; 2031 and 2032 likewise. -/
theorem C112_new_year_violated (hM : M.Good) (Y : ℤ) (hY : Y = 2008 ∨ Y = 2031) (l l' : Lunar)
    (hl : Lunar.fromSolar (astro M) ⟨Y, 12, 31, 12, 0, 0⟩ = .ok l) (hl' : Lunar.fromSolar (astro M) ⟨Y + 1, 1, 1, 12, 0, 0⟩ = .ok l') :
    ∃ a b : ℤ, l.getDayNineStar (astro M) = .ok ⟨a⟩ ∧ l'.getDayNineStar (astro M) = .ok ⟨b⟩ ∧
      ¬ (b = (a + 1) % 9 ∨ b = (a - 1) % 9 ∨ l'.getDayInGanZhi = .ok ['甲', '子'] ∧ (b = 0 ∨ b = 8)) := by
  obtain ⟨x, z, w1, w2, d1, d2, ⟨a1, a2, a3, a5, a4⟩, ⟨b1, b2, b3, b5, b4⟩, k, k', p⟩ := new_year hM Y (by omega) (by omega) _ _
    (by rcases hY with rfl | rfl <;> decide) (by rcases hY with rfl | rfl <;> decide) ⟨rfl, rfl, rfl⟩ ⟨rfl, rfl, rfl⟩ l l' hl hl'
  have a5 := a5 (by omega) (by omega)
  have b5 := b5 (by omega) (by omega)
  rw [isDay_iff (day_valid _ _ _ (.inl rfl) (by omega) (by omega))] at a1
  rw [isDay_iff (day_valid _ _ _ (.inr rfl) (by omega) (by omega))] at b1
  have x1 := jiaZi_mod a4.1
  have z1 := jiaZi_mod b4.1
  have x2 := a4.2
  have z2 := b4.2
  have np : l'.getDayInGanZhi ≠ .ok ['甲', '子'] := by
    rw [p]
    rcases hY with rfl | rfl <;> decide
  refine ⟨_, _, k, k', ?_⟩
  clear k k' p
  have val : ∃ W : ℤ, w1 = W + (d1 - 20) ∧ w2 = W + 184 + (d2 - 21) ∧ JD.jdn ⟨Y, 12, 31⟩ = W + 194 ∧ (W = 2454638 ∨ W = 2463038) := by
    rw [a1, b1]
    rcases hY with rfl | rfl
    · refine ⟨2454638, ?_, ?_, by decide, .inl rfl⟩
      · rcases (by omega : d1 = 20 ∨ d1 = 21 ∨ d1 = 22) with rfl | rfl | rfl <;> decide
      · rcases (by omega : d2 = 21 ∨ d2 = 22) with rfl | rfl <;> decide
    · refine ⟨2463038, ?_, ?_, by decide, .inr rfl⟩
      · rcases (by omega : d1 = 20 ∨ d1 = 21 ∨ d1 = 22) with rfl | rfl | rfl <;> decide
      · rcases (by omega : d2 = 21 ∨ d2 = 22) with rfl | rfl <;> decide
  obtain ⟨W, v1, v2, v3, v4⟩ := val
  rw [v3]
  clear a1 b1 v3 a4 b4 hl hl'
  have hx : x = W - 27 := by omega
  have hz : z = W + 213 := by omega
  rw [if_pos (by omega), if_pos (by omega)]
  rintro (h | h | h)
  · omega
  · omega
  · exact np h.1

/-- New Year 2009 -/
example : ∃ l l', Lunar.fromSolar (astro Libm.cut) ⟨2008, 12, 31, 12, 0, 0⟩ = .ok l ∧ Lunar.fromSolar (astro Libm.cut) ⟨2009, 1, 1, 12, 0, 0⟩ = .ok l' ∧
    ∃ a b : ℤ, l.getDayNineStar (astro Libm.cut) = .ok ⟨a⟩ ∧ l'.getDayNineStar (astro Libm.cut) = .ok ⟨b⟩ ∧ b ≠ (a + 1) % 9 ∧ b ≠ (a - 1) % 9 := by
  obtain ⟨l, e, -⟩ := C84_round_trip Libm.cut_good ⟨2008, 12, 31, 12, 0, 0⟩ (by decide) (by decide) (by decide)
  obtain ⟨l', e', -⟩ := C84_round_trip Libm.cut_good ⟨2009, 1, 1, 12, 0, 0⟩ (by decide) (by decide) (by decide)
  obtain ⟨a, b, h, h', n⟩ := C112_new_year_violated Libm.cut_good 2008 (.inl rfl) l l' e e'
  exact ⟨l, l', e, e', a, b, h, h', fun c => n (.inl c), fun c => n (.inr (.inl c))⟩

/-- 1 and 2 October 2026, and New Year 2027 under the condition on the turns -/
example : ∃ l l', Lunar.fromSolar (astro Libm.cut) ⟨2026, 10, 1, 12, 0, 0⟩ = .ok l ∧ Lunar.fromSolar (astro Libm.cut) ⟨2026, 10, 2, 23, 0, 0⟩ = .ok l' ∧
    ∃ a b : ℤ, l.getDayNineStar (astro Libm.cut) = .ok ⟨a⟩ ∧ l'.getDayNineStar (astro Libm.cut) = .ok ⟨b⟩ ∧
      (b = (a + 1) % 9 ∨ b = (a - 1) % 9 ∨ l'.getDayInGanZhi = .ok ['甲', '子'] ∧ (b = 0 ∨ b = 8)) := by
  obtain ⟨l, e, -⟩ := C84_round_trip Libm.cut_good ⟨2026, 10, 1, 12, 0, 0⟩ (by decide) (by decide) (by decide)
  obtain ⟨l', e', -⟩ := C84_round_trip Libm.cut_good ⟨2026, 10, 2, 23, 0, 0⟩ (by decide) (by decide) (by decide)
  exact ⟨l, l', e, e', C112_step_partial Libm.cut_good ⟨2026, 10, 1, 12, 0, 0⟩ ⟨2026, 10, 2, 23, 0, 0⟩ (by decide) (by decide) (by decide) (by decide) rfl (JD.jdn ⟨2026, 10, 1⟩)
    ((isDay_iff (by decide)).2 rfl) ((isDay_iff (by decide)).2 (by decide)) l l' e e'⟩

/-- the stars of a moment of 2026, and three stars in the middle column: 九紫 in the south, 五黄 in the middle, 一白 in the north -/
example : (∃ l y, Lunar.fromSolar (astro Libm.cut) ⟨2026, 10, 1, 12, 0, 0⟩ = .ok l ∧ l.getYearNineStar 2 = .ok y ∧ ∃ r c, StandsIn y r c) ∧
    StandsIn ⟨8⟩ 0 1 ∧ (⟨8⟩ : NineStar).toString = .ok "九紫火隐元".toList := by
  obtain ⟨l, e, -⟩ := C84_round_trip Libm.cut_good ⟨2026, 10, 1, 12, 0, 0⟩ (by decide) (by decide) (by decide)
  obtain ⟨y, m, d, t, hy, -, -, -, h⟩ := C111_stands Libm.cut_good _ (by decide) (by decide) (by decide) l e 2
  obtain ⟨r, c, -, -, w⟩ := h y (by simp)
  refine ⟨⟨l, y, e, hy, r, c, w⟩, ⟨by decide, by decide +kernel, by decide +kernel, by decide +kernel, by decide +kernel, by decide +kernel,
    by decide +kernel, ['隐', '元'], '紫', by decide +kernel, by decide +kernel, rfl, by decide +kernel⟩, by decide +kernel⟩
end
