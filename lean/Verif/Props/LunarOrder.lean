import Verif.Props.MonthLength
import Verif.Proof.Ephem.Own
import Verif.Proof.Ephem.MonthPillar

/-! # C108, C109: the order of lunar dates, and lunar anniversaries -/

section
open Spec ShouXing Lunar Ephem LunarYear

attribute [local irreducible] make

variable {M : Libm}

/-- the order of lunar dates by their parts: year, number of the month, a leap month after the month of its number, day, time of day -/
def LunarEarlier (l l' : Lunar) : Prop :=
  l.year < l'.year ∨ l.year = l'.year ∧ (|l.month| < |l'.month| ∨ |l.month| = |l'.month| ∧ ((0 < l.month ∧ l'.month < 0) ∨ l.month = l'.month ∧
    (l.day < l'.day ∨ l.day = l'.day ∧ (l.hour < l'.hour ∨ l.hour = l'.hour ∧ (l.minute < l'.minute ∨ l.minute = l'.minute ∧ l.second < l'.second)))))

private theorem rk_lt {y m y' m' : ℤ} (a : 1 ≤ |m|) (b : |m| ≤ 12) (a' : 1 ≤ |m'|) (b' : |m'| ≤ 12) :
    rk (y, m) < rk (y', m') ↔ y < y' ∨ y = y' ∧ (|m| < |m'| ∨ |m| = |m'| ∧ 0 < m ∧ m' < 0) := by
  unfold rk
  dsimp only
  have e : |m| = m ∨ |m| = -m := abs_choice m
  have e' : |m'| = m' ∨ |m'| = -m' := abs_choice m'
  have n := abs_nonneg m
  have n' := abs_nonneg m'
  split_ifs <;> omega

private theorem rk_eq {y m y' m' : ℤ} (a : 1 ≤ |m|) (b : |m| ≤ 12) (a' : 1 ≤ |m'|) (b' : |m'| ≤ 12) :
    rk (y, m) = rk (y', m') ↔ y = y' ∧ m = m' := by
  unfold rk
  dsimp only
  have e : |m| = m ∨ |m| = -m := abs_choice m
  have e' : |m'| = m' ∨ |m'| = -m' := abs_choice m'
  have n := abs_nonneg m
  have n' := abs_nonneg m'
  split_ifs <;> omega

/-- **C108** one moment is before another exactly if its lunar date is the earlier one -/
theorem C108_order (hM : M.Good) (s t : Solar) (hs : s.Valid) (ht : t.Valid) (s1 : 1585 < s.year) (s2 : s.year < 6890)
    (t1 : 1585 < t.year) (t2 : t.year < 6890) (l l' : Lunar) (hl : Lunar.fromSolar (astro M) s = .ok l) (hl' : Lunar.fromSolar (astro M) t = .ok l') :
    s.Before t ↔ LunarEarlier l l' := by
  have S := sunAlmanac (full hM)
  have part : ∀ {s : Solar} {l : Lunar}, s.Valid → 1585 < s.year → s.year < 6890 → Lunar.fromSolar (astro M) s = .ok l →
      ∃ k, key (full hM).toFacts k = (l.year, l.month) ∧ 1 ≤ l.day ∧ l.day ≤ first (full hM).toFacts (k + 1) - first (full hM).toFacts k ∧
        JD.jdn s.date = first (full hM).toFacts k + l.day - 1 ∧ l.hour = s.hour ∧ l.minute = s.minute ∧ l.second = s.second ∧
        1 ≤ |l.month| ∧ |l.month| ≤ 12 := by
    intro s l hs h1 h2 hl
    obtain ⟨m, e, -, -, -, f2, k, f3, f4, f5, f6⟩ := C38_round_trip (almanac (full hM)) s hs (by omega) h2
    cases Except.ok.inj (hl.symm.trans e)
    have b := S.behind s.year (by omega) (by omega) k s.date _ hs.1 rfl f6 (by omega) (by omega)
    have e : key (full hM).toFacts k = (l.year, l.month) := f3.symm
    have b : (key (full hM).toFacts k).1 = s.year ∨ (key (full hM).toFacts k).1 = s.year - 1 := b
    have n := key_month (full hM) (k := k) (by omega) (by omega)
    rw [e] at n
    simp only [Prod.mk.injEq] at f2
    exact ⟨k, e, f4, f5, ((isDay_iff hs.1).1 f6).symm, f2.1, f2.2.1, f2.2.2, n.1, n.2⟩
  obtain ⟨k, a1, a2, a3, a4, a5, a6, a7, a8, a9⟩ := part hs s1 s2 hl
  obtain ⟨k', b1, b2, b3, b4, b5, b6, b7, b8, b9⟩ := part ht t1 t2 hl'
  have mono : StrictMono (fun k => rk (key (full hM).toFacts k)) := strictMono_int_of_lt_succ (fun k => rk_key_lt (full hM).toFacts k)
  have lt : k < k' ↔ rk (l.year, l.month) < rk (l'.year, l'.month) := by rw [← a1, ← b1]; exact mono.lt_iff_lt.symm
  have eq : k = k' ↔ rk (l.year, l.month) = rk (l'.year, l'.month) := by rw [← a1, ← b1]; exact mono.injective.eq_iff.symm
  rw [rk_lt a8 a9 b8 b9] at lt
  rw [rk_eq a8 a9 b8 b9] at eq
  have fm : StrictMono (first (full hM).toFacts) := (almanac (full hM)).mono
  have day : (k < k' → JD.jdn s.date < JD.jdn t.date) ∧ (k' < k → JD.jdn t.date < JD.jdn s.date) ∧ (k = k' → JD.jdn t.date - JD.jdn s.date = l'.day - l.day) := by
    refine ⟨fun h => ?_, fun h => ?_, fun h => ?_⟩
    · have := fm.monotone (show k + 1 ≤ k' by omega)
      omega
    · have := fm.monotone (show k' + 1 ≤ k by omega)
      omega
    · subst h
      omega
  rw [Solar.before_iff hs ht]
  have es : Cal.secNo s = 86400 * Cal.dn s.date + (s.hour * 3600 + s.minute * 60 + s.second) := rfl
  have et : Cal.secNo t = 86400 * Cal.dn t.date + (t.hour * 3600 + t.minute * 60 + t.second) := rfl
  rw [es, et]
  rw [JD.jdn_eq hs.1, JD.jdn_eq ht.1] at day
  obtain ⟨h1, h2, h3, h4, h5, h6⟩ := hs.2
  obtain ⟨g1, g2, g3, g4, g5, g6⟩ := ht.2
  unfold Cal.dn at *
  generalize Cal.dayNo s.date.y s.date.m s.date.d = x at *
  generalize Cal.dayNo t.date.y t.date.m t.date.d = y at *
  unfold LunarEarlier
  rw [a5, a6, a7, b5, b6, b7]
  clear a1 b1 a2 a3 a4 b2 b3 b4 es et fm mono hl hl' part S a5 a6 a7 b5 b6 b7
  rcases lt_trichotomy k k' with c | c | c
  · have d := day.1 c
    have := lt.1 c
    clear lt eq day
    refine ⟨fun _ => ?_, fun _ => by omega⟩
    rcases this with h | ⟨h, h' | ⟨h', h''⟩⟩
    · exact Or.inl h
    · exact Or.inr ⟨h, Or.inl h'⟩
    · exact Or.inr ⟨h, Or.inr ⟨h', Or.inl h''⟩⟩
  · have d := day.2.2 c
    obtain ⟨q1, q2⟩ := eq.1 c
    simp only [q1, q2, lt_irrefl, false_or, true_and]
    clear lt eq day
    have : ¬ (0 < l'.month ∧ l'.month < 0) := by omega
    simp only [this, false_or]
    omega
  · have d := day.2.1 c
    have n1 : ¬ k < k' := by omega
    have n2 : ¬ k = k' := by omega
    rw [lt] at n1
    rw [eq] at n2
    clear lt eq day
    refine ⟨fun _ => by omega, fun h => ?_⟩
    exfalso
    rcases h with h | ⟨h, h' | ⟨h', h'' | ⟨h'', _⟩⟩⟩
    · exact n1 (Or.inl h)
    · exact n1 (Or.inr ⟨h, Or.inl h'⟩)
    · exact n1 (Or.inr ⟨h, Or.inr ⟨h', h''⟩⟩)
    · exact n2 ⟨h, h''⟩

/-- **C108** the solar moments of two lunar dates are in the order of the lunar dates -/
theorem C108_dates (hM : M.Good) (y m d h mi s y' m' d' h' mi' s' : ℤ) (y1 : 1586 < y) (y2 : y < 6889) (y1' : 1586 < y') (y2' : y' < 6889) (l l' : Lunar)
    (hl : Lunar.fromYmdHms (astro M) y m d h mi s = .ok l) (hl' : Lunar.fromYmdHms (astro M) y' m' d' h' mi' s' = .ok l') :
    l.solar.Before l'.solar ↔ LunarEarlier l l' := by
  have part : ∀ {y m d h mi s : ℤ} {l : Lunar}, 1586 < y → y < 6889 → Lunar.fromYmdHms (astro M) y m d h mi s = .ok l →
      l.solar.Valid ∧ 1585 < l.solar.year ∧ l.solar.year < 6890 ∧ Lunar.fromSolar (astro M) l.solar = .ok l := by
    intro y m d h mi s l h1 h2 hl
    obtain ⟨k, x, hk, a1, a2, hx, hn, x1, x2, hc⟩ := accepted (almanac (full hM)) (by omega) (by omega) hl
    have k1 : ((almanac (full hM)).key k).1 = y := by rw [hk]
    obtain ⟨l2, e2, -, -, -, -, -, q, v, -⟩ := (almanac (full hM)).fromYmdHms_ok (k := k) (by omega) (by omega) a1 a2 hx hn x1 x2 hc
    have nr := (almanac (full hM)).near' k (by omega) (by omega) x _ hx hn (by omega) (by omega)
    have f := (C39_round_trip (almanac (full hM)) y m d h mi s l (by omega) (by omega) hl).2
    rw [hk] at e2
    cases Except.ok.inj (e2.symm.trans hl)
    have : l.solar.year = x.y := by rw [q]
    exact ⟨v.1, by omega, by omega, f⟩
  obtain ⟨v, a, b, f⟩ := part y1 y2 hl
  obtain ⟨v', a', b', f'⟩ := part y1' y2' hl'
  exact C108_order hM _ _ v v' a b a' b' l l' f f'

/-! ## C109 -/

private theorem december {Y : ℤ} (hY : 1584 ≤ Y) : JD.jdn ⟨Y + 1, 12, 1⟩ ≤ JD.jdn ⟨Y, 12, 1⟩ + 366 := by
  have c : (Y + 1) / 100 - (Y + 1) / 100 / 4 ≥ Y / 100 - Y / 100 / 4 := by
    have : (Y + 1) / 100 = Y / 100 ∨ (Y + 1) / 100 = Y / 100 + 1 := by omega
    omega
  unfold JD.jdn JD.corr JD.my JD.mm
  dsimp only
  norm_num
  split_ifs <;> omega

/-- two years with a leap month between their winter solstices do not follow one another -/
private theorem no_two (hM : M.Good) {W : ℤ} (h1 : 1586 ≤ W) (h2 : W ≤ 4997) (a : start (full hM).toFacts (W + 1) - start (full hM).toFacts W = 13)
    (b : start (full hM).toFacts (W + 1 + 1) - start (full hM).toFacts (W + 1) = 13) : False := by
  have B := (full hM).toFacts
  obtain ⟨-, a2, s1, s2, -⟩ := start_spec B (Y := W) (by omega) (by omega)
  obtain ⟨b1, -, -, -, -⟩ := start_spec B (Y := W + 1 + 1) (by omega) (by omega)
  have y1 : (1586 : ℚ) ≤ W := by exact_mod_cast h1
  have y2 : (W : ℚ) ≤ 4997 := by exact_mod_cast h2
  have r1 : ((-5160 : ℤ) : ℚ) < (start B W : ℤ) := by push_cast; linarith
  have r2 : ((start B W : ℤ) : ℚ) < ((37120 : ℤ) : ℚ) := by push_cast; linarith
  have r1 := Int.cast_lt.1 r1
  have r2 := Int.cast_lt.1 r2
  have p := (Lunation.dayN_year hM (k := start B W + 1) (by omega) (by omega)).1.1
  have q := (Lunation.dayN_year hM (k := start B W + 1 + 12) (by omega) (by omega)).2.1
  rw [show start B W + 1 + 12 + 13 = start B (W + 1 + 1) by omega] at q
  have u := (possible_days hM (Y := W - 1) (by omega) (by omega)).2.2.bounds (by omega) (dayT_pos hM (by omega) (by omega))
  have v := (possible_days hM (Y := W + 1) (by omega) (by omega)).2.2.bounds (by omega) (dayT_pos hM (by omega) (by omega))
  rw [show 24 * (W - 1 - 2000) + 17 + ((25 : ℕ) : ℤ) = 24 * (W - 2000) + 18 by push_cast; ring] at u
  rw [show 24 * (W + 1 - 2000) + 17 + ((25 : ℕ) : ℤ) = 24 * (W + 1 + 1 - 2000) + 18 by push_cast; ring] at v
  have j := december (Y := W - 1) (by omega)
  have j' := december (Y := W) (by omega)
  rw [sub_add_cancel] at j
  have u := u.1
  have v := v.2
  norm_num at u v
  omega

/-- a month of a number and that of the same number of the year after -/
private theorem next_year (hM : M.Good) {k k' Y m : ℤ} (h1 : 1586 ≤ Y) (h2 : Y ≤ 4990) (m1 : 1 ≤ m) (m2 : m ≤ 12)
    (hk : key (full hM).toFacts k = (Y, m)) (hk' : key (full hM).toFacts k' = (Y + 1, m)) :
    (k' = k + 12 ∨ k' = k + 13) ∧ -5160 ≤ k ∧ k + 13 ≤ 37150 ∧ first (full hM).toFacts k = dayN M k + J2000 ∧
      first (full hM).toFacts k' = dayN M k' + J2000 ∧ (k' = k + 13 ↔ ∃ i, k < i ∧ i < k' ∧ (key (full hM).toFacts i).2 < 0) := by
  have B := (full hM).toFacts
  have tab : ∀ li ∈ List.range 17, 1 ≤ li → ∀ j ∈ List.range 12,
      name li (j + if li ≤ j then 1 else 0) = (if j ≤ 1 then (-1 : ℤ) else 0, if j ≤ 1 then (11 : ℤ) + j else j - 1) := by decide +kernel
  obtain ⟨W, j, hj, hW⟩ : ∃ (W : ℤ) (j : ℕ), j < 12 ∧ ((j ≤ 1 ∧ W = Y + 1 ∧ m = 11 + j) ∨ (2 ≤ j ∧ W = Y ∧ m = j - 1)) := by
    by_cases c : m ≤ 10
    · exact ⟨Y, (m + 1).toNat, by omega, by omega⟩
    · exact ⟨Y + 1, (m - 11).toNat, by omega, by omega⟩
  have inj : ∀ a b, key B a = key B b → a = b := by
    have mono : StrictMono (fun k => rk (key B k)) := strictMono_int_of_lt_succ (fun k => rk_key_lt B k)
    intro a b h
    exact mono.injective (by show rk (key B a) = rk (key B b); rw [h])
  have at' : ∀ V : ℤ, 1584 ≤ V → V ≤ 6890 → key B (start B V + ((j + if leapOf (astro M) V ≤ j then 1 else 0 : ℕ) : ℤ)) = (V - W + Y, m) := by
    intro V v1 v2
    have lb := leapOf_bounds (astro M) V
    rw [key_eq B v1 v2 (by split_ifs <;> omega), tab (leapOf (astro M) V) (by simp; omega) lb.1 j (by simpa using hj)]
    rcases hW with ⟨a, b, c⟩ | ⟨a, b, c⟩
    · rw [if_pos a, if_pos a, Prod.mk.injEq]; omega
    · rw [if_neg (by omega), if_neg (by omega), Prod.mk.injEq]; omega
  have e := inj _ _ (hk.trans (by rw [at' W (by omega) (by omega)]; simp) : key B k = key B (start B W + ((j + if leapOf (astro M) W ≤ j then 1 else 0 : ℕ) : ℤ)))
  have e' := inj _ _ (hk'.trans (by rw [at' (W + 1) (by omega) (by omega)]; simp [add_comm]) :
    key B k' = key B (start B (W + 1) + ((j + if leapOf (astro M) (W + 1) ≤ j then 1 else 0 : ℕ) : ℤ)))
  have l1 := link B (Y := W) (by omega) (by omega)
  have l2 := link B (Y := W + 1) (by omega) (by omega)
  have l3 := l2.step
  have nt := no_two hM (W := W) (by omega) (by omega)
  obtain ⟨-, -, s1, s2, -⟩ := start_spec B (Y := W) (by omega) (by omega)
  have y1 : (1586 : ℚ) ≤ W := by exact_mod_cast (show (1586 : ℤ) ≤ W by omega)
  have y2 : (W : ℚ) ≤ 4991 := by exact_mod_cast (show W ≤ (4991 : ℤ) by omega)
  have r1 : ((-5160 : ℤ) : ℚ) < (start B W : ℤ) := by push_cast; linarith
  have r2 : ((start B W : ℤ) : ℚ) < ((37120 : ℤ) : ℚ) := by push_cast; linarith
  have r1 := Int.cast_lt.1 r1
  have r2 := Int.cast_lt.1 r2
  have f := first_eq B (Y := W) (by omega) (by omega) (i := ((j + if leapOf (astro M) W ≤ j then 1 else 0 : ℕ) : ℤ)) (by omega) (by split_ifs <;> omega)
  have f' := first_eq B (Y := W + 1) (by omega) (by omega) (i := ((j + if leapOf (astro M) (W + 1) ≤ j then 1 else 0 : ℕ) : ℤ)) (by omega) (by split_ifs <;> omega)
  rw [← e] at f
  rw [← e'] at f'
  have neg : ∀ V : ℤ, 1584 ≤ V → V ≤ 6890 → ∀ i : ℕ, i < 12 ∨ leapOf (astro M) V ≤ 12 ∧ i < 13 →
      ((key B (start B V + i)).2 < 0 ↔ i = leapOf (astro M) V) := by
    intro V v1 v2 i hi
    have lb := leapOf_bounds (astro M) V
    rw [key_eq B v1 v2 (by omega)]
    obtain ⟨n1, n2, n3⟩ := name_number lb.1 lb.2 hi
    rcases lt_trichotomy i (leapOf (astro M) V) with c | c | c
    · have := (n1 c).2
      dsimp only
      omega
    · have := (n2 c).2
      dsimp only
      omega
    · have := (n3 c).2
      dsimp only
      omega
  have neg1 := neg W (by omega) (by omega)
  have neg2 := neg (W + 1) (by omega) (by omega)
  have main : (k' = k + 12 ∨ k' = k + 13) ∧ (k' = k + 13 ↔ ∃ i, k < i ∧ i < k' ∧ (key B i).2 < 0) := by
    clear f f' r1 r2 y1 y2 s1 s2 at' inj tab hk hk' h1 h2 m1 m2 hW neg
    have lb := (leapOf_bounds (astro M) W).1
    have lb' := (leapOf_bounds (astro M) (W + 1)).1
    unfold Link at l1 l2
    generalize start B W = x at *
    generalize start B (W + 1) = y at *
    generalize start B (W + 1 + 1) = z at *
    generalize leapOf (astro M) W = li at *
    generalize leapOf (astro M) (W + 1) = li' at *
    have no : ¬ (y - x = 13 ∧ z - y = 13) := fun h => nt h.1 h.2
    clear nt
    have step : k' = k + 12 ∨ k' = k + 13 := by
      split_ifs at e e' <;> push_cast at e e' <;> omega
    refine ⟨step, fun h => ?_, fun ⟨i, i1, i2, i3⟩ => ?_⟩
    · by_cases c : li' ≤ j
      · refine ⟨y + li', ?_, ?_, (neg2 li' (by omega)).2 rfl⟩
        · split_ifs at e e' <;> push_cast at e e' <;> omega
        · split_ifs at e e' <;> push_cast at e e' <;> omega
      · refine ⟨x + li, ?_, ?_, (neg1 li (by split_ifs at e e' <;> push_cast at e e' <;> omega)).2 rfl⟩
        · split_ifs at e e' <;> push_cast at e e' <;> omega
        · split_ifs at e e' <;> push_cast at e e' <;> omega
    · by_contra c
      by_cases w : i < y
      · obtain ⟨t, rfl⟩ : ∃ t : ℕ, i = x + t := ⟨(i - x).toNat, by omega⟩
        have := (neg1 t (by omega)).1 i3
        split_ifs at e e' <;> push_cast at e e' <;> omega
      · obtain ⟨t, rfl⟩ : ∃ t : ℕ, i = y + t := ⟨(i - y).toNat, by omega⟩
        have := (neg2 t (by split_ifs at e e' <;> push_cast at e e' <;> omega)).1 i3
        split_ifs at e e' <;> push_cast at e e' <;> omega
  refine ⟨main.1, ?_, ?_, f, f', main.2⟩
  · split_ifs at e <;> push_cast at e <;> omega
  · split_ifs at e <;> push_cast at e <;> omega

/-- **C109** from a day of a lunar month to the day of the same number a year later: 353, 354 or 355 days, and no leap month lies between;
or 383, 384 or 385 days, and one does -/
theorem C109_anniversary (hM : M.Good) (Y m d h mi s h' mi' s' : ℤ) (h1 : 1586 ≤ Y) (h2 : Y ≤ 4990) (hm : 0 < m) (l l' : Lunar)
    (hl : Lunar.fromYmdHms (astro M) Y m d h mi s = .ok l) (hl' : Lunar.fromYmdHms (astro M) (Y + 1) m d h' mi' s' = .ok l') :
    ∃ n, DaysAfter n l.solar.date l'.solar.date ∧
      ((n ∈ [353, 354, 355] ∧ ∀ t x, t.Valid → l.solar.Before t → t.Before l'.solar → Lunar.fromSolar (astro M) t = .ok x → 0 < x.month) ∨
        (n ∈ [383, 384, 385] ∧ ∃ t x, t.Valid ∧ l.solar.Before t ∧ t.Before l'.solar ∧ Lunar.fromSolar (astro M) t = .ok x ∧ x.month < 0)) := by
  have part : ∀ {Y h mi s : ℤ} {l : Lunar}, 1586 ≤ Y → Y ≤ 4991 → Lunar.fromYmdHms (astro M) Y m d h mi s = .ok l →
      ∃ k, key (full hM).toFacts k = (Y, m) ∧ l.solar.Valid ∧ first (full hM).toFacts k + d - 1 = JD.jdn l.solar.date ∧ 1 ≤ d ∧
        d ≤ first (full hM).toFacts (k + 1) - first (full hM).toFacts k ∧ Y - 1 ≤ l.solar.date.y ∧ l.solar.date.y ≤ Y + 1 := by
    intro Y h mi s l h1 h2 hl
    obtain ⟨k, x, hk, a1, a2, hx, hn, x1, x2, hc⟩ := accepted (almanac (full hM)) (by omega) (by omega) hl
    have k1 : ((almanac (full hM)).key k).1 = Y := by rw [hk]
    obtain ⟨l2, e2, -, -, -, -, -, q, v, -⟩ := (almanac (full hM)).fromYmdHms_ok (k := k) (by omega) (by omega) a1 a2 hx hn x1 x2 hc
    have nr := (almanac (full hM)).near' k (by omega) (by omega) x _ hx hn (by omega) (by omega)
    rw [k1] at nr
    rw [hk] at e2
    cases Except.ok.inj (e2.symm.trans hl)
    have : l.solar.date = x := by rw [q]; rfl
    rw [this]
    exact ⟨k, hk, v.1, (isDay_iff hx).1 hn, a1, a2, nr⟩
  obtain ⟨k, hk, v, e, d1, d2, y1, y2⟩ := part h1 (by omega) hl
  obtain ⟨k', hk', v', e', -, d2', y1', y2'⟩ := part (by omega) (by omega) hl'
  have n := key_month (full hM) (k := k) (by rw [hk]; show 1584 ≤ Y; omega) (by rw [hk]; show Y ≤ 6890; omega)
  rw [hk, abs_of_pos hm] at n
  obtain ⟨c, r1, r2, f, f', lp⟩ := next_year hM h1 h2 (by omega) n.2 hk hk'
  obtain ⟨⟨p1, p2⟩, p3, p4⟩ := Lunation.dayN_year hM r1 r2
  have fm : StrictMono (first (full hM).toFacts) := (almanac (full hM)).mono
  have kk : k < k' := by omega
  refine ⟨JD.jdn l'.solar.date - JD.jdn l.solar.date, ?_, ?_⟩
  · rw [Cal.daysAfter_iff v.1 v'.1, JD.jdn_eq v.1, JD.jdn_eq v'.1]
    omega
  have sec : ∀ {a b : Solar}, a.Valid → b.Valid → (JD.jdn a.date < JD.jdn b.date → a.Before b) ∧ (a.Before b → JD.jdn a.date ≤ JD.jdn b.date) := by
    intro a b ha hb
    have ea : Cal.secNo a = 86400 * Cal.dn a.date + (a.hour * 3600 + a.minute * 60 + a.second) := rfl
    have eb : Cal.secNo b = 86400 * Cal.dn b.date + (b.hour * 3600 + b.minute * 60 + b.second) := rfl
    rw [Solar.before_iff ha hb, ea, eb, JD.jdn_eq ha.1, JD.jdn_eq hb.1]
    obtain ⟨h1, h2, h3, h4, h5, h6⟩ := ha.2
    obtain ⟨g1, g2, g3, g4, g5, g6⟩ := hb.2
    constructor
    · intro _; omega
    · intro _; omega
  by_cases c' : k' = k + 13
  · right
    refine ⟨by simp only [List.mem_cons, List.not_mem_nil, or_false]; subst c'; omega, ?_⟩
    obtain ⟨i, i1, i2, i3⟩ := lp.1 c'
    obtain ⟨x, hx, hn⟩ := exists_isDay (first (full hM).toFacts i)
    have en := (isDay_iff hx).1 hn
    have lt := fm (show i < i + 1 by omega)
    have b1 := fm.monotone (show k + 1 ≤ i by omega)
    have b2 := fm.monotone (show i + 1 ≤ k' by omega)
    have x1 := year_mono v.1 hx (by omega)
    have x2 := year_mono hx v'.1 (by omega)
    have vt : (⟨x.y, x.m, x.d, 0, 0, 0⟩ : Solar).Valid := ⟨hx, by show ClockOk 0 0 0; decide⟩
    obtain ⟨w, ew, -, -, -, f2, q, f3, f4, f5, f6⟩ := C38_round_trip (almanac (full hM)) ⟨x.y, x.m, x.d, 0, 0, 0⟩ vt (by show 1584 < x.y; omega) (by show x.y < 6890; omega)
    have iq : i = q := by
      have := (isDay_iff hx).1 f6
      exact (almanac (full hM)).month_unique (n := first (full hM).toFacts i) le_rfl lt (by omega) (by omega)
    subst iq
    refine ⟨_, w, vt, (sec v vt).1 ?_, (sec vt v').1 ?_, ew, ?_⟩
    · show _ < JD.jdn x; omega
    · show JD.jdn x < _; omega
    · rw [show w.month = (key (full hM).toFacts i).2 from congrArg Prod.snd f3]
      exact i3
  · left
    have c := c.resolve_right c'
    refine ⟨by simp only [List.mem_cons, List.not_mem_nil, or_false]; subst c; omega, ?_⟩
    intro t x vt g1 g2 hx
    have g1 := (sec v vt).2 g1
    have g2 := (sec vt v').2 g2
    have x1 := year_mono v.1 vt.1 g1
    have x2 := year_mono vt.1 v'.1 g2
    have ty : t.date.y = t.year := rfl
    obtain ⟨w, ew, -, -, -, f2, q, f3, f4, f5, f6⟩ := C38_round_trip (almanac (full hM)) t vt (by omega) (by omega)
    cases Except.ok.inj (hx.symm.trans ew)
    have en := (isDay_iff vt.1).1 f6
    have wm : x.month = (key (full hM).toFacts q).2 := congrArg Prod.snd f3
    have wy : x.year = (key (full hM).toFacts q).1 := congrArg Prod.fst f3
    have f5 : x.day ≤ first (full hM).toFacts (q + 1) - first (full hM).toFacts q := f5
    have en : first (full hM).toFacts q + x.day - 1 = JD.jdn t.date := en
    have q1 : k ≤ q := by
      by_contra c
      have := fm.monotone (show q + 1 ≤ k by omega)
      omega
    have q2 : q ≤ k' := by
      by_contra c
      have := fm.monotone (show k' + 1 ≤ q by omega)
      omega
    rcases q1.eq_or_lt with a | a
    · rw [wm, ← a, hk]; exact hm
    rcases q2.eq_or_lt with b | b
    · rw [wm, b, hk']; exact hm
    have np : ¬ (key (full hM).toFacts q).2 < 0 := fun h => c' (lp.2 ⟨q, a, b, h⟩)
    have S := sunAlmanac (full hM)
    have bh := S.behind t.year (by omega) (by omega) q t.date _ vt.1 rfl f6 (by show first (full hM).toFacts q ≤ _; omega) (by show _ < first (full hM).toFacts (q + 1); omega)
    have bh : (key (full hM).toFacts q).1 = t.year ∨ (key (full hM).toFacts q).1 = t.year - 1 := bh
    have n := key_month (full hM) (k := q) (by omega) (by omega)
    rcases abs_choice (key (full hM).toFacts q).2 with z | z <;> omega

/-- **C109** days 1 to 29 of months 1 to 12 exist in every year -/
theorem C109_exists (hM : M.Good) (Y m d : ℤ) (h1 : 1586 ≤ Y) (h2 : Y ≤ 4990) (m1 : 1 ≤ m) (m2 : m ≤ 12) (d1 : 1 ≤ d) (d2 : d ≤ 29) :
    ∃ l, Lunar.fromYmd (astro M) Y m d = .ok l := by
  obtain ⟨k, hk⟩ := has_month hM (Y := Y) (by omega) (by omega) m1 m2
  have hk' : (almanac (full hM)).key k = (Y, m) := hk
  have len : 29 ≤ (almanac (full hM)).first (k + 1) - (almanac (full hM)).first k := by
    obtain ⟨x, g, -, gd, -⟩ := (almanac (full hM)).getMonth_some (k := k) (by rw [hk']; show (1584 : ℤ) ≤ Y; omega) (by rw [hk']; show Y ≤ 6890; omega)
    rw [hk'] at g
    have := (C86_fromYm hM Y m (by omega) (by omega) x g).2.2
    omega
  obtain ⟨x, hx, hn⟩ := exists_isDay ((almanac (full hM)).first k + d - 1)
  have k1 : ((almanac (full hM)).key k).1 = Y := congrArg Prod.fst hk
  obtain ⟨y1, y2⟩ := (almanac (full hM)).near' k (by omega) (by omega) x _ hx hn (by omega) (by omega)
  obtain ⟨l, e, -⟩ := (almanac (full hM)).fromYmdHms_ok (k := k) (d := d) (h := 0) (mi := 0) (s := 0) (by omega) (by omega) d1 (by omega) hx hn
    (by omega) (by omega) (by decide)
  rw [hk'] at e
  exact ⟨l, e⟩

/-- two moments of 2050 and their lunar dates -/
example : ∃ l l', Lunar.fromSolar (astro Libm.cut) ⟨2050, 1, 22, 12, 0, 0⟩ = .ok l ∧ Lunar.fromSolar (astro Libm.cut) ⟨2050, 1, 23, 0, 0, 0⟩ = .ok l' ∧
    LunarEarlier l l' ∧ ¬ LunarEarlier l' l := by
  have v : (⟨2050, 1, 22, 12, 0, 0⟩ : Solar).Valid := by decide
  have v' : (⟨2050, 1, 23, 0, 0, 0⟩ : Solar).Valid := by decide
  obtain ⟨l, e, -⟩ := C38_round_trip (almanac (full Libm.cut_good)) _ v (by norm_num) (by norm_num)
  obtain ⟨l', e', -⟩ := C38_round_trip (almanac (full Libm.cut_good)) _ v' (by norm_num) (by norm_num)
  exact ⟨l, l', e, e', (C108_order Libm.cut_good _ _ v v' (by norm_num) (by norm_num) (by norm_num) (by norm_num) l l' e e').1 (by rw [Solar.before_iff v v']; decide),
    fun h => absurd ((C108_order Libm.cut_good _ _ v' v (by norm_num) (by norm_num) (by norm_num) (by norm_num) l' l e' e).2 h) (by rw [Solar.before_iff v' v]; decide)⟩

/-- the Mid-Autumn days of 2049 and 2050 -/
example : ∃ l l' n, Lunar.fromYmd (astro Libm.cut) 2049 8 15 = .ok l ∧ Lunar.fromYmd (astro Libm.cut) 2050 8 15 = .ok l' ∧
    DaysAfter n l.solar.date l'.solar.date ∧ n ∈ [353, 354, 355, 383, 384, 385] := by
  obtain ⟨l, e⟩ := C109_exists Libm.cut_good 2049 8 15 (by norm_num) (by norm_num) (by norm_num) (by norm_num) (by norm_num) (by norm_num)
  obtain ⟨l', e'⟩ := C109_exists Libm.cut_good 2050 8 15 (by norm_num) (by norm_num) (by norm_num) (by norm_num) (by norm_num) (by norm_num)
  obtain ⟨n, a, b⟩ := C109_anniversary Libm.cut_good 2049 8 15 0 0 0 0 0 0 (by norm_num) (by norm_num) (by norm_num) l l' e e'
  refine ⟨l, l', n, e, e', a, ?_⟩
  simp only [List.mem_cons, List.not_mem_nil, or_false] at b ⊢
  rcases b with b | b <;> omega

/-- leap or not, a date of one year is before every date of the next -/
example : ∃ l l', Lunar.fromYmd (astro Libm.cut) 2049 12 29 = .ok l ∧ Lunar.fromYmd (astro Libm.cut) 2050 1 1 = .ok l' ∧ l.solar.Before l'.solar := by
  obtain ⟨l, e⟩ := C109_exists Libm.cut_good 2049 12 29 (by norm_num) (by norm_num) (by norm_num) (by norm_num) (by norm_num) (by norm_num)
  obtain ⟨l', e'⟩ := C109_exists Libm.cut_good 2050 1 1 (by norm_num) (by norm_num) (by norm_num) (by norm_num) (by norm_num) (by norm_num)
  have g := (C39_round_trip (almanac (full Libm.cut_good)) 2049 12 29 0 0 0 l (by norm_num) (by norm_num) e).1
  have g' := (C39_round_trip (almanac (full Libm.cut_good)) 2050 1 1 0 0 0 l' (by norm_num) (by norm_num) e').1
  simp only [Prod.mk.injEq] at g g'
  refine ⟨l, l', e, e', (C108_dates Libm.cut_good 2049 12 29 0 0 0 2050 1 1 0 0 0 (by norm_num) (by norm_num) (by norm_num) (by norm_num) l l' e e').2 (.inl ?_)⟩
  rw [g.1, g'.1]
  norm_num

end
