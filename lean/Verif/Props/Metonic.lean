import Verif.Proof.Lunation.Nineteen
import Verif.Proof.Ephem.Made
import Verif.Props.Library
import Verif.Props.LeapYears
import Verif.Props.NewYear

/-! # C126: nineteen years are 235 lunar months

The phases of the moon come back to the same days of the civil year after nineteen years: the cycle of Meton, by which a birthday by the lunar calendar meets the one
by the civil calendar again.  Nothing in the library says so; every new moon is computed by itself. -/

section
open Spec LunarYear ShouXing Ephem

variable {M : Libm}

/-- the days of the sequence of months -/
private theorem first_day (hM : M.Good) {k : ℤ} (h0 : -5000 ≤ k) (h1 : k ≤ 37150) : (almanac (full hM)).first k = dayN M k + J2000 := by
  have B := (full hM).toFacts
  obtain ⟨-, -, -, s1, -⟩ := start_spec B (Y := 1584) (by omega) (by omega)
  obtain ⟨-, -, s2, -, -⟩ := start_spec B (Y := 6890) (by omega) (by omega)
  have a1 : ((start B 1584 : ℤ) : ℚ) < ((-5000 : ℤ) : ℚ) := by push_cast at *; linarith
  have a2 : ((37150 : ℤ) : ℚ) < ((start B 6890 : ℤ) : ℚ) := by push_cast at *; linarith
  have a1 := Int.cast_lt.1 a1
  have a2 := Int.cast_lt.1 a2
  change first B k = _
  unfold first
  rw [if_neg (by omega), if_neg (by omega)]

/-- the places of the months of a list in the sequence -/
private theorem place (hM : M.Good) {Y : ℤ} (h1 : 1961 ≤ Y) (h2 : Y ≤ 4960) : -490 ≤ (almanac (full hM)).start Y ∧ (almanac (full hM)).start Y ≤ 36800 ∧
    (almanac (full hM)).start 1584 ≤ (almanac (full hM)).start Y ∧ (almanac (full hM)).start Y + 249 < (almanac (full hM)).start 6890 + 14 := by
  have B := (full hM).toFacts
  have g : (almanac (full hM)).start = start B := rfl
  rw [g]
  obtain ⟨-, -, s1, s2, -⟩ := start_spec B (Y := Y) (by omega) (by omega)
  obtain ⟨-, -, -, r1, -⟩ := start_spec B (Y := 1584) (by omega) (by omega)
  obtain ⟨-, -, r2, -, -⟩ := start_spec B (Y := 6890) (by omega) (by omega)
  have y1 : (1961 : ℚ) ≤ Y := by exact_mod_cast h1
  have y2 : (Y : ℚ) ≤ 4960 := by exact_mod_cast h2
  have a1 : ((-490 : ℤ) : ℚ) < (start B Y : ℤ) := by push_cast; linarith
  have a2 : ((start B Y : ℤ) : ℚ) < ((36800 : ℤ) : ℚ) := by push_cast; linarith
  have a3 : ((start B 1584 : ℤ) : ℚ) < ((-5000 : ℤ) : ℚ) := by push_cast at *; linarith
  have a4 : ((37150 : ℤ) : ℚ) < ((start B 6890 : ℤ) : ℚ) := by push_cast at *; linarith
  have a1 := Int.cast_lt.1 a1
  have a2 := Int.cast_lt.1 a2
  have a3 := Int.cast_lt.1 a3
  have a4 := Int.cast_lt.1 a4
  omega

/-- the sequence of months after 235 of them -/
private theorem cycle (hM : M.Good) {k : ℤ} (h0 : -490 ≤ k) (h1 : k ≤ 36815) :
    6938 ≤ (almanac (full hM)).first (k + 235) - (almanac (full hM)).first k ∧ (almanac (full hM)).first (k + 235) - (almanac (full hM)).first k ≤ 6941 ∧
    29 ≤ (almanac (full hM)).first (k + 235 + 1) - (almanac (full hM)).first (k + 235) := by
  have a := Lunation.dayN_nineteen hM (k := k) h0 (by omega)
  have b := Lunation.dayN_step hM (k := k + 235) (by omega) (by omega)
  rw [first_day hM (by omega) (by omega), first_day hM (by omega) (by omega), first_day hM (by omega) (by omega)]
  omega

/-- **C126** the 235th month after a month, which `LunarMonth.next` gives, begins 6938 to 6941 days after it (nineteen civil years have 6938 to 6940 days).
`fuel` bounds the steps of the loop of `next` -/
theorem C126_months (hM : M.Good) (y n : ℤ) (h1 : 1961 ≤ y) (h2 : y ≤ 4960) (m : LunarMonth) (hm : LunarMonth.fromYm (astro M) y n = some m)
    (fuel : ℕ) (hf : 237 ≤ fuel) :
    ∃ m', m.next (astro M) fuel 235 = some m' ∧ 6938 ≤ m'.firstJulianDay - m.firstJulianDay ∧ m'.firstJulianDay - m.firstJulianDay ≤ 6941 := by
  unfold LunarMonth.fromYm getMonth at hm
  have a := List.mem_of_find?_eq_some hm
  have b := List.find?_some hm
  rw [decide_eq_true_iff, make_year] at b
  obtain ⟨i, hi⟩ := List.getElem?_of_mem a
  obtain ⟨hi', -⟩ := List.getElem?_eq_some_iff.1 hi
  rw [months_length] at hi'
  obtain ⟨m0, e, ek, ef, -⟩ := (almanac (full hM)).window y (by omega) (by omega) i hi'
  rw [hi] at e
  cases e
  obtain ⟨p1, p2, p3, p4⟩ := place hM h1 h2
  obtain ⟨m', g1, -, g3, -⟩ := C42_next (almanac (full hM)) _ 235 m ek (by omega) (by omega) (by omega) (by omega) fuel (by omega)
  obtain ⟨c1, c2, -⟩ := cycle hM (k := (almanac (full hM)).start y + i) (by omega) (by omega)
  exact ⟨m', g1, by omega, by omega⟩

/-- nineteen civil years -/
private theorem civil {x z : Date} (hx : 1600 ≤ x.y) (h1 : 1 ≤ x.m) (h3 : 1 ≤ x.d) (hy : z.y = x.y + 19) (hm : z.m = x.m) (hd : z.d = x.d) :
    6938 ≤ JD.jdn z - JD.jdn x ∧ JD.jdn z - JD.jdn x ≤ 6940 := by
  have e : JD.my z = JD.my x + 19 := by unfold JD.my; rw [hm, hy]; split_ifs <;> omega
  have e' : JD.mm z = JD.mm x := by unfold JD.mm; rw [hm]
  unfold JD.jdn JD.corr
  rw [e, e', hd, hm, hy, if_pos (by omega), if_pos (by omega), JD.h365, JD.h365]
  obtain ⟨c, r, r0, r1, hc⟩ : ∃ c r : ℤ, 0 ≤ r ∧ r < 100 ∧ JD.my x = 100 * c + r := ⟨JD.my x / 100, JD.my x % 100, by omega, by omega, by omega⟩
  rw [hc, show (100 * c + r) / 100 = c by omega]
  by_cases q : r + 19 < 100
  · rw [show (100 * c + r + 19) / 100 = c by omega]
    omega
  · rw [show (100 * c + r + 19) / 100 = c + 1 by omega]
    omega

/-- **C126** from a moment on day `l.day` of a lunar month: about the same day of the civil calendar nineteen years later (two days before to three days after it)
the lunar calendar has day `l.day` of a month again.  Day 30 is left out, which the later month may lack -/
theorem C126_days (hM : M.Good) (s t : Solar) (l : Lunar) (hs : s.Valid) (ht : t.Valid) (h1 : 1961 ≤ s.year) (h2 : s.year ≤ 4960)
    (hy : t.year = s.year + 19) (hm : t.month = s.month) (hd : t.day = s.day) (hl : Lunar.fromSolar (astro M) s = .ok l) (h30 : l.day ≠ 30) :
    ∃ (u : Solar) (l' : Lunar) (n : ℤ), u.Valid ∧ DaysAfter n t.date u.date ∧ -2 ≤ n ∧ n ≤ 3 ∧
      (u.hour, u.minute, u.second) = (s.hour, s.minute, s.second) ∧ Lunar.fromSolar (astro M) u = .ok l' ∧ l'.day = l.day := by
  obtain ⟨l0, e, -, -, -, -, k, -, f4, f5, f6⟩ := C38_round_trip (almanac (full hM)) s hs (by omega) (by omega)
  rw [hl] at e
  cases e
  obtain ⟨-, w1, w2⟩ := (almanac (full hM)).fromSolar_eq hs (by omega) (by omega) f6 (k := k) (by omega) (by omega)
  obtain ⟨p1, p2, -, -⟩ := place hM h1 h2
  obtain ⟨c1, c2, c3⟩ := cycle hM (k := k) (by omega) (by omega)
  have len : l.day ≤ 29 := by
    have b := Lunation.dayN_step hM (k := k) (by omega) (by omega)
    rw [first_day hM (by omega) (by omega), first_day hM (by omega) (by omega)] at f5
    omega
  rw [isDay_iff hs.1] at f6
  obtain ⟨x, hx, hn⟩ := exists_isDay ((almanac (full hM)).first (k + 235) + l.day - 1)
  rw [isDay_iff hx] at hn
  obtain ⟨a1, a2⟩ := civil (x := s.date) (z := t.date) (by show 1600 ≤ s.year; omega) hs.1.1 hs.1.2.2.1 hy hm hd
  have far : x.y ≤ s.year + 38 := by
    have v : ∀ Y : ℤ, 1961 ≤ Y → (⟨Y, s.month, 1⟩ : Date).Valid := by
      intro Y hY
      refine ⟨hs.1.1, hs.1.2.1, le_rfl, ?_, by show ¬ (Y = 1582 ∧ _); omega⟩
      show (1 : ℤ) ≤ lastDay Y s.month
      unfold lastDay
      split_ifs <;> omega
    obtain ⟨q1, -⟩ := civil (x := ⟨s.year, s.month, 1⟩) (z := ⟨s.year + 19, s.month, 1⟩) (by show 1600 ≤ s.year; omega) hs.1.1 le_rfl rfl rfl rfl
    obtain ⟨q2, -⟩ := civil (x := ⟨s.year + 19, s.month, 1⟩) (z := ⟨s.year + 38, s.month, 1⟩) (by show 1600 ≤ s.year + 19; omega) hs.1.1 le_rfl
      (by show s.year + 38 = s.year + 19 + 19; ring) rfl rfl
    have d31 : JD.jdn s.date ≤ JD.jdn ⟨s.year, s.month, 1⟩ + 30 := by
      have d : s.day ≤ 31 := by
        refine hs.1.2.2.2.1.trans ?_
        unfold lastDay
        split_ifs <;> omega
      have d0 : 1 ≤ s.day := hs.1.2.2.1
      have m0 : 1 ≤ s.month := hs.1.1
      change JD.jdn ⟨s.year, s.month, s.day⟩ ≤ _
      unfold JD.jdn JD.corr JD.my JD.mm
      dsimp only
      rw [if_pos (show s.year * 372 + s.month * 31 + s.day ≥ 588829 by omega), if_pos (show s.year * 372 + s.month * 31 + 1 ≥ 588829 by omega)]
      omega
    exact year_mono hx (v (s.year + 38) (by omega)) (by omega)
  have close : s.year ≤ x.y := year_mono hs.1 hx (by omega)
  have hu : (⟨x.y, x.m, x.d, s.hour, s.minute, s.second⟩ : Solar).Valid := ⟨hx, hs.2⟩
  obtain ⟨l', e', -, -, -, -, j, -, r4, r5, r6⟩ := C38_round_trip (almanac (full hM)) _ hu (show 1584 < x.y by omega) (show x.y < 6890 by omega)
  replace r6 := (isDay_iff hx).1 r6
  obtain rfl : j = k + 235 := by
    have fm := (almanac (full hM)).mono
    have a : j < k + 235 + 1 := by rw [← fm.lt_iff_lt]; omega
    have b : k + 235 < j + 1 := by rw [← fm.lt_iff_lt]; omega
    omega
  refine ⟨_, l', JD.jdn x - JD.jdn t.date, hu, ?_, by omega, by omega, rfl, e', by omega⟩
  have q1 := JD.jdn_eq hx
  have q2 := JD.jdn_eq ht.1
  exact (Cal.daysAfter_iff ht.1 hx _).2 (by omega)

/-- **C126** if seven of nineteen lunar years have a leap month (six or eight are possible, C124), then the New Year after them is on the civil date of the first,
or up to two days before or three days after it -/
theorem C126_new_year (hM : M.Good) (s t : Solar) (l l' : Lunar) (hs : s.Valid) (ht : t.Valid) (h1 : 1961 ≤ s.year) (h2 : s.year ≤ 4960) (hy : t.year = s.year + 19)
    (hl : Lunar.fromSolar (astro M) s = .ok l) (hm : l.month = 1) (hd : l.day = 1)
    (hl' : Lunar.fromSolar (astro M) t = .ok l') (hm' : l'.month = 1) (hd' : l'.day = 1) (h7 : leapYears (astro M) s.year 19 = 7) :
    ∃ n, DaysAfter n ⟨s.year + 19, s.month, s.day⟩ t.date ∧ -2 ≤ n ∧ n ≤ 3 := by
  obtain ⟨y1, w, -⟩ := C92_new_year hM s l hs (by omega) (by omega) hl hm hd
  obtain ⟨y2, -⟩ := C92_new_year hM t l' ht (by omega) (by omega) hl' hm' hd'
  obtain ⟨l0, e, -, -, -, -, k, f3, -, -, f6⟩ := C38_round_trip (almanac (full hM)) s hs (by omega) (by omega)
  rw [hl] at e
  cases e
  obtain ⟨l0, e, -, -, -, -, k', g3, -, -, g6⟩ := C38_round_trip (almanac (full hM)) t ht (by omega) (by omega)
  rw [hl'] at e
  cases e
  obtain ⟨j, j', e, e', c, -⟩ := years_months hM (Y := s.year) (by omega) 19 (by push_cast; omega)
  obtain rfl : k = j := (almanac (full hM)).key_inj _ _ (by rw [← f3, e, y1, hm])
  obtain rfl : k' = j' := (almanac (full hM)).key_inj _ _ (by rw [← g3, e', y2, hm', hy]; rfl)
  rw [h7] at c
  obtain rfl : k' = k + 235 := by omega
  obtain ⟨v1, v2⟩ := (almanac (full hM)).home k (by rw [e]; show 1584 ≤ s.year; omega) (by rw [e]; show s.year ≤ 6890; omega)
  rw [e] at v1 v2
  dsimp only at v1 v2
  obtain ⟨p1, p2, -, -⟩ := place hM h1 h2
  obtain ⟨c1, c2, -⟩ := cycle hM (k := k) (by omega) (by omega)
  rw [isDay_iff hs.1, hd] at f6
  rw [isDay_iff ht.1, hd'] at g6
  have hx : (⟨s.year + 19, s.month, s.day⟩ : Date).Valid := by
    obtain ⟨⟨v1, v2, v3, v4, -⟩, -⟩ := hs
    refine ⟨v1, v2, v3, ?_, by show ¬ (s.year + 19 = 1582 ∧ _); omega⟩
    change s.day ≤ lastDay s.year s.month at v4
    show s.day ≤ lastDay (s.year + 19) s.month
    unfold lastDay at v4 ⊢
    split_ifs at v4 ⊢ <;> omega
  obtain ⟨a1, a2⟩ := civil (x := s.date) (z := ⟨s.year + 19, s.month, s.day⟩) (by show 1600 ≤ s.year; omega) hs.1.1 hs.1.2.2.1 rfl rfl rfl
  have q1 := JD.jdn_eq hx
  have q2 := JD.jdn_eq ht.1
  exact ⟨JD.jdn t.date - JD.jdn ⟨s.year + 19, s.month, s.day⟩, (Cal.daysAfter_iff hx ht.1 _).2 (by omega), by omega, by omega⟩

/-- 235 months from the first month of 2024, whose first day is 10 February -/
example : ∃ m m', LunarMonth.fromYm (astro Libm.cut) 2024 1 = some m ∧ m.next (astro Libm.cut) 240 235 = some m' ∧
    6938 ≤ m'.firstJulianDay - m.firstJulianDay ∧ m'.firstJulianDay - m.firstJulianDay ≤ 6941 := by
  obtain ⟨k, -, hk, -⟩ := (sunAlmanac (full Libm.cut_good)).newYear 2024 (by omega) (by omega)
  obtain ⟨m, e, -⟩ := (almanac (full Libm.cut_good)).getMonth_some (k := k) (by rw [hk]; norm_num) (by rw [hk]; norm_num)
  rw [hk] at e
  obtain ⟨m', h⟩ := C126_months Libm.cut_good 2024 1 (by norm_num) (by norm_num) m e 240 (by norm_num)
  exact ⟨m, m', e, h⟩

private theorem leapYears_add (A : Astro) (Y : ℤ) (n m : ℕ) : leapYears A Y (n + m) = leapYears A Y n + leapYears A (Y + n) m := by
  induction m with
  | zero => rfl
  | succ m ih =>
    rw [← add_assoc, leapYears_succ, leapYears_succ, ih, add_assoc]
    push_cast
    rw [add_assoc Y]

/-- **C126** there are such stretches of nineteen years: one begins within any 571 years -/
theorem C126_seven (hM : M.Good) (Y : ℤ) (h1 : 1585 ≤ Y) (h2 : Y ≤ 4400) : ∃ i : ℕ, i ≤ 570 ∧ leapYears (astro M) (Y + i) 19 = 7 := by
  by_contra hc
  push Not at hc
  have six : ∀ i : ℕ, i ≤ 570 → 6 ≤ leapYears (astro M) (Y + i) 19 ∧ leapYears (astro M) (Y + i) 19 ≤ 8 := fun i hi =>
    C124_nineteen hM (Y + i) (by omega) (by omega)
  have step : ∀ i : ℕ, leapYears (astro M) (Y + i) 19 ≤ leapYears (astro M) (Y + (i + 1 : ℕ)) 19 + 1 ∧
      leapYears (astro M) (Y + (i + 1 : ℕ)) 19 ≤ leapYears (astro M) (Y + i) 19 + 1 := by
    intro i
    have a := leapYears_add (astro M) (Y + i) 1 19
    have b := leapYears_succ (astro M) (Y + i) 19
    have c := leapYears_succ (astro M) (Y + i) 0
    have z : leapYears (astro M) (Y + i) 0 = 0 := rfl
    rw [show Y + (i : ℤ) + ((1 : ℕ) : ℤ) = Y + (i + 1 : ℕ) by push_cast; ring] at a
    rw [z] at c
    rw [show 1 + 19 = 19 + 1 from rfl, b] at a
    rw [show 0 + 1 = 1 from rfl] at c
    split_ifs at a c <;> omega
  have same : ∀ i : ℕ, i ≤ 570 → leapYears (astro M) (Y + i) 19 = leapYears (astro M) (Y + (0 : ℕ)) 19 := by
    intro i
    induction i with
    | zero => intro; rfl
    | succ i ih =>
      intro hi
      have := ih (by omega)
      have := six i (by omega)
      have := six (i + 1) hi
      have := hc i (by omega)
      have := hc (i + 1) hi
      have := step i
      omega
  have blocks : ∀ b : ℕ, b ≤ 30 → leapYears (astro M) Y (19 * b) = b * leapYears (astro M) (Y + (0 : ℕ)) 19 := by
    intro b
    induction b with
    | zero => intro; simp [leapYears]
    | succ b ih =>
      intro hb
      rw [show 19 * (b + 1) = 19 * b + 19 by ring, leapYears_add, ih (by omega), same (19 * b) (by omega)]
      ring
  have t := blocks 30 le_rfl
  have h := abs_le.1 (C124_share hM Y 570 h1 (by push_cast; omega))
  rw [show 19 * 30 = 570 from rfl] at t
  rw [t] at h
  push_cast at h
  have s0 := six 0 (by omega)
  have c0 := hc 0 (by omega)
  push_cast at s0 c0
  generalize leapYears (astro M) (Y + 0) 19 = L at h s0 c0
  obtain rfl | rfl : L = 6 ∨ L = 8 := by omega
  · norm_num at h
  · norm_num at h

/-- such a stretch, its first New Year and the one after it -/
example : ∃ (s t : Solar) (l l' : Lunar) (n : ℤ), 2000 ≤ s.year ∧ t.year = s.year + 19 ∧ Lunar.fromSolar (astro Libm.cut) s = .ok l ∧
    Lunar.fromSolar (astro Libm.cut) t = .ok l' ∧ (l.month, l.day, l'.month, l'.day) = (1, 1, 1, 1) ∧
    DaysAfter n ⟨s.year + 19, s.month, s.day⟩ t.date ∧ -2 ≤ n ∧ n ≤ 3 := by
  obtain ⟨i, hi, h7⟩ := C126_seven Libm.cut_good 2000 (by norm_num) (by norm_num)
  obtain ⟨l, e, v, f, y, -⟩ := C92_exists Libm.cut_good (2000 + i) (by omega) (by omega)
  obtain ⟨l', e', v', f', y', -⟩ := C92_exists Libm.cut_good (2000 + i + 19) (by omega) (by omega)
  have d := (C39_round_trip (almanac (full Libm.cut_good)) _ 1 1 0 0 0 l (by omega) (by omega) e).1
  have d' := (C39_round_trip (almanac (full Libm.cut_good)) _ 1 1 0 0 0 l' (by omega) (by omega) e').1
  simp only [Prod.mk.injEq] at d d'
  rw [← y] at h7
  obtain ⟨n, a, b, c⟩ := C126_new_year Libm.cut_good l.solar l'.solar l l' v v' (by omega) (by omega) (by omega) f d.2.1 d.2.2.1 f' d'.2.1 d'.2.2.1 h7
  exact ⟨l.solar, l'.solar, l, l', n, by omega, by omega, f, f', by rw [d.2.1, d.2.2.1, d'.2.1, d'.2.2.1], a, b, c⟩

/-- nineteen years after New Year's day of 2030 a lunar month begins -/
example : ∃ (l : Lunar) (u : Solar) (l' : Lunar) (n : ℤ), Lunar.fromYmd (astro Libm.cut) 2030 1 1 = .ok l ∧
    DaysAfter n ⟨2049, l.solar.month, l.solar.day⟩ u.date ∧ -2 ≤ n ∧ n ≤ 3 ∧ Lunar.fromSolar (astro Libm.cut) u = .ok l' ∧ l'.day = 1 := by
  obtain ⟨l, e, v, f, y, h⟩ := C92_exists Libm.cut_good 2030 (by norm_num) (by norm_num)
  have d := (C39_round_trip (almanac (full Libm.cut_good)) 2030 1 1 0 0 0 l (by norm_num) (by norm_num) e).1
  have d : l.day = 1 := by simp only [Prod.mk.injEq] at d; exact d.2.2.1
  have w : (⟨2049, l.solar.month, l.solar.day, 9, 0, 0⟩ : Solar).Valid := by
    obtain ⟨⟨v1, v2, v3, v4, -⟩, -⟩ := v
    refine ⟨⟨v1, v2, v3, ?_, by show ¬ ((2049 : ℤ) = 1582 ∧ _); omega⟩, (by decide : ClockOk 9 0 0)⟩
    change l.solar.day ≤ lastDay l.solar.year l.solar.month at v4
    show l.solar.day ≤ lastDay 2049 l.solar.month
    unfold lastDay at v4 ⊢
    split_ifs at v4 ⊢ <;> omega
  obtain ⟨u, l', n, -, b1, b2, b3, -, b4, b5⟩ := C126_days Libm.cut_good l.solar ⟨2049, l.solar.month, l.solar.day, 9, 0, 0⟩ l v w (by omega) (by omega)
    (by rw [y]; rfl) rfl rfl f (by omega)
  exact ⟨l, u, l', n, e, b1, b2, b3, b4, by omega⟩

end
