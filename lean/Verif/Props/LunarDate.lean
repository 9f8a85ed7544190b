import Verif.Proof.LunarMonthNext
import Verif.Proof.SampleAlmanac
import Verif.Props.SolarNav

/-! # C38-C42: lunar dates and months

`H : Almanac A lo hi` says that the month lists of the years `lo .. hi` are cut from one sequence of
months (`Verif/Spec/Almanac.lean`). -/

section
open Spec LunarYear

attribute [local irreducible] make

variable {A : Astro} {lo hi : ℤ}

/-! ## C38 -/

/-- **C38** every existing moment has a lunar date, whose solar date is that moment again; the lunar
day counts the days of the month `k` the moment lies in. -/
theorem C38_round_trip (H : Almanac A lo hi) (s : Solar) (hs : s.Valid) (h1 : lo < s.year) (h2 : s.year < hi) :
    ∃ l, Lunar.fromSolar A s = .ok l ∧ l.solar = s ∧ l.Made ∧ Lunar.TermTable s.year l.jieQi ∧
      (l.hour, l.minute, l.second) = (s.hour, s.minute, s.second) ∧
      ∃ k, (l.year, l.month) = H.key k ∧ 1 ≤ l.day ∧ l.day ≤ H.first (k + 1) - H.first k ∧
        IsDay (H.first k + l.day - 1) s.date := by
  have hn : IsDay (JD.jdn s.date) s.date := (isDay_iff hs.1).mpr rfl
  obtain ⟨c1, c2⟩ := H.covers _ h1.le h2.le s.date _ hs.1 rfl hn
  obtain ⟨i, hi', g1, g2⟩ := H.month_of_day c1 c2
  obtain ⟨e, -, -⟩ := H.fromSolar_eq hs h1.le h2.le hn g1 g2
  obtain ⟨n1, n2⟩ := H.near _ h1.le h2.le i hi'
  have hday : H.first (H.start s.year + i) + (JD.jdn s.date - H.first (H.start s.year + i) + 1) - 1 = JD.jdn s.date := by ring
  obtain ⟨l, el, q1, q2, q3, q4, q5, q6, q7, q8, -⟩ := H.fromYmdHms_ok (k := H.start s.year + i)
    (d := JD.jdn s.date - H.first (H.start s.year + i) + 1) (x := s.date) (by omega) (by omega) (by omega) (by omega)
    hs.1 (by rw [hday]; exact hn) h1.le h2.le hs.2
  refine ⟨l, by rw [e, el], q6, q7, q8, by rw [q3, q4, q5], _, q1, ?_, ?_, ?_⟩
  · omega
  · omega
  · rw [q2, hday]; exact hn

/-- the sample almanac: the eve of the year 2024, the 30th of the 12th month of 2023 -/
example : ∃ l, Lunar.fromSolar Sample.astro ⟨2024, 2, 9, 23, 30, 0⟩ = .ok l ∧ (l.year, l.month, l.day) = (2023, 12, 30) := by
  obtain ⟨l, e, -, -, -, -, k, h1, h2, h3, h4⟩ :=
    C38_round_trip Sample.almanac ⟨2024, 2, 9, 23, 30, 0⟩ (by decide) (by decide) (by decide)
  refine ⟨l, e, ?_⟩
  rw [isDay_iff (by decide)] at h4
  have j : JD.jdn (⟨2024, 2, 9, 23, 30, 0⟩ : Solar).date = 2460350 := by decide
  have m1 : Sample.almanac.first 26 = 2460321 := by decide +kernel
  have m2 : Sample.almanac.first (26 + 1) = 2460351 := by decide +kernel
  have hk : k = 26 := Sample.almanac.month_unique (n := 2460350) (by omega) (by omega) (by omega) (by omega)
  subst hk
  have hy : (l.year, l.month) = (2023, 12) := by rw [h1]; decide +kernel
  rw [show l.year = 2023 from congrArg Prod.fst hy, show l.month = 12 from congrArg Prod.snd hy, show l.day = 30 by omega]

/-! ## C39 -/

/-- the month and the days of an accepted lunar date -/
theorem accepted (H : Almanac A lo hi) {y m d h mi s : ℤ} {l : Lunar} (h1 : lo < y) (h2 : y < hi)
    (hl : Lunar.fromYmdHms A y m d h mi s = .ok l) :
    ∃ k x, H.key k = (y, m) ∧ 1 ≤ d ∧ d ≤ H.first (k + 1) - H.first k ∧ x.Valid ∧ IsDay (H.first k + d - 1) x ∧
      lo ≤ x.y ∧ x.y ≤ hi ∧ ClockOk h mi s := by
  by_cases hk : ∃ k, H.key k = (y, m)
  · obtain ⟨k, hk⟩ := hk
    have k1 : (H.key k).1 = y := by rw [hk]
    have k2 : (H.key k).2 = m := by rw [hk]
    obtain ⟨M, hM, hf, hd, -⟩ := H.getMonth_some (k := k) (by omega) (by omega)
    rw [k1, k2] at hM
    unfold Lunar.fromYmdHms at hl
    dsimp only at hl
    rw [hM] at hl
    dsimp only at hl
    by_cases c1 : d < 1
    · rw [if_pos c1] at hl; cases hl
    by_cases c2 : d > M.dayCount
    · rw [if_neg c1, if_pos c2] at hl; cases hl
    obtain ⟨x, hx, hn⟩ := exists_isDay (H.first k + d - 1)
    obtain ⟨y1, y2⟩ := H.near' k (by omega) (by omega) x _ hx hn (by omega) (by omega)
    obtain ⟨a, b⟩ := H.home k (by omega) (by omega)
    have hnn := H.nonneg y (by omega) (by omega)
    rw [k1] at a b y1 y2
    have hmono := H.mono.monotone a
    have h9 := H.year_range (Y := x.y) (by omega) (by omega)
    rw [if_neg c1, if_neg c2, hf, fromJulianDay_int hx hn (by omega) h9.2] at hl
    simp only [bind, Except.bind] at hl
    refine ⟨k, x, hk, by omega, by omega, hx, hn, by omega, by omega, ?_⟩
    by_contra hc
    have : Solar.fromYmdHms x.y x.m x.d h mi s = .error .exception := by
      rcases C11_result x.y x.m x.d h mi s with e | e
      · exact absurd ((C11_accepts_iff_partial x.y x.m x.d h mi s).mp e).2.2.2.2 hc
      · exact e
    rw [this] at hl
    cases hl
  · push Not at hk
    unfold Lunar.fromYmdHms at hl
    dsimp only at hl
    rw [H.getMonth_none h1.le h2.le hk] at hl
    cases hl

/-- **C39** the lunar date of the solar date of a lunar date is that lunar date -/
theorem C39_round_trip (H : Almanac A lo hi) (y m d h mi s : ℤ) (l : Lunar) (h1 : lo < y) (h2 : y < hi)
    (hl : Lunar.fromYmdHms A y m d h mi s = .ok l) :
    (l.year, l.month, l.day, l.hour, l.minute, l.second) = (y, m, d, h, mi, s) ∧
    Lunar.fromSolar A l.solar = .ok l := by
  obtain ⟨k, x, hk, d1, d2, hx, hn, x1, x2, hc⟩ := accepted H h1 h2 hl
  have k1 : (H.key k).1 = y := by rw [hk]
  have k2 : (H.key k).2 = m := by rw [hk]
  obtain ⟨l', e, q1, q2, q3, q4, q5, q6, q7, q8, -⟩ := H.fromYmdHms_ok (k := k) (by omega) (by omega) d1 d2 hx hn x1 x2 hc
  rw [k1, k2, hl] at e
  cases e
  have q0 : (l.year, l.month) = (y, m) := by rw [q1, hk]
  refine ⟨?_, ?_⟩
  · rw [q2, q3, q4, q5, show l.year = y from congrArg Prod.fst q0, show l.month = m from congrArg Prod.snd q0]
  · have hv : l.solar.Valid := q7.1
    have hsd : l.solar.date = x := by rw [q6]; rfl
    have hsy : l.solar.year = x.y := by rw [q6]
    obtain ⟨e, -, -⟩ := H.fromSolar_eq (k := k) hv (by omega) (by omega) (by rw [hsd]; exact hn) (by omega) (by omega)
    rw [e, k1, k2, q6, show H.first k + d - 1 - H.first k + 1 = d by ring]
    exact hl

/-- the hypotheses can be met: the last day of the year 2024 (a month of 29 days), which lies in the
solar year 2025 -/
example : ∃ l, Lunar.fromYmdHms Sample.astro 2024 12 29 12 0 0 = .ok l ∧ Lunar.fromSolar Sample.astro l.solar = .ok l := by
  obtain ⟨l, e, -⟩ := Sample.almanac.fromYmdHms_ok (k := 38) (d := 29) (h := 12) (mi := 0) (s := 0) (x := ⟨2025, 1, 28⟩)
    (by decide +kernel) (by decide +kernel) (by decide) (by decide +kernel) (by decide)
    ((isDay_iff (by decide)).mpr (by decide +kernel)) (by decide) (by decide) (by decide)
  exact ⟨l, e, (C39_round_trip Sample.almanac 2024 12 29 12 0 0 l (by decide) (by decide) e).2⟩

/-! ## C40 -/

/-- **C40** the constructor accepts exactly the days of existing months with an existing clock time,
and fails with the library's own exception otherwise -/
theorem C40_accepts_iff (H : Almanac A lo hi) (y m d h mi s : ℤ) (h1 : lo < y) (h2 : y < hi) :
    ((∃ l, Lunar.fromYmdHms A y m d h mi s = .ok l) ↔
      (∃ k, H.key k = (y, m) ∧ 1 ≤ d ∧ d ≤ H.first (k + 1) - H.first k) ∧ ClockOk h mi s) ∧
    ((∃ l, Lunar.fromYmdHms A y m d h mi s = .ok l) ∨ Lunar.fromYmdHms A y m d h mi s = .error .exception) := by
  have good : (∃ k, H.key k = (y, m) ∧ 1 ≤ d ∧ d ≤ H.first (k + 1) - H.first k) ∧ ClockOk h mi s →
      ∃ l, Lunar.fromYmdHms A y m d h mi s = .ok l := by
    rintro ⟨⟨k, hk, d1, d2⟩, hc⟩
    have k1 : (H.key k).1 = y := by rw [hk]
    have k2 : (H.key k).2 = m := by rw [hk]
    obtain ⟨x, hx, hn⟩ := exists_isDay (H.first k + d - 1)
    obtain ⟨y1, y2⟩ := H.near' k (by omega) (by omega) x _ hx hn (by omega) (by omega)
    obtain ⟨l, e, -⟩ := H.fromYmdHms_ok (k := k) (by omega) (by omega) d1 d2 hx hn (by omega) (by omega) hc
    rw [k1, k2] at e
    exact ⟨l, e⟩
  refine ⟨⟨?_, good⟩, ?_⟩
  · rintro ⟨l, hl⟩
    obtain ⟨k, x, hk, d1, d2, _, _, _, _, hc⟩ := accepted H h1 h2 hl
    exact ⟨⟨k, hk, d1, d2⟩, hc⟩
  · by_cases hk : ∃ k, H.key k = (y, m)
    · obtain ⟨k, hk⟩ := hk
      have k1 : (H.key k).1 = y := by rw [hk]
      have k2 : (H.key k).2 = m := by rw [hk]
      obtain ⟨M, hM, hf, hd, -⟩ := H.getMonth_some (k := k) (by omega) (by omega)
      rw [k1, k2] at hM
      by_cases c1 : d < 1
      · right
        unfold Lunar.fromYmdHms
        dsimp only
        rw [hM]
        dsimp only
        rw [if_pos c1]
      by_cases c2 : d > M.dayCount
      · right
        unfold Lunar.fromYmdHms
        dsimp only
        rw [hM]
        dsimp only
        rw [if_neg c1, if_pos c2]
      by_cases hc : ClockOk h mi s
      · left
        exact good ⟨⟨k, hk, by omega, by omega⟩, hc⟩
      · right
        obtain ⟨x, hx, hn⟩ := exists_isDay (H.first k + d - 1)
        obtain ⟨y1, y2⟩ := H.near' k (by omega) (by omega) x _ hx hn (by omega) (by omega)
        obtain ⟨a, b⟩ := H.home k (by omega) (by omega)
        have hnn := H.nonneg y (by omega) (by omega)
        rw [k1] at a b y1 y2
        have hmono := H.mono.monotone a
        have h9 := H.year_range (Y := x.y) (by omega) (by omega)
        unfold Lunar.fromYmdHms
        dsimp only
        rw [hM]
        dsimp only
        rw [if_neg c1, if_neg c2, hf, fromJulianDay_int hx hn (by omega) h9.2]
        simp only [bind, Except.bind]
        have : Solar.fromYmdHms x.y x.m x.d h mi s = .error .exception := by
          rcases C11_result x.y x.m x.d h mi s with e | e
          · exact absurd ((C11_accepts_iff_partial x.y x.m x.d h mi s).mp e).2.2.2.2 hc
          · exact e
        rw [this]
    · right
      push Not at hk
      unfold Lunar.fromYmdHms
      dsimp only
      rw [H.getMonth_none h1.le h2.le hk]

/-- both cases occur: month 12 of 2024 has a day 29 and no day 30; 2024 has no leap month -/
example : (∃ l, Lunar.fromYmdHms Sample.astro 2024 12 29 0 0 0 = .ok l) ∧
    ¬ (∃ l, Lunar.fromYmdHms Sample.astro 2024 12 30 0 0 0 = .ok l) := by
  constructor
  · exact (C40_accepts_iff Sample.almanac 2024 12 29 0 0 0 (by decide) (by decide)).1.mpr
      ⟨⟨38, by decide +kernel, by decide, by decide +kernel⟩, by decide⟩
  · intro h
    obtain ⟨⟨k, hk, _, h2⟩, -⟩ := (C40_accepts_iff Sample.almanac 2024 12 30 0 0 0 (by decide) (by decide)).1.mp h
    have : Sample.almanac.key 38 = (2024, 12) := by decide +kernel
    obtain rfl := Sample.almanac.key_inj k 38 (by rw [hk, this])
    exact absurd h2 (by decide +kernel)

/-! ## C41 -/

/-- **C41** `next(n)` is the lunar date of the moment `n` civil days later -/
theorem C41_next (H : Almanac A lo hi) (s t : Solar) (l : Lunar) (n : ℤ) (hs : s.Valid) (ht : t.Valid)
    (hst : DaysAfter n s.date t.date) (hc : (s.hour, s.minute, s.second) = (t.hour, t.minute, t.second))
    (s1 : lo < s.year) (s2 : s.year < hi) (t1 : lo < t.year) (t2 : t.year < hi) (hl : Lunar.fromSolar A s = .ok l) :
    ∃ l', l.next A n = .ok l' ∧ Lunar.fromSolar A t = .ok l' ∧ l'.solar = t := by
  obtain ⟨l0, e0, q, -⟩ := C38_round_trip H s hs s1 s2
  rw [hl] at e0
  cases e0
  obtain ⟨l', e', q', -⟩ := C38_round_trip H t ht t1 t2
  refine ⟨l', ?_, e', q'⟩
  unfold Lunar.next
  rw [q, Cal.next_eq hs ht n (by
    simp only [Prod.mk.injEq] at hc
    exact ⟨hc.1.symm, hc.2.1.symm, hc.2.2.symm⟩) ((Cal.daysAfter_iff hs.1 ht.1 n).mp hst)]
  exact e'

/-- **C41** steps add up -/
theorem C41_next_add (H : Almanac A lo hi) (s t u : Solar) (l l' : Lunar) (a b : ℤ) (hs : s.Valid)
    (hst : s.next a = .ok t) (htu : t.next b = .ok u)
    (s1 : lo < s.year) (s2 : s.year < hi) (t1 : lo < t.year) (t2 : t.year < hi) (u1 : lo < u.year) (u2 : u.year < hi)
    (hl : Lunar.fromSolar A s = .ok l) (hl' : l.next A a = .ok l') : l'.next A b = l.next A (a + b) := by
  obtain ⟨t', g1, ht, gc, gd⟩ := Cal.nextDay_spec hs a
  rw [hst] at g1
  cases g1
  obtain ⟨u', g1, hu, gc', gd'⟩ := Cal.nextDay_spec ht b
  rw [htu] at g1
  cases g1
  have c1 : (s.hour, s.minute, s.second) = (t.hour, t.minute, t.second) := by rw [gc.1, gc.2.1, gc.2.2]
  have c2 : (t.hour, t.minute, t.second) = (u.hour, u.minute, u.second) := by rw [gc'.1, gc'.2.1, gc'.2.2]
  obtain ⟨l1, e1, f1, r1⟩ := C41_next H s t l a hs ht ((Cal.daysAfter_iff hs.1 ht.1 a).mpr gd) c1 s1 s2 t1 t2 hl
  rw [hl'] at e1
  cases e1
  obtain ⟨l2, e2, f2, r2⟩ := C41_next H t u l' b ht hu ((Cal.daysAfter_iff ht.1 hu.1 b).mpr gd') c2 t1 t2 u1 u2 f1
  obtain ⟨l3, e3, f3, r3⟩ := C41_next H s u l (a + b) hs hu
    ((Cal.daysAfter_iff hs.1 hu.1 _).mpr (by omega)) (c1.trans c2) s1 s2 u1 u2 hl
  rw [e2, e3]
  rw [f2] at f3
  exact f3

/-- **C41** the day after a lunar day is the next day of the month, or after the last day of the month
day 1 of the following month -/
theorem C41_tomorrow (H : Almanac A lo hi) (s t : Solar) (l l' : Lunar) (hs : s.Valid) (hst : s.next 1 = .ok t)
    (s1 : lo < s.year) (s2 : s.year < hi) (t1 : lo < t.year) (t2 : t.year < hi)
    (hl : Lunar.fromSolar A s = .ok l) (hl' : l.next A 1 = .ok l') :
    ∃ k, (l.year, l.month) = H.key k ∧
      (((l'.year, l'.month, l'.day) = (l.year, l.month, l.day + 1) ∧ l.day < H.first (k + 1) - H.first k) ∨
       ((l'.year, l'.month) = H.key (k + 1) ∧ l'.day = 1 ∧ l.day = H.first (k + 1) - H.first k)) := by
  obtain ⟨t', g1, ht, gc, gd⟩ := Cal.nextDay_spec hs 1
  rw [hst] at g1
  cases g1
  have c1 : (s.hour, s.minute, s.second) = (t.hour, t.minute, t.second) := by rw [gc.1, gc.2.1, gc.2.2]
  obtain ⟨l1, e1, f1, r1⟩ := C41_next H s t l 1 hs ht ((Cal.daysAfter_iff hs.1 ht.1 1).mpr gd) c1 s1 s2 t1 t2 hl
  rw [hl'] at e1
  cases e1
  obtain ⟨m, em, -, -, -, -, k, k1, k2, k3, k4⟩ := C38_round_trip H s hs s1 s2
  rw [hl] at em
  cases em
  obtain ⟨m, em, -, -, -, -, j, j1, j2, j3, j4⟩ := C38_round_trip H t ht t1 t2
  rw [f1] at em
  cases em
  rw [isDay_iff hs.1, JD.jdn_eq hs.1] at k4
  rw [isDay_iff ht.1, JD.jdn_eq ht.1, gd] at j4
  refine ⟨k, k1, ?_⟩
  have m1 := H.first_lt k
  have m2 := H.first_lt (k + 1)
  by_cases c : l.day < H.first (k + 1) - H.first k
  · left
    have : j = k := H.month_unique (n := H.first k + l.day) (by omega) (by omega) (by omega) (by omega)
    subst this
    refine ⟨?_, c⟩
    have e := k1.trans j1.symm
    rw [show l'.year = l.year from (congrArg Prod.fst e).symm, show l'.month = l.month from (congrArg Prod.snd e).symm,
      show l'.day = l.day + 1 by omega]
  · right
    have : j = k + 1 := H.month_unique (n := H.first k + l.day) (by omega) (by omega) (by omega) (by omega)
    subst this
    exact ⟨j1, by omega, by omega⟩

/-- from the eve of 2024 to New Year's day -/
example : ∃ l l', Lunar.fromSolar Sample.astro ⟨2024, 2, 9, 23, 30, 0⟩ = .ok l ∧ l.next Sample.astro 1 = .ok l' ∧
    l'.solar = ⟨2024, 2, 10, 23, 30, 0⟩ := by
  obtain ⟨l, e, -⟩ := C38_round_trip Sample.almanac ⟨2024, 2, 9, 23, 30, 0⟩ (by decide) (by decide) (by decide)
  obtain ⟨l', e', -, h⟩ := C41_next Sample.almanac ⟨2024, 2, 9, 23, 30, 0⟩ ⟨2024, 2, 10, 23, 30, 0⟩ l 1 (by decide)
    (by decide) (.inl ⟨by decide, by decide⟩) rfl (by decide) (by decide) (by decide) (by decide) e
  exact ⟨l, l', e, e', h⟩

/-! ## C42 -/

/-- **C42** `LunarMonth.next(n)` applied to month `k` is month `k + n` of the sequence, for every `n` for
which that month is in the lists of the years `lo .. hi`; the loop ends after at most `|n| + 2` passes. -/
theorem C42_next (H : Almanac A lo hi) (k n : ℤ) (m : LunarMonth) (hm : (m.year, m.month) = H.key k)
    (h1 : lo ≤ m.year) (h2 : m.year ≤ hi) (n1 : H.start lo ≤ k + n) (n2 : k + n < H.start hi + 14)
    (fuel : ℕ) (hf : n.natAbs + 2 ≤ fuel) :
    ∃ m', m.next A fuel n = some m' ∧ (m'.year, m'.month) = H.key (k + n) ∧ m'.firstJulianDay = H.first (k + n) ∧
      m'.dayCount = H.first (k + n + 1) - H.first (k + n) := by
  have k1 : m.year = (H.key k).1 := congrArg Prod.fst hm
  have k2 : m.month = (H.key k).2 := congrArg Prod.snd hm
  obtain ⟨a, b⟩ := H.home k (by omega) (by omega)
  rw [← k1] at a b
  unfold LunarMonth.next
  by_cases c0 : n = 0
  · subst c0
    rw [if_pos rfl]
    obtain ⟨M, e, f, d, key⟩ := H.getMonth_some (k := k) (by omega) (by omega)
    unfold LunarMonth.fromYm
    rw [k1, k2, add_zero]
    exact ⟨M, e, key, f, d⟩
  · rw [if_neg c0]
    by_cases c1 : n > 0
    · rw [if_pos c1]
      obtain ⟨M, e, h⟩ := H.nextFwd_ok fuel m.year k 0 n.toNat h1 h2 a b (by omega) (by split_ifs <;> omega)
      rw [show k + (n.toNat : ℤ) = k + n by omega] at h
      rw [← k1, ← k2] at e
      exact ⟨M, e, h⟩
    · rw [if_neg c1]
      obtain ⟨M, e, h⟩ := H.nextBwd_ok fuel m.year k 0 (-n).toNat h1 h2 a b (by omega) (by split_ifs <;> omega)
      rw [show k - ((-n).toNat : ℤ) = k + n by omega] at h
      rw [← k1, ← k2] at e
      exact ⟨M, e, h⟩

/-- over the leap months of 2023 and 2025 and back -/
example : (((make Sample.astro 2023).getMonth 2).bind (fun m => m.next Sample.astro 40 31)).map (fun m => (m.year, m.month)) =
      some (2025, 7) ∧
    (((make Sample.astro 2025).getMonth (-6)).bind (fun m => m.next Sample.astro 40 (-29))).map (fun m => (m.year, m.month)) =
      some (2023, -2) := by
  decide +kernel

/-- **C42** steps add up: both ways give the same month (year, number, first day, day count) -/
theorem C42_next_add (H : Almanac A lo hi) (k a b : ℤ) (m m1 m2 m3 : LunarMonth) (hm : (m.year, m.month) = H.key k)
    (h1 : lo ≤ m.year) (h2 : m.year ≤ hi) (a1 : H.start lo ≤ k + a) (a2 : k + a < H.start hi + 14)
    (y1 : lo ≤ m1.year) (y2 : m1.year ≤ hi)
    (b1 : H.start lo ≤ k + a + b) (b2 : k + a + b < H.start hi + 14)
    (fuel : ℕ) (hf : a.natAbs + b.natAbs + 2 ≤ fuel)
    (e1 : m.next A fuel a = some m1) (e2 : m1.next A fuel b = some m2) (e3 : m.next A fuel (a + b) = some m3) :
    (m2.year, m2.month, m2.firstJulianDay, m2.dayCount) = (m3.year, m3.month, m3.firstJulianDay, m3.dayCount) := by
  obtain ⟨p1, q1, r1, -⟩ := C42_next H k a m hm h1 h2 a1 a2 fuel (by omega)
  rw [e1] at q1
  cases q1
  obtain ⟨p2, q2, r2, s2, t2⟩ := C42_next H (k + a) b m1 r1 y1 y2 b1 b2 fuel (by omega)
  rw [e2] at q2
  cases q2
  obtain ⟨p3, q3, r3, s3, t3⟩ := C42_next H k (a + b) m hm h1 h2 (by omega) (by omega) fuel (by omega)
  rw [e3] at q3
  cases q3
  rw [← add_assoc] at r3 s3 t3
  have e := r2.trans r3.symm
  rw [show m2.year = m3.year from congrArg Prod.fst e, show m2.month = m3.month from congrArg Prod.snd e, s2, s3, t2, t3]

/-- twenty months on and nine back is eleven months on, over the leap month of 2023 -/
example : ∃ m m1 m2, (make Sample.astro 2023).getMonth 2 = some m ∧ m.next Sample.astro 40 20 = some m1 ∧
    m1.next Sample.astro 40 (-9) = some m2 ∧ m.next Sample.astro 40 11 = some m2 ∧ (m2.year, m2.month) = (2023, 12) := by
  have h : ((make Sample.astro 2023).getMonth 2).isSome ∧
      (((make Sample.astro 2023).getMonth 2).bind (fun m => m.next Sample.astro 40 20)).isSome ∧
      ((((make Sample.astro 2023).getMonth 2).bind (fun m => m.next Sample.astro 40 20)).bind
        (fun m => m.next Sample.astro 40 (-9))) = ((make Sample.astro 2023).getMonth 2).bind (fun m => m.next Sample.astro 40 11) ∧
      (((make Sample.astro 2023).getMonth 2).bind (fun m => m.next Sample.astro 40 11)).map (fun m => (m.year, m.month)) =
        some (2023, 12) := by decide +kernel
  obtain ⟨h1, h2, h3, h4⟩ := h
  obtain ⟨m, e⟩ := Option.isSome_iff_exists.mp h1
  rw [e] at h2 h3 h4
  obtain ⟨m1, e1⟩ := Option.isSome_iff_exists.mp h2
  rw [e1] at h3
  obtain ⟨m2, e2, e4⟩ := Option.map_eq_some_iff.mp h4
  exact ⟨m, m1, m2, e, e1, h3.trans e2, e2, e4⟩

end
