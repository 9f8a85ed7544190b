import Verif.Proof.BaZi
import Verif.Proof.JieQi
import Verif.Proof.Keys
import Verif.Proof.LunarDay
import Verif.Proof.SampleSun
import Verif.Props.LunarDate
import Verif.Props.LunarYear
import Verif.Spec.LunarFestivals

/-! # C78: festivals of the lunar calendar

`H : Almanac A lo hi` says that the month lists of the years `lo .. hi` are cut from one sequence of
months (`Verif/Spec/Almanac.lean`). -/

section
open Spec LunarUtil LunarYear

attribute [local irreducible] make

variable {A : Astro} {lo hi : ℤ}

private theorem fixed (m d : ℤ) : (pyDictGet FESTIVAL (Lunar.md m d)).toList = (lunarFestival m d).toList := by
  have hg : Keys.Good FESTIVAL := by decide +kernel
  have e : FESTIVAL.map (fun p => (Keys.parse p.1, p.2)) = lunarFestivals := by decide +kernel
  rw [Keys.dict_md hg]
  unfold lunarFestival
  rw [← e, List.find?_map, Option.map_map]
  rfl

private theorem other (m d : ℤ) : (pyDictGet OTHER_FESTIVAL (Lunar.md m d)).getD [] = otherFestival m d := by
  have hg : Keys.Good OTHER_FESTIVAL := by decide +kernel
  have e : OTHER_FESTIVAL.map (fun p => (Keys.parse p.1, p.2)) = otherFestivals := by decide +kernel
  rw [Keys.dict_md hg]
  unfold otherFestival
  rw [← e, List.find?_map, Option.map_map]
  rfl

/-- neighbouring months in one list follow each other -/
private theorem follows (H : Almanac A lo hi) {k : ℤ} (h1 : lo ≤ (H.key (k + 1)).1) (h2 : (H.key (k + 1)).1 ≤ hi)
    (hp : Plain A (H.key (k + 1)).1) : LunarCal.Follows (H.key k) (H.key (k + 1)) := by
  obtain ⟨hd, ch, -⟩ := C37_numbering A _ hp
  obtain ⟨a, b⟩ := H.home (k + 1) h1 h2
  have w := H.window _ h1 h2
  have hk : k + 1 ≠ H.start (H.key (k + 1)).1 := by
    intro e
    obtain ⟨m, hm, hkey, -⟩ := w 0 (by omega)
    rw [List.head?_eq_getElem?, hm] at hd
    simp only [Option.map_some, Option.some.injEq] at hd
    rw [hkey] at hd
    simp only [Nat.cast_zero, add_zero] at hd
    rw [← e] at hd
    have := congrArg Prod.fst hd
    simp only at this
    omega
  generalize hY : (H.key (k + 1)).1 = Y at *
  obtain ⟨m1, e1, q1, -⟩ := w (k - H.start Y).toNat (by omega)
  obtain ⟨m2, e2, q2, -⟩ := w ((k - H.start Y).toNat + 1) (by omega)
  rw [show H.start Y + ((k - H.start Y).toNat : ℤ) = k by omega] at q1
  rw [show H.start Y + (((k - H.start Y).toNat + 1 : ℕ) : ℤ) = k + 1 by push_cast; omega] at q2
  rw [List.isChain_iff_getElem] at ch
  obtain ⟨l2, g2⟩ := List.getElem?_eq_some_iff.1 e2
  obtain ⟨l1, g1⟩ := List.getElem?_eq_some_iff.1 e1
  have := ch (k - H.start Y).toNat (by rw [List.length_map]; exact l2)
  rw [List.getElem_map, List.getElem_map, g1, g2, q1, q2] at this
  exact this

/-- **C78** `getFestivals`: the festival of the day of the month, if any (none in leap months), and New Year's Eve exactly
on the last day of the lunar year, whether the year ends with month 12 or with a leap month 12, of 29 or 30 days.  `l'` is
the lunar date of the day after. -/
theorem C78_festivals (H : Almanac A lo hi) (s t : Solar) (l l' : Lunar) (hs : s.Valid) (hst : s.next 1 = .ok t)
    (s1 : lo < s.year) (s2 : s.year < hi) (t2 : t.year < hi) (hl : Lunar.fromSolar A s = .ok l) (hl' : Lunar.fromSolar A t = .ok l')
    (hp : Plain A l'.year) (hm : ∀ k, (l.year, l.month) = H.key k → 29 ≤ H.first (k + 1) - H.first k) :
    l.getFestivals A = .ok ((lunarFestival l.month l.day).toList ++ if l'.year ≠ l.year then [['除', '夕']] else []) := by
  obtain ⟨t', g1, ht, gc, gd⟩ := Cal.nextDay_spec hs 1
  rw [hst] at g1
  cases g1
  have c1 : (s.hour, s.minute, s.second) = (t.hour, t.minute, t.second) := by rw [gc.1, gc.2.1, gc.2.2]
  have t1 : lo < t.year := by
    have : s.date.y ≤ t.date.y := year_mono hs.1 ht.1 (by rw [JD.jdn_eq hs.1, JD.jdn_eq ht.1, gd]; omega)
    have : s.year ≤ t.year := this
    omega
  obtain ⟨l1, e1, f1, -⟩ := C41_next H s t l 1 hs ht ((Cal.daysAfter_iff hs.1 ht.1 1).mpr gd) c1 s1 s2 t1 t2 hl
  rw [hl'] at f1
  cases f1
  obtain ⟨k, hk, hc⟩ := C41_tomorrow H s t l l' hs hst s1 s2 t1 t2 hl e1
  obtain ⟨m, em, -, -, -, -, j, j1, -, -, j4⟩ := C38_round_trip H t ht t1 t2
  rw [hl'] at em
  cases em
  unfold Lunar.getFestivals
  rw [fixed, e1]
  simp only [bind, Except.bind]
  by_cases c : l'.year = l.year
  · rw [if_neg (show ¬ l'.year ≠ l.year by simpa using c), List.append_nil]
    rw [if_neg (show ¬ l.year ≠ l'.year by simpa using c.symm)]
    split <;> rfl
  · rw [if_pos c]
    have : |l.month| = 12 ∧ l.day ≥ 29 := by
      rcases hc with ⟨e, -⟩ | ⟨e, -, d⟩
      · exact absurd (congrArg Prod.fst e) c
      · have ey : (H.key (k + 1)).1 = l'.year := by rw [← e]
        have hn : IsDay (JD.jdn t.date) t.date := (isDay_iff ht.1).mpr rfl
        have b : t.year - 1 ≤ l'.year ∧ l'.year ≤ t.year + 1 := by
          obtain ⟨c1, c2⟩ := H.covers _ t1.le t2.le t.date _ ht.1 rfl hn
          obtain ⟨i, hi', g1, g2⟩ := H.month_of_day c1 c2
          have n := H.near _ t1.le t2.le i hi'
          obtain ⟨m, em, -, -, -, -, j, j1, j2, j3, j4⟩ := C38_round_trip H t ht t1 t2
          rw [hl'] at em
          cases em
          rw [isDay_iff ht.1] at j4
          have : j = H.start t.year + i := H.month_unique (n := JD.jdn t.date) (by omega) (by omega) g1 g2
          rw [← this, ← j1] at n
          exact n
        have F := follows H (k := k) (by rw [ey]; omega) (by rw [ey]; omega) (by rw [ey]; exact hp)
        rw [← hk, ← e] at F
        refine ⟨?_, by have := hm k hk; omega⟩
        unfold LunarCal.Follows at F
        simp only [Prod.mk.injEq] at F
        rcases F with ⟨-, h, -⟩ | ⟨-, h, -⟩ | ⟨h, -⟩
        · exact absurd h c
        · exact absurd h c
        · exact h
    rw [if_pos this, if_pos (fun e => c e.symm)]
    rfl

private theorem wu_iff (n : ℤ) : IsWu n ↔ (n - 11) % 10 = 4 := by
  unfold IsWu stem
  have h : 0 ≤ (n - 11) % 10 ∧ (n - 11) % 10 < 10 := by omega
  generalize (n - 11) % 10 = m at h ⊢
  have key : ∀ m : Fin 10, (stems.getD (((m : ℕ) : ℤ)).toNat '?' = '戊') ↔ ((m : ℕ) : ℤ) = 4 := by decide
  have := key ⟨m.toNat, by omega⟩
  simpa only [show ((m.toNat : ℕ) : ℤ) = m by omega] using this

/-- the day found by `sheDay` -/
private theorem sheDay_spec (H : Almanac A lo hi) {q : Solar} (hq : q.Valid) (q1 : lo < q.year) (q2 : q.year < hi) :
    ∃ t, Lunar.sheDay A q = .ok t ∧ t.Valid ∧ ∀ x : Date, x.Valid → (x = t.date ↔ FifthWu (JD.jdn q.date) (JD.jdn x)) := by
  obtain ⟨l, e, sx, mx, -⟩ := C38_round_trip H q hq q1 q2
  have r := H.year_range (Y := q.year) q1.le q2.le
  have hx : l.dayGanIndex = (JD.jdn q.date - 11) % 10 := by
    have := (Lunar.made_fields mx (by rw [sx]; omega) (by rw [sx]; omega)).2.2.1.1
    rw [this, sx]
  unfold Lunar.sheDay
  rw [e]
  simp only [bind, Except.bind]
  obtain ⟨t, g1, ht, -, gd⟩ := Cal.nextDay_spec hq ((if 4 - l.dayGanIndex < 0 then 4 - l.dayGanIndex + 10 else 4 - l.dayGanIndex) + 40)
  refine ⟨t, g1, ht, fun x hx' => ?_⟩
  unfold FifthWu
  rw [wu_iff]
  have a1 := JD.jdn_eq hx'
  have a2 := JD.jdn_eq ht.1
  have a3 := JD.jdn_eq hq.1
  rw [hx] at gd
  constructor
  · rintro rfl
    rw [a2, gd]
    rw [a3] at *
    split_ifs <;> omega
  · intro h
    refine Cal.dayNo_inj hx' ht.1 ?_
    rw [gd]
    rw [a1, a3] at *
    split_ifs <;> omega

/-- **C78** `getOtherFestivals`: the names of the day of the month (none in leap months), 寒食节 on the day before Qing Ming,
春社 and 秋社 on the fifth 戊 day from Li Chun and from Li Qiu on.  `n`, `q`, `a`, `b` are the Julian day numbers of the day,
of Qing Ming, Li Chun and Li Qiu. -/
theorem C78_other_festivals (H : Almanac A lo hi) (s : Solar) (l : Lunar) (hs : s.Valid) (s1 : lo < s.year) (s2 : s.year < hi)
    (hl : Lunar.fromSolar A s = .ok l) (lc qm lq : Solar) (h4 : l.jieQi[4]? = some lc) (h8 : l.jieQi[8]? = some qm)
    (h16 : l.jieQi[16]? = some lq) (y2 : lq.year < hi) (n q a b : ℤ) (hn : IsDay n s.date) (hq : IsDay q qm.date)
    (ha : IsDay a lc.date) (hb : IsDay b lq.date) :
    l.getOtherFestivals A = .ok (otherFestival l.month l.day ++ (if n + 1 = q then [['寒', '食', '节']] else []) ++
      (if FifthWu a n then [['春', '社']] else []) ++ (if FifthWu b n then [['秋', '社']] else [])) := by
  obtain ⟨l0, e0, q0, -, T, -⟩ := C38_round_trip H s hs s1 s2
  rw [hl] at e0
  cases e0
  have vc := T.valid _ (List.mem_of_getElem? h4)
  have vm := T.valid _ (List.mem_of_getElem? h8)
  have vq := T.valid _ (List.mem_of_getElem? h16)
  have yc := T.liChun lc h4
  have r := H.year_range (Y := s.year) s1.le s2.le
  have rh := H.year_range (Y := hi) (by omega) le_rfl
  have rl := H.year_range (Y := lo) le_rfl (by omega)
  have later : ∀ {i : ℕ} {x : Solar}, 4 < i → l.jieQi[i]? = some x → x.Valid → s.year ≤ x.year := by
    intro i x hi hx vx
    have hb : Solar.Before lc x := by
      obtain ⟨l4, g4⟩ := List.getElem?_eq_some_iff.1 h4
      obtain ⟨lx, gx⟩ := List.getElem?_eq_some_iff.1 hx
      have := List.pairwise_iff_getElem.1 T.chron 4 i l4 lx hi
      rwa [g4, gx] at this
    have hb := (Solar.before_iff vc vx).1 hb
    have := BaZi.secNo_year vc vx hb.le
    omega
  have qy := later (by decide) h16 vq
  have my := later (by decide) h8 vm
  have mf := T.four _ (List.mem_of_getElem? h8)
  rw [isDay_iff hs.1] at hn
  rw [isDay_iff vm.1] at hq
  rw [isDay_iff vc.1] at ha
  rw [isDay_iff vq.1] at hb
  subst hn hq ha hb
  have t4 : Lunar.term l.jieQi ['立', '春'] = .ok lc := Lunar.term_key T.len (by decide) h4
  have t8 : Lunar.term l.jieQi ['清', '明'] = .ok qm := Lunar.term_key T.len (by decide) h8
  have t16 : Lunar.term l.jieQi ['立', '秋'] = .ok lq := Lunar.term_key T.len (by decide) h16
  obtain ⟨c, ec, vc', ic⟩ := sheDay_spec H vc (by omega) (by omega)
  obtain ⟨u, eu, vu', iu⟩ := sheDay_spec H vq (by omega) y2
  obtain ⟨p, ep, vp, -, dp⟩ := Cal.nextDay_spec vm (-1)
  have fs : Str.Four s := by unfold Str.Four; omega
  have fp : Str.Four p := by
    unfold Str.Four
    have a1 : p.date.y ≤ qm.date.y := year_mono vp.1 vm.1 (by rw [JD.jdn_eq vp.1, JD.jdn_eq vm.1, dp]; omega)
    have a2 : qm.date.y - 1 ≤ p.date.y := by have := BaZi.year_near vp.1 vm.1 (by omega); omega
    simp only [Solar.date] at a1 a2
    omega
  have ff : ∀ {x t : Solar}, x.Valid → t.Valid → s.year ≤ x.year → x.year < hi →
      (∀ d : Date, d.Valid → (d = t.date ↔ FifthWu (JD.jdn x.date) (JD.jdn d))) → Str.Four t := by
    intro x t vx vt x1 x2 it
    have h := ((it t.date vt.1).1 rfl).2
    rw [JD.jdn_eq vt.1, JD.jdn_eq vx.1] at h
    unfold Str.Four
    have a1 : x.date.y ≤ t.date.y := year_mono vx.1 vt.1 (by rw [JD.jdn_eq vt.1, JD.jdn_eq vx.1]; omega)
    have a2 : t.date.y ≤ x.date.y + 1 := BaZi.year_near vx.1 vt.1 (by omega)
    simp only [Solar.date] at a1 a2
    omega
  have fc := ff vc vc' (by omega) (by omega) ic
  have fu := ff vq vu' qy y2 iu
  have kp : s.toYmd = p.toYmd ↔ JD.jdn s.date + 1 = JD.jdn qm.date := by
    rw [(Str.toYmd_cmp hs vp fs fp).2.2, JD.jdn_eq hs.1, JD.jdn_eq vm.1]
    constructor
    · intro e; rw [e]; omega
    · intro e; exact Cal.dayNo_inj hs.1 vp.1 (by omega)
  have kc : s.toYmd = c.toYmd ↔ FifthWu (JD.jdn lc.date) (JD.jdn s.date) := by
    rw [(Str.toYmd_cmp hs vc' fs fc).2.2]; exact ic _ hs.1
  have ku : s.toYmd = u.toYmd ↔ FifthWu (JD.jdn lq.date) (JD.jdn s.date) := by
    rw [(Str.toYmd_cmp hs vu' fs fu).2.2]; exact iu _ hs.1
  unfold Lunar.getOtherFestivals
  rw [q0, t4, t8, t16, other]
  simp only [bind, Except.bind]
  rw [ep]
  dsimp only
  rw [ec, eu]
  dsimp only
  simp only [kp, kc, ku]
  show Except.ok _ = Except.ok _
  split_ifs <;> simp

/-- a lunar date of the sample almanac -/
private theorem sample_date {s : Solar} (hs : s.Valid) (h1 : 2022 < s.year) (h2 : s.year < 2025) {k : ℤ}
    (h3 : Sample.almanac.first k ≤ JD.jdn s.date) (h4 : JD.jdn s.date < Sample.almanac.first (k + 1)) :
    ∃ l, Lunar.fromSolar Sample.astro s = .ok l ∧ (l.year, l.month) = Sample.almanac.key k ∧
      l.day = JD.jdn s.date - Sample.almanac.first k + 1 ∧ l.jieQi = Sample.table s.year := by
  obtain ⟨l, e, -, -, -, -, j, j1, j2, j3, j4⟩ := C38_round_trip Sample.almanac s hs h1 h2
  obtain ⟨l', e', t⟩ := Sample.almanac.fromSolar_table hs h1 h2
  rw [e] at e'
  cases e'
  rw [isDay_iff hs.1] at j4
  obtain rfl : j = k := Sample.almanac.month_unique (n := JD.jdn s.date) (by omega) (by omega) h3 h4
  refine ⟨l, e, j1, by omega, ?_⟩
  exact Sample.table_eq (by omega) (by omega) t

/-- 2024-02-09, the 30th of month 12 of 2023, is New Year's Eve; the day after is New Year's day -/
example : ∃ l l', Lunar.fromSolar Sample.astro ⟨2024, 2, 9, 23, 30, 0⟩ = .ok l ∧ Lunar.fromSolar Sample.astro ⟨2024, 2, 10, 23, 30, 0⟩ = .ok l' ∧
    l.getFestivals Sample.astro = .ok [['除', '夕']] ∧ l'.getFestivals Sample.astro = .ok [['春', '节']] := by
  have p24 : Plain Sample.astro 2024 := by unfold Plain; decide +kernel
  have j1 : JD.jdn (⟨2024, 2, 9, 23, 30, 0⟩ : Solar).date = 2460350 := by decide
  have j2 : JD.jdn (⟨2024, 2, 10, 23, 30, 0⟩ : Solar).date = 2460351 := by decide
  have j3 : JD.jdn (⟨2024, 2, 11, 23, 30, 0⟩ : Solar).date = 2460352 := by decide
  have m1 : Sample.almanac.first 26 = 2460321 := by decide +kernel
  have m2 : Sample.almanac.first 27 = 2460351 := by decide +kernel
  have m3 : Sample.almanac.first 28 = 2460380 := by decide +kernel
  have k1 : Sample.almanac.key 26 = (2023, 12) := by decide +kernel
  have k2 : Sample.almanac.key 27 = (2024, 1) := by decide +kernel
  obtain ⟨l, e, y, d, -⟩ := sample_date (s := ⟨2024, 2, 9, 23, 30, 0⟩) (k := 26) (by decide) (by decide) (by decide)
    (by rw [m1, j1]; decide) (by show _ < Sample.almanac.first 27; rw [m2, j1]; decide)
  obtain ⟨l', e', y', d', -⟩ := sample_date (s := ⟨2024, 2, 10, 23, 30, 0⟩) (k := 27) (by decide) (by decide) (by decide)
    (by rw [m2, j2]) (by show _ < Sample.almanac.first 28; rw [m3, j2]; decide)
  obtain ⟨l2, e2, y2, d2, -⟩ := sample_date (s := ⟨2024, 2, 11, 23, 30, 0⟩) (k := 27) (by decide) (by decide) (by decide)
    (by rw [m2, j3]; decide) (by show _ < Sample.almanac.first 28; rw [m3, j3]; decide)
  rw [k1, Prod.mk.injEq] at y
  rw [k2, Prod.mk.injEq] at y' y2
  rw [j1, m1] at d
  rw [j2, m2] at d'
  refine ⟨l, l', e, e', ?_, ?_⟩
  · rw [C78_festivals Sample.almanac ⟨2024, 2, 9, 23, 30, 0⟩ ⟨2024, 2, 10, 23, 30, 0⟩ l l' (by decide)
      (Cal.next_eq (by decide) (by decide) 1 (by decide) (by decide)) (by decide) (by decide)
      (by decide) e e' (by rw [y'.1]; exact p24) (by
        intro k hk
        rw [y.1, y.2, ← k1] at hk
        obtain rfl := Sample.almanac.key_inj _ _ hk
        show 29 ≤ Sample.almanac.first 27 - _
        rw [m1, m2]; decide), y.1, y.2, y'.1, d]
    decide +kernel
  · rw [C78_festivals Sample.almanac ⟨2024, 2, 10, 23, 30, 0⟩ ⟨2024, 2, 11, 23, 30, 0⟩ l' l2 (by decide)
      (Cal.next_eq (by decide) (by decide) 1 (by decide) (by decide)) (by decide) (by decide)
      (by decide) e' e2 (by rw [y2.1]; exact p24) (by
        intro k hk
        rw [y'.1, y'.2, ← k2] at hk
        obtain rfl := Sample.almanac.key_inj _ _ hk
        show 29 ≤ Sample.almanac.first 28 - _
        rw [m2, m3]; decide), y'.1, y'.2, y2.1, d']
    decide +kernel

/-- 2024-03-15 is the fifth 戊 day from Li Chun (2024-02-04, a 戊 day) -/
example : ∃ l, Lunar.fromSolar Sample.astro ⟨2024, 3, 15, 12, 0, 0⟩ = .ok l ∧ l.getOtherFestivals Sample.astro = .ok [['春', '社']] := by
  have j1 : JD.jdn (⟨2024, 3, 15, 12, 0, 0⟩ : Solar).date = 2460385 := by decide
  have m1 : Sample.almanac.first 28 = 2460380 := by decide +kernel
  have m2 : Sample.almanac.first 29 = 2460410 := by decide +kernel
  have k1 : Sample.almanac.key 28 = (2024, 2) := by decide +kernel
  obtain ⟨l, e, y, d, t⟩ := sample_date (s := ⟨2024, 3, 15, 12, 0, 0⟩) (k := 28) (by decide) (by decide) (by decide)
    (by rw [m1, j1]; decide) (by show _ < Sample.almanac.first 29; rw [m2, j1]; decide)
  rw [k1, Prod.mk.injEq] at y
  rw [j1, m1] at d
  refine ⟨l, e, ?_⟩
  rw [C78_other_festivals Sample.almanac ⟨2024, 3, 15, 12, 0, 0⟩ l (by decide) (by decide) (by decide) e ⟨2024, 2, 4, 15, 30, 0⟩
    ⟨2024, 4, 4, 15, 30, 0⟩ ⟨2024, 8, 7, 15, 30, 0⟩ (by rw [t]; decide +kernel) (by rw [t]; decide +kernel) (by rw [t]; decide +kernel)
    (by decide) 2460385 2460405 2460345 2460530 ((isDay_iff (by decide)).2 (by decide)) ((isDay_iff (by decide)).2 (by decide))
    ((isDay_iff (by decide)).2 (by decide)) ((isDay_iff (by decide)).2 (by decide)), y.2, d]
  decide +kernel

end
