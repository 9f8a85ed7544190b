import Verif.Proof.Ephem.MonthPillar
import Verif.Props.Everyday
import Verif.Props.Positions

/-! # C97: lunar months and month pillars

The months of the pillars run from one Jie (立春, 惊蛰, ...) to the next, the lunar months from new moon to new moon.  Lunar month
`m` of year `Y` would have the pillar number `12 (Y - 4) + 1 + m`. -/

section
open Spec LunarYear ShouXing Lunar

variable {M : Libm}

/-- **C97** the month pillar of a date, by days and by instants, is that of its lunar month or of the month before or after; in
a leap month not of the month before, on the first day of a month not of the month after -/
theorem C97_month (hM : M.Good) (s : Solar) (hs : s.Valid) (h1 : 1587 ≤ s.year) (h2 : s.year ≤ 4998) (l : Lunar)
    (hl : Lunar.fromSolar (astro M) s = .ok l) :
    ∀ g ∈ [l.getMonthInGanZhi, l.getMonthInGanZhiExact], ∃ p, g = .ok (ganZhi p) ∧
      |p - (12 * (l.year - 4) + 1 + |l.month|)| ≤ 1 ∧
      (l.month < 0 → 12 * (l.year - 4) + 1 + |l.month| ≤ p) ∧
      (l.day = 1 → p ≤ 12 * (l.year - 4) + 1 + |l.month|) := by
  obtain ⟨-, Pr, hm, -, -⟩ := Ephem.made hM hs (by omega) (by omega) hl
  obtain ⟨l', e, f1, -, -, -, k, f4, f5, f6, f7⟩ := C38_round_trip (Ephem.almanac (Ephem.full hM)) s hs (by omega) (by omega)
  rw [hl] at e
  cases e
  have ny := Pr.near
  rw [f1] at ny
  rw [isDay_iff hs.1] at f7
  change _ = Ephem.key (Ephem.full hM).toFacts k at f4
  change _ ≤ Ephem.first (Ephem.full hM).toFacts (k + 1) - Ephem.first (Ephem.full hM).toFacts k at f6
  change Ephem.first (Ephem.full hM).toFacts k + _ - 1 = _ at f7
  obtain ⟨j1, j2, j3, j4⟩ := Ephem.jie_around hM f4.symm (by omega) (by omega) hm (d := JD.jdn s.date) (by omega) (by omega)
  have fin : ∀ p : ℤ, 24 * (1584 - 2000) + 17 ≤ 2 * p - 47887 → 2 * p - 47885 ≤ 24 * (6890 - 2000) + 47 →
      JD.jdn (Ephem.moment (Ephem.full hM) (2 * p - 47887)).date ≤ JD.jdn s.date → JD.jdn s.date ≤ JD.jdn (Ephem.moment (Ephem.full hM) (2 * p - 47885)).date →
      |p - (12 * (l.year - 4) + 1 + |l.month|)| ≤ 1 ∧ (l.month < 0 → 12 * (l.year - 4) + 1 + |l.month| ≤ p) ∧
      (l.day = 1 → p ≤ 12 * (l.year - 4) + 1 + |l.month|) := by
    intro p p1 p2 p3 p4
    have up : ∀ n : ℤ, 24 * (1584 - 2000) + 17 ≤ n → n ≤ 24 * (6890 - 2000) + 47 → JD.jdn s.date < JD.jdn (Ephem.moment (Ephem.full hM) n).date → 2 * p - 47887 < n := by
      intro n n1 n2 h
      by_contra c
      rcases (not_lt.1 c).eq_or_lt with e | e
      · rw [← e] at p3; omega
      · have := Ephem.moment_lt hM n1 e (by omega); omega
    have dn : ∀ n : ℤ, 24 * (1584 - 2000) + 17 ≤ n → n ≤ 24 * (6890 - 2000) + 47 → JD.jdn (Ephem.moment (Ephem.full hM) n).date < JD.jdn s.date → n < 2 * p - 47885 := by
      intro n n1 n2 h
      by_contra c
      rcases (not_lt.1 c).eq_or_lt with e | e
      · rw [e] at p4; omega
      · have := Ephem.moment_lt hM (by omega) e n2; omega
    have u3 := up _ (by omega) (by omega) j2
    have d3 := dn _ (by omega) (by omega) j1
    refine ⟨by rw [abs_le]; omega, fun h => ?_, fun h => ?_⟩
    · have := dn _ (by omega) (by omega) (j3 h); omega
    · have := up _ (by omega) (by omega) (j4 (by omega)); omega
  obtain ⟨⟨p, a1, a2, a3, a4, a5⟩, ⟨q, b1, b2, b3, b4, b5⟩⟩ := Ephem.pillar_between hM hs (by omega) (by omega) hl
  intro g hg
  simp only [List.mem_cons, List.not_mem_nil, or_false] at hg
  rcases hg with rfl | rfl
  · exact ⟨p, a1, fin p a2 a3 a4 a5.le⟩
  · exact ⟨q, b1, fin q b2 b3 b4 b5⟩

/-- a day of 2026: one of three pillars -/
example : ∃ l p, Lunar.fromSolar (astro Libm.cut) ⟨2026, 7, 25, 8, 0, 0⟩ = .ok l ∧ l.getMonthInGanZhi = .ok (ganZhi p) ∧
    |p - (12 * (l.year - 4) + 1 + |l.month|)| ≤ 1 := by
  obtain ⟨l, e, -⟩ := C84_round_trip Libm.cut_good ⟨2026, 7, 25, 8, 0, 0⟩ (by decide) (by decide) (by decide)
  obtain ⟨p, a, b, -⟩ := C97_month Libm.cut_good _ (by decide) (by decide) (by decide) l e _ (List.mem_cons_self ..)
  exact ⟨l, p, e, a, b⟩

private theorem gan_place (n : ℤ) : pyIndex LunarUtil.POSITION_GAN (n % 10) = .ok [stemPlace n] := by
  have := Cycle.mod (P := fun k => pyIndex LunarUtil.POSITION_GAN k = .ok [stemPlace k]) 10 (by decide) (by decide +kernel) n
  rw [this]
  unfold stemPlace
  rw [show n % 10 % 10 = n % 10 by omega]

/-- **C97** the great year god of every lunar month, also of the second, sixth and tenth, for which the library looks at the pillar
of the first day -/
theorem C97_place (hM : M.Good) (y mo : ℤ) (h1 : 1588 ≤ y) (h2 : y ≤ 4997) (m : LunarMonth) (h : LunarMonth.fromYm (astro M) y mo = some m) :
    StandsAt (m.getPositionTaiSui (astro M)) (m.getPositionTaiSuiDesc (astro M)) (taiSuiMonth (12 * (y - 4) + 1 + |mo|)) := by
  by_cases c : |m.month| % 4 = 2
  swap
  · obtain ⟨-, -, my, mm, -⟩ := month_key hM (by omega) (by omega) h
    have := C96_month_place (astro M) m c
    rwa [my, mm] at this
  obtain ⟨i, hi, my, mm, mk, mf, mc⟩ := month_key hM (by omega) (by omega) h
  generalize hk : (Ephem.almanac (Ephem.full hM)).start y + (i : ℤ) = k at *
  -- the first day
  have lt := (Ephem.almanac (Ephem.full hM)).first_lt k
  have n0 : 0 ≤ m.firstJulianDay := by
    rw [mf]
    refine ((Ephem.almanac (Ephem.full hM)).nonneg y (by omega) (by omega)).trans ?_
    rw [← hk]
    exact (Ephem.almanac (Ephem.full hM)).mono.monotone (by omega)
  obtain ⟨x, hx, e⟩ := JD.exists_date _ n0
  have hd : IsDay m.firstJulianDay x := (isDay_iff hx).2 e.symm
  have hd' := hd
  rw [mf] at hd'
  have hy : ((Ephem.almanac (Ephem.full hM)).key k).1 = y := by rw [← mk, my]
  have near := (Ephem.almanac (Ephem.full hM)).near' k (by rw [hy]; omega) (by rw [hy]; omega) x _ hx hd' le_rfl lt
  rw [hy] at near
  have hs : (⟨x.y, x.m, x.d, 12, 0, 0⟩ : Solar).Valid := ⟨hx, by show ClockOk 12 0 0; decide⟩
  have ej := fromJulianDay_int hx hd n0 (by omega)
  obtain ⟨l, el, f1, -, -, -, k', f4, f5, f6, f7⟩ := C38_round_trip (Ephem.almanac (Ephem.full hM)) _ hs (by simp only; omega) (by simp only; omega)
  have hk' : k' = k := by
    rw [isDay_iff hx] at hd'
    have f7' := (isDay_iff hs.1).1 f7
    change _ = JD.jdn x at f7'
    exact (Ephem.almanac (Ephem.full hM)).month_unique (n := JD.jdn x) (by omega) (by omega) (by omega) (by omega)
  subst hk'
  have f7' := (isDay_iff hs.1).1 f7
  change _ = JD.jdn x at f7'
  have d1 : l.day = 1 := by omega
  rw [← mk, Prod.mk.injEq, my, mm] at f4
  obtain ⟨-, Pr, -, -, -⟩ := Ephem.made hM hs (by simp only; omega) (by simp only; omega) el
  obtain ⟨p, q1, q2, -, q4⟩ := C97_month hM _ hs (by simp only; omega) (by simp only; omega) l el _ (List.mem_cons_self ..)
  have q4 := q4 d1
  rw [f4.1, f4.2] at q2 q4
  rw [mm] at c
  have pl : m.getPositionTaiSui (astro M) = .ok [taiSuiMonth (12 * (y - 4) + 1 + |mo|)] := by
    unfold LunarMonth.getPositionTaiSui
    simp only [mm, c]
    norm_num
    rw [ej]
    simp only [bind, Except.bind]
    rw [el]
    simp only
    rw [(Pr.month q1).1, gan_place]
    unfold taiSuiMonth
    rw [if_neg (by omega), if_neg (by omega), if_neg (by omega)]
    rw [abs_le] at q2
    unfold stemPlace
    rw [show p % 10 / 2 = (12 * (y - 4) + 1 + |mo|) % 10 / 2 by omega]
  refine standsAt pl rfl ?_
  unfold taiSuiMonth stemPlace
  rw [if_neg (by omega), if_neg (by omega), if_neg (by omega)]
  exact five_mem (by omega)

/-- the second month of 2026, 辛卯 -/
example : ∃ m, LunarMonth.fromYm (astro Libm.cut) 2026 2 = some m ∧ m.getPositionTaiSui (astro Libm.cut) = .ok ['兑'] := by
  obtain ⟨m, e⟩ : ∃ m, LunarMonth.fromYm (astro Libm.cut) 2026 2 = some m := by
    obtain ⟨k, hk⟩ := Ephem.has_month Libm.cut_good (Y := 2026) (m := 2) (by norm_num) (by norm_num) (by norm_num) (by norm_num)
    obtain ⟨m, e, -⟩ := (Ephem.almanac (Ephem.full Libm.cut_good)).getMonth_some (k := k) (by change 1584 ≤ (Ephem.key _ k).1; rw [hk]; norm_num)
      (by change (Ephem.key _ k).1 ≤ 6890; rw [hk]; norm_num)
    change LunarMonth.fromYm _ (Ephem.key _ k).1 (Ephem.key _ k).2 = _ at e
    rw [hk] at e
    exact ⟨m, e⟩
  exact ⟨m, e, (C97_place Libm.cut_good 2026 2 (by norm_num) (by norm_num) m e).1⟩

end
