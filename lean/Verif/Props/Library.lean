import Verif.Proof.Ephem.Range
import Verif.Props.BaZi
import Verif.Props.Festivals

/-! # C84: the calendar of the library itself

In the properties of lunar dates the astronomical functions of `util/ShouXingUtil.py` are a parameter `A`, of which
`Almanac` and `SunAlmanac` are assumed.  Here they are the functions of the library, `ShouXing.astro M`, where `M` stands for
`math.sin` and `math.cos`; of these it is assumed only that they are within `2 ^ -50` of sine and cosine
(`Libm.Good`, `Verif/Spec/Libm.lean`; `Libm.cut_good` shows that there are such functions).  Everything else is proved:
the series are evaluated by the kernel with bounds for the rounding errors. -/

section
open Spec LunarYear ShouXing

variable {M : Libm}

/-- **C84** the lists of months and of solar terms of the years 1584 to 6890 agree with each other -/
theorem C84_almanac (hM : M.Good) : ∃ H : Almanac (astro M) 1584 6890, SunAlmanac H :=
  ⟨Ephem.almanac (Ephem.full hM), Ephem.sunAlmanac (Ephem.full hM)⟩

/-- **C84** from a solar to a lunar date and back: every existing moment has a lunar date, and this is the only lunar date
for which the constructor gives that moment -/
theorem C84_round_trip (hM : M.Good) (s : Solar) (hs : s.Valid) (h1 : 1584 < s.year) (h2 : s.year < 6889) :
    ∃ l, Lunar.fromSolar (astro M) s = .ok l ∧ l.solar = s ∧
      (l.hour, l.minute, l.second) = (s.hour, s.minute, s.second) ∧ (l.year = s.year ∨ l.year = s.year - 1) ∧
      ∀ y m d h mi se l', 1584 < y → y < 6890 → (Lunar.fromYmdHms (astro M) y m d h mi se = .ok l' ∧ l'.solar = s ↔
        (y, m, d, h, mi, se) = (l.year, l.month, l.day, l.hour, l.minute, l.second) ∧ l' = l) := by
  obtain ⟨H, S⟩ := C84_almanac hM
  obtain ⟨l, e, f1, -, -, f2, k, f3, f4, f5, f6⟩ := C38_round_trip H s hs h1 (by omega)
  have b := S.behind s.year (by omega) (by omega) k s.date _ hs.1 rfl f6 (by omega) (by omega)
  rw [← f3] at b
  refine ⟨l, e, f1, f2, b, ?_⟩
  intro y m d h mi se l' y1 y2
  constructor
  · rintro ⟨g1, g2⟩
    obtain ⟨g3, g4⟩ := C39_round_trip H y m d h mi se l' y1 y2 g1
    rw [g2, e] at g4
    cases g4
    exact ⟨g3.symm, rfl⟩
  · rintro ⟨g, rfl⟩
    obtain ⟨q, -⟩ := H.fromSolar_eq hs (by omega) (by omega) f6 (by omega) (by omega) (k := k)
    rw [← f3] at q
    simp only [Prod.mk.injEq] at g f2
    obtain ⟨rfl, rfl, rfl, rfl, rfl, rfl⟩ := g
    rw [e, show H.first k + l'.day - 1 - H.first k + 1 = l'.day by ring, ← f2.1, ← f2.2.1, ← f2.2.2] at q
    exact ⟨q.symm, f1⟩

/-- the hypotheses can be met: noon of the last day of a leap year far away, with sine and cosine cut off after 50 places -/
example : ∃ l, Lunar.fromSolar (astro Libm.cut) ⟨4816, 12, 31, 12, 0, 0⟩ = .ok l ∧ l.solar = ⟨4816, 12, 31, 12, 0, 0⟩ ∧
    (l.year = 4816 ∨ l.year = 4815) := by
  obtain ⟨l, e, f, -, h, -⟩ := C84_round_trip Libm.cut_good ⟨4816, 12, 31, 12, 0, 0⟩ (by decide) (by decide) (by decide)
  exact ⟨l, e, f, h⟩

/-- **C84** `next(n)` of a lunar date is the lunar date of the moment `n` days later -/
theorem C84_next (hM : M.Good) (s t : Solar) (l : Lunar) (n : ℤ) (hs : s.Valid) (ht : t.Valid)
    (hst : DaysAfter n s.date t.date) (hc : (s.hour, s.minute, s.second) = (t.hour, t.minute, t.second))
    (s1 : 1584 < s.year) (s2 : s.year < 6890) (t1 : 1584 < t.year) (t2 : t.year < 6890) (hl : Lunar.fromSolar (astro M) s = .ok l) :
    ∃ l', l.next (astro M) n = .ok l' ∧ Lunar.fromSolar (astro M) t = .ok l' ∧ l'.solar = t := by
  obtain ⟨H, -⟩ := C84_almanac hM
  exact C41_next H s t l n hs ht hst hc s1 s2 t1 t2 hl

/-- the day after 2024-02-09, in the calendar of the library -/
example : ∃ l l', Lunar.fromSolar (astro Libm.cut) ⟨2024, 2, 9, 8, 0, 0⟩ = .ok l ∧ l.next (astro Libm.cut) 1 = .ok l' ∧
    l'.solar = ⟨2024, 2, 10, 8, 0, 0⟩ := by
  obtain ⟨l, e, -⟩ := C84_round_trip Libm.cut_good ⟨2024, 2, 9, 8, 0, 0⟩ (by decide) (by decide) (by decide)
  obtain ⟨l', e1, -, e3⟩ := C84_next Libm.cut_good ⟨2024, 2, 9, 8, 0, 0⟩ ⟨2024, 2, 10, 8, 0, 0⟩ l 1 (by decide) (by decide)
    ((Cal.daysAfter_iff (by decide) (by decide) 1).mpr (by decide)) rfl (by decide) (by decide) (by decide) (by decide) e
  exact ⟨l, l', e, e1, e3⟩

/-- **C84** the search of moments by their pillars never fails for years of the range, and finds moments in order, each with
the pillars asked for -/
theorem C84_fromBaZi (hM : M.Good) (now : ℤ) (yg mg dg : PyStr) (g : Char) (n : ℤ) (sect base : ℤ) (h1 : 1586 ≤ base) (h2 : now ≤ 6888) :
    ∃ L, Solar.fromBaZi (astro M) now yg mg dg [g, branch n] sect base = .ok L ∧ L.Pairwise Solar.Before ∧
      ∀ s ∈ L, s.Valid ∧ base ≤ s.year ∧ ∃ l, Lunar.fromSolar (astro M) s = .ok l ∧ l.getYearInGanZhiExact = .ok yg ∧
        l.getMonthInGanZhiExact = .ok mg ∧ (if sect = 1 then l.getDayInGanZhiExact else l.getDayInGanZhiExact2) = .ok dg ∧
        l.getTimeInGanZhi = .ok [g, branch n] := by
  obtain ⟨H, S⟩ := C84_almanac hM
  obtain ⟨L, e, p, v⟩ := C52_ordered S now yg mg dg g n sect base (fun y a b _ => ⟨by omega, by omega⟩)
  exact ⟨L, e, p, fun s hs => ⟨(v s hs).1, (v s hs).2.1, C52_sound _ now yg mg dg _ sect base L e s hs⟩⟩

/-- asked in 2026 for the moments with the pillars 甲辰 丙寅 甲辰 甲子 since 1900 -/
example : ∃ L, Solar.fromBaZi (astro Libm.cut) 2026 "甲辰".toList "丙寅".toList "甲辰".toList ['甲', branch 0] 2 1900 = .ok L ∧
    L.Pairwise Solar.Before ∧ ∀ s ∈ L, s.Valid ∧ 1900 ≤ s.year := by
  obtain ⟨L, e, p, v⟩ := C84_fromBaZi Libm.cut_good 2026 "甲辰".toList "丙寅".toList "甲辰".toList '甲' 0 2 1900 (by decide) (by decide)
  exact ⟨L, e, p, fun s hs => ⟨(v s hs).1, (v s hs).2.1⟩⟩

end
