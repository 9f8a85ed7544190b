import Verif.Proof.Ephem.Made
import Verif.Props.Library
import Verif.Props.LunarTime

/-! # C79 in the calendar of the library itself -/

section
open Spec ShouXing

variable {M : Libm}

/-- **C79** `getTimes` of the lunar date of any existing moment: thirteen double-hours of its day, whose pillars go on by one from the first hour of the day pillar;
every minute of the day is in exactly one of them.  Nothing is supposed about the sky -/
theorem C79_times_library (hM : M.Good) (s : Solar) (hs : s.Valid) (h1 : 1585 < s.year) (h2 : s.year < 6889) (l : Lunar)
    (hl : Lunar.fromSolar (astro M) s = .ok l) (n : ℤ) (hn : l.getDayInGanZhi = .ok (ganZhi n)) :
    ∃ ts, l.getTimes (astro M) = .ok ts ∧ ts.length = 13 ∧
      (∀ i : ℕ, i < 13 → ∃ t, ts[i]? = some t ∧ t.getGanZhi = .ok (ganZhi (12 * n + i)) ∧
        (t.lunar.year, t.lunar.month, t.lunar.day) = (l.year, l.month, l.day)) ∧
      ∀ h' mi', 0 ≤ h' ∧ h' ≤ 23 ∧ 0 ≤ mi' ∧ mi' ≤ 59 → ∃ i, i < 13 ∧ ∀ j t, ts[j]? = some t →
        ((strLe t.getMinHm (fmtD 2 h' ++ [':'] ++ fmtD 2 mi') = true ∧ strLe (fmtD 2 h' ++ [':'] ++ fmtD 2 mi') t.getMaxHm = true) ↔ j = i) := by
  obtain ⟨H, -⟩ := C84_almanac hM
  obtain ⟨l', e, -, -, ny, k⟩ := C84_round_trip hM s hs (by omega) h2
  rw [hl] at e
  cases e
  exact C79_times H l.year l.month l.day l.hour l.minute l.second l (by omega) (by omega)
    ((k l.year l.month l.day l.hour l.minute l.second l (by omega) (by omega)).2 ⟨rfl, rfl⟩).1 n hn

/-- the double-hours of 1 July 2028 -/
example : ∃ l ts, Lunar.fromSolar (astro Libm.cut) ⟨2028, 7, 1, 12, 0, 0⟩ = .ok l ∧ l.getTimes (astro Libm.cut) = .ok ts ∧ ts.length = 13 := by
  obtain ⟨l, e, f, -⟩ := C84_round_trip Libm.cut_good ⟨2028, 7, 1, 12, 0, 0⟩ (by decide) (by decide) (by decide)
  obtain ⟨-, P, -⟩ := Ephem.made Libm.cut_good (by decide) (by decide) (by decide) e
  have d := C31_day_pillar l P.made (by rw [f]; decide) (by rw [f]; decide) (Cal.dn ⟨2028, 7, 1⟩ - Cal.dn ⟨2000, 1, 1⟩)
    (by rw [f]; exact (Cal.daysAfter_iff (by decide) (by decide) _).2 rfl)
  obtain ⟨ts, a, b, -⟩ := C79_times_library Libm.cut_good _ (by decide) (by decide) (by decide) l e _ d
  exact ⟨l, ts, e, a, b⟩

end
