import Verif.Proof.Ephem.Summer
import Verif.Props.LunarTime

/-! # Lunar dates of the library's own calendar -/

namespace Ephem
open F64 LunarYear LunarCal Spec ShouXing

section
variable {A : Astro} {D N : ℤ → ℤ} {T : ℤ → ℚ} {lo hi : ℤ} (B : Full A D N T lo hi)
include B

/-- the day of a term is the day its moment lies in -/
theorem moment_near {n : ℤ} (h1 : 24 * (lo - 2000) + 17 ≤ n) (h2 : n ≤ 24 * (hi - 2000) + 47) :
    T n + 2451545 - 0.501 ≤ JD.jdn (moment B n).date ∧ (JD.jdn (moment B n).date : ℚ) ≤ T n + 2451545 + 0.501 := by
  obtain ⟨-, v, e⟩ := moment_spec B h1 h2
  have e' := abs_le.1 e
  obtain ⟨v1, v2⟩ := v
  have hc : 0 ≤ (moment B n).hour * 3600 + (moment B n).minute * 60 + (moment B n).second ∧
      (moment B n).hour * 3600 + (moment B n).minute * 60 + (moment B n).second ≤ 86399 := by
    unfold ClockOk at v2
    omega
  have hs : (Cal.secNo (moment B n) : ℚ) = 86400 * ((JD.jdn (moment B n).date : ℚ) - 1721057) +
      (((moment B n).hour * 3600 + (moment B n).minute * 60 + (moment B n).second : ℤ) : ℚ) := by
    rw [JD.jdn_eq v1]
    unfold Cal.secNo
    push_cast
    ring
  have c1 : (0 : ℚ) ≤ (((moment B n).hour * 3600 + (moment B n).minute * 60 + (moment B n).second : ℤ) : ℚ) := by exact_mod_cast hc.1
  have c2 : (((moment B n).hour * 3600 + (moment B n).minute * 60 + (moment B n).second : ℤ) : ℚ) ≤ 86399 := by exact_mod_cast hc.2
  rw [hs] at e'
  constructor <;> linarith [e'.1, e'.2]

/-- the name of a month has a number from 1 to 12 -/
theorem key_month {k : ℤ} (h1 : lo ≤ (key B.toFacts k).1) (h2 : (key B.toFacts k).1 ≤ hi) :
    1 ≤ |(key B.toFacts k).2| ∧ |(key B.toFacts k).2| ≤ 12 := by
  obtain ⟨a, b⟩ := home B.toFacts h1 h2
  generalize (key B.toFacts k).1 = Y at *
  obtain ⟨i, rfl⟩ : ∃ i : ℕ, k = start B.toFacts Y + i := ⟨(k - start B.toFacts Y).toNat, by omega⟩
  have hl := leapOf_bounds A Y
  rw [key_eq B.toFacts h1 h2 (by omega)]
  exact (name_year hl.1 hl.2 (by omega)).2.2.2.2

end

variable {M : Libm} (hM : M.Good)
include hM

/-- a lunar date made from a solar one -/
theorem made {s : Solar} (hs : s.Valid) (h1 : 1584 < s.year) (h2 : s.year < 6890) {l : Lunar} (hl : Lunar.fromSolar (astro M) s = .ok l) :
    l.solar = s ∧ l.Proper ∧ (1 ≤ |l.month| ∧ |l.month| ≤ 12) ∧ 1 ≤ l.day ∧
      ∀ i : ℕ, i < 31 → l.jieQi[i]? = some (moment (full hM) (24 * (s.year - 2000) + 17 + i)) := by
  have S := sunAlmanac (full hM)
  obtain ⟨l', e, f1, f2, f3, -, k, f4, f5, f6, f7⟩ := C38_round_trip (almanac (full hM)) s hs h1 h2
  rw [hl] at e
  cases e
  obtain ⟨l', e, t⟩ := (almanac (full hM)).fromSolar_table hs h1 h2
  rw [hl] at e
  cases e
  have b := S.behind s.year (by omega) (by omega) k s.date _ hs.1 rfl f7 (by omega) (by omega)
  have m := key_month (full hM) (k := k) (by change 1584 ≤ ((almanac (full hM)).key k).1; omega) (by change ((almanac (full hM)).key k).1 ≤ 6890; omega)
  change 1 ≤ |((almanac (full hM)).key k).2| ∧ |((almanac (full hM)).key k).2| ≤ 12 at m
  rw [← f4] at b m
  refine ⟨f1, ⟨f2, by rw [f1]; omega, by rw [f1]; exact f3, by rw [f1]; exact b⟩, m, f5, fun i hi => ?_⟩
  rw [jq_eq (full hM) h1.le h2.le t, List.getElem?_map, List.getElem?_range hi]
  rfl

/-- from the summer solstice to the beginning of autumn there are 42 to 49 days -/
theorem summer_days {Y : ℤ} (h1 : 1584 ≤ Y) (h2 : Y ≤ 6890) :
    JD.jdn (moment (full hM) (24 * (Y - 2000) + 17 + (13 : ℕ))).date + 42 ≤ JD.jdn (moment (full hM) (24 * (Y - 2000) + 17 + (16 : ℕ))).date ∧
    JD.jdn (moment (full hM) (24 * (Y - 2000) + 17 + (16 : ℕ))).date ≤ JD.jdn (moment (full hM) (24 * (Y - 2000) + 17 + (13 : ℕ))).date + 49 := by
  have a := moment_near (full hM) (n := 24 * (Y - 2000) + 17 + (13 : ℕ)) (by omega) (by omega)
  have b := moment_near (full hM) (n := 24 * (Y - 2000) + 17 + (16 : ℕ)) (by omega) (by omega)
  have ta := abs_le.1 (term_facts hM (n := 24 * (Y - 2000) + 17 + (13 : ℕ)) (by omega) (by omega)).2.2.2
  have tb := abs_le.1 (term_facts hM (n := 24 * (Y - 2000) + 17 + (16 : ℕ)) (by omega) (by omega)).2.2.2
  have g := abs_le.1 (summer_v hM (Y := (Y + 1).toNat) (by omega) (by omega))
  rw [show (((Y + 1).toNat : ℕ) : ℤ) = Y + 1 by omega, show 24 * (Y + 1 - 2000) + 9 = 24 * (Y - 2000) + 17 + (16 : ℕ) by push_cast; ring,
    show 24 * (Y + 1 - 2000) + 6 = 24 * (Y - 2000) + 17 + (13 : ℕ) by push_cast; ring] at g
  generalize moment (full hM) (24 * (Y - 2000) + 17 + (13 : ℕ)) = p at *
  generalize moment (full hM) (24 * (Y - 2000) + 17 + (16 : ℕ)) = q at *
  push_cast at g
  have x1 : ((JD.jdn p.date + 41 : ℤ) : ℚ) < JD.jdn q.date := by push_cast; linarith [a.1, a.2, b.1, b.2, ta.1, ta.2, tb.1, tb.2, g.1, g.2]
  have x2 : (JD.jdn q.date : ℚ) < ((JD.jdn p.date + 50 : ℤ) : ℚ) := by push_cast; linarith [a.1, a.2, b.1, b.2, ta.1, ta.2, tb.1, tb.2, g.1, g.2]
  have x1' : JD.jdn p.date + 41 < JD.jdn q.date := by exact_mod_cast x1
  have x2' : JD.jdn q.date < JD.jdn p.date + 50 := by exact_mod_cast x2
  omega

end Ephem
