import Verif.Proof.SunDay.Clear

/-! # The dates of the table from 1961 to 2099 -/

open ShouXing F64 Spec

namespace SunDay
open Ephem (full moment moment_spec)

theorem in_day {M : Libm} (hM : M.Good) {n D : ℤ} (h1 : 24 * (1961 - 2000) ≤ n) (h2 : n ≤ 24000)
    (c1 : (D : ℚ) + 3 / 86400 ≤ termAt M n + 1 / 2) (c2 : termAt M n + 1 / 2 ≤ D + 1 - 3 / 86400) :
    JD.jdn (moment (full hM) n).date - LunarYear.J2000 = D := by
  obtain ⟨-, v, e⟩ := moment_spec (full hM) (n := n) (by omega) (by omega)
  have e' := abs_le.1 e
  obtain ⟨v1, v2⟩ := v
  have hc : 0 ≤ (moment (full hM) n).hour * 3600 + (moment (full hM) n).minute * 60 + (moment (full hM) n).second ∧
      (moment (full hM) n).hour * 3600 + (moment (full hM) n).minute * 60 + (moment (full hM) n).second ≤ 86399 := by
    unfold ClockOk at v2
    omega
  have hs : Cal.secNo (moment (full hM) n) + 86400 * 1721057 = 86400 * JD.jdn (moment (full hM) n).date +
      ((moment (full hM) n).hour * 3600 + (moment (full hM) n).minute * 60 + (moment (full hM) n).second) := by
    rw [JD.jdn_eq v1]
    unfold Cal.secNo
    ring
  generalize (moment (full hM) n).hour * 3600 + (moment (full hM) n).minute * 60 + (moment (full hM) n).second = c at *
  generalize JD.jdn (moment (full hM) n).date = j at *
  have hq : (Cal.secNo (moment (full hM) n) : ℚ) + 86400 * 1721057 = 86400 * (j : ℚ) + c := by exact_mod_cast hs
  rw [hq] at e'
  have k1 : 86400 * (D + 2451545) + 1 ≤ 86400 * j + c := by
    have : 86400 * ((D : ℚ) + 2451545) + 1 ≤ 86400 * (j : ℚ) + c := by linarith
    exact_mod_cast this
  have k2 : 86400 * j + c ≤ 86400 * (D + 2451545 + 1) - 1 := by
    have : 86400 * (j : ℚ) + c ≤ 86400 * ((D : ℚ) + 2451545 + 1) - 1 := by linarith
    exact_mod_cast this
  have eJ : LunarYear.J2000 = 2451545 := rfl
  rw [eJ]
  clear hq e e' hs c1 c2
  omega

/-- the great cold of 1980 came five seconds before midnight -/
theorem cold_1980 : partOk 86400 (-484) (-661046400 + 86395) = true ∧ Block.sunPointOk (-484) (-7651) = true := by decide +kernel

theorem day_recent {M : Libm} (hM : M.Good) {n : ℤ} (h1 : 24 * (1961 - 2000) ≤ n) (h2 : n ≤ 24 * (2100 - 2000) + 22) (hn : n % 2 = 0) :
    JD.jdn (moment (full hM) n).date - LunarYear.J2000 = termDay M n := by
  by_cases c : n = -484
  · subst c
    obtain ⟨p1, p2⟩ := cold_1980
    rw [Block.sunPoint_mem hM (by norm_num) p2]
    have h := part_mem hM (by norm_num) (by norm_num) (by norm_num) (by norm_num) p1
    push_cast at h
    refine in_day hM h1 (by norm_num) ?_ ?_
    · push_cast; linarith
    · push_cast; linarith
  · obtain ⟨D, c1, c2⟩ := clear hM h1 h2 hn c
    obtain ⟨d1, d2⟩ := day_near hM h1 (by omega)
    have e := in_day hM h1 (by omega) (D := D) (by linarith) (by linarith)
    rw [e]
    generalize termDay M n = E at *
    have q1 : E < D + 1 := by
      have : (E : ℚ) < D + 1 := by linarith
      exact_mod_cast this
    have q2 : D < E + 1 := by
      have : (D : ℚ) < E + 1 := by linarith
      exact_mod_cast this
    omega

/-- the same for the table of a moment -/
theorem principal_recent {M : Libm} (hM : M.Good) {s : Solar} (hs : s.Valid) (h1 : 1961 ≤ s.year) (h2 : s.year ≤ 2099) {l : Lunar}
    (hl : Lunar.fromSolar (astro M) s = .ok l) {j : ℕ} (hj : j ≤ 12) {p : Solar} (hp : l.jieQi[2 * j + 1]? = some p) :
    JD.jdn p.date = principal (astro M) s.year j := by
  obtain ⟨-, -, -, -, t⟩ := Ephem.made hM hs (by omega) (by omega) hl
  rw [t _ (by omega)] at hp
  have hp := Option.some.inj hp
  have e : 24 * (s.year - 2000) + 17 + ((2 * j + 1 : ℕ) : ℤ) = 24 * (s.year - 2000) + 18 + 2 * j := by push_cast; ring
  rw [← hp, e]
  rw [Ephem.principal_eq (full hM).toFacts (by omega) (by omega) hj, Ephem.dayT_high M (by omega)]
  have := day_recent hM (n := 24 * (s.year - 2000) + 18 + 2 * j) (by omega) (by omega) (by omega)
  omega

end SunDay
