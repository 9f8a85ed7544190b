import Verif.Proof.SunDay.Days
import Verif.Proof.Ephem.Made
import Verif.Proof.Ephem.Leap
import Verif.Spec.TermDays

/-! # The dates of the table and the days of the principal terms -/

open ShouXing F64 Spec

namespace SunDay
open Ephem (full moment moment_spec)
variable {M : Libm} (hM : M.Good)
include hM

theorem table_day {n : ℤ} (h1 : 24 * (1961 - 2000) ≤ n) (h2 : n ≤ 24000) :
    (JD.jdn (moment (full hM) n).date - LunarYear.J2000 = termDay M n) ∨
    (JD.jdn (moment (full hM) n).date - LunarYear.J2000 = termDay M n + 1 ∧
      (moment (full hM) n).hour * 3600 + (moment (full hM) n).minute * 60 + (moment (full hM) n).second < 20) ∨
    (JD.jdn (moment (full hM) n).date - LunarYear.J2000 = termDay M n - 1 ∧
      86400 - 20 ≤ (moment (full hM) n).hour * 3600 + (moment (full hM) n).minute * 60 + (moment (full hM) n).second) := by
  obtain ⟨-, v, e⟩ := moment_spec (full hM) (n := n) (by omega) (by omega)
  have e' := abs_le.1 e
  obtain ⟨d1, d2⟩ := day_near hM h1 h2
  obtain ⟨v1, v2⟩ := v
  have hc : 0 ≤ (moment (full hM) n).hour * 3600 + (moment (full hM) n).minute * 60 + (moment (full hM) n).second ∧
      (moment (full hM) n).hour * 3600 + (moment (full hM) n).minute * 60 + (moment (full hM) n).second ≤ 86399 := by
    unfold ClockOk at v2
    omega
  have hs : Cal.secNo (moment (full hM) n) + 86400 * 1721057 = 86400 * JD.jdn (moment (full hM) n).date +
      ((moment (full hM) n).hour * 3600 + (moment (full hM) n).minute * 60 + (moment (full hM) n).second) := by
    rw [JD.jdn_eq v1]
    unfold Cal.secNo
    ring
  generalize (moment (full hM) n).hour * 3600 + (moment (full hM) n).minute * 60 + (moment (full hM) n).second = c at *
  generalize JD.jdn (moment (full hM) n).date = j at *
  generalize termDay M n = D at *
  have hq : (Cal.secNo (moment (full hM) n) : ℚ) + 86400 * 1721057 = 86400 * (j : ℚ) + c := by exact_mod_cast hs
  rw [hq] at e'
  have k1 : 86400 * (D + 2451545) - 20 ≤ 86400 * j + c := by
    have : (86400 * ((D : ℚ) + 2451545) - 20) ≤ 86400 * (j : ℚ) + c := by linarith
    exact_mod_cast this
  have k2 : 86400 * j + c < 86400 * (D + 2451545 + 1) + 20 := by
    have : 86400 * (j : ℚ) + c < 86400 * ((D : ℚ) + 2451545 + 1) + 20 := by linarith
    exact_mod_cast this
  have eJ : LunarYear.J2000 = 2451545 := rfl
  rw [eJ]
  clear hq e e' hs d1 d2
  omega

/-- the same for the table of a moment -/
theorem principal_day {s : Solar} (hs : s.Valid) (h1 : 1961 ≤ s.year) (h2 : s.year ≤ 2998) {l : Lunar} (hl : Lunar.fromSolar (astro M) s = .ok l)
    {j : ℕ} (hj : j ≤ 12) {p : Solar} (hp : l.jieQi[2 * j + 1]? = some p) : p.Valid ∧
    (JD.jdn p.date = principal (astro M) s.year j ∨
     JD.jdn p.date = principal (astro M) s.year j + 1 ∧ p.hour * 3600 + p.minute * 60 + p.second < 20 ∨
     JD.jdn p.date = principal (astro M) s.year j - 1 ∧ 86400 - 20 ≤ p.hour * 3600 + p.minute * 60 + p.second) := by
  obtain ⟨-, -, -, -, t⟩ := Ephem.made hM hs (by omega) (by omega) hl
  rw [t _ (by omega)] at hp
  cases hp
  have e : 24 * (s.year - 2000) + 17 + ((2 * j + 1 : ℕ) : ℤ) = 24 * (s.year - 2000) + 18 + 2 * j := by push_cast; ring
  rw [e]
  refine ⟨(moment_spec (full hM) (by omega) (by omega)).2.1, ?_⟩
  rw [Ephem.principal_eq (full hM).toFacts (by omega) (by omega) hj, Ephem.dayT_high M (by omega)]
  have := table_day hM (n := 24 * (s.year - 2000) + 18 + 2 * j) (by omega) (by omega)
  omega

end SunDay

namespace SunDay
open ShouXing Block FloatLike
open Ephem (full moment moment_spec)

/-- term `n` is in hour `N` -/
def hourOk (n N : ℤ) : Bool := floorIs ((qiAccurate (Aff.var n 0 * (PI / int 12)) + lit 5 1) * int 24 : Aff 0 0 0) N

theorem hour_mem {M : Libm} (hM : M.Good) {n N : ℤ} (hk : |n| ≤ 24000) (h1 : 24 * (1961 - 2000) ≤ n) (H : hourOk n N = true) :
    (N : ℚ) / 24 - 1 / 86400 ≤ termAt M n + 1 / 2 ∧ termAt M n + 1 / 2 ≤ ((N : ℚ) + 1) / 24 + 1 / 86400 := by
  have h0 : |(0 : ℤ) - 0| ≤ ((0 : ℕ) : ℤ) := by simp
  have e1 : Encl 0 (Aff.var n 0 : Aff 0 0 0) (int n : Fl M) := by
    have := Moon.var_mem (c := 0) (h := 0) (θ := 0) 0 n 0
    show Aff.Mem 0 _ _
    rw [int_v M (hk.trans (by norm_num))]
    simpa using this
  have f := floorIs_mem h0 (Encl.mul h0 (Encl.add h0 (Encl.qiAccurate h0 hM (Encl.mul h0 e1 (Encl.div h0 (Encl.PI h0) (Encl.int h0 12)))) (Encl.lit h0 5 1)) (Encl.int h0 24)) H
  obtain ⟨z, hz⟩ : ∃ z : Fl M, z = qiAccurate (int n * (PI / int 12)) := ⟨_, rfl⟩
  rw [← hz] at f
  have ez : termAt M n = z.v := by rw [hz]; rfl
  obtain ⟨-, ⟨b1, b2⟩, -⟩ := Ephem.sun_at hM h1 ((abs_le.1 hk).2.trans (by norm_num))
  have n1 : (24 * (1961 - 2000) : ℚ) ≤ n := by exact_mod_cast h1
  have n2 : (n : ℚ) ≤ 24000 := by exact_mod_cast (abs_le.1 hk).2
  have hb : |(z.v : ℝ)| ≤ 370000 := by
    have b1' : (-370000 : ℚ) ≤ z.v := by rw [← ez]; linarith
    have b2' : z.v ≤ (370000 : ℚ) := by rw [← ez]; linarith
    rw [abs_le]
    exact ⟨by exact_mod_cast b1', by exact_mod_cast b2'⟩
  have eh : (FloatLike.lit 5 1 : ℝ) = 1 / 2 := by show ((5 : ℤ) : ℝ) / 10 ^ 1 = _; norm_num
  have a := (((Near.self z hb).add (Near.lit (M := M) 5 1)).mono (m' := 370001) (e' := 1 / 10 ^ 9) (by norm_num) (by norm_num)).mul
    (Lunation.int_near (M := M) 24 (m := 24) (by norm_num) (by norm_num))
  rw [eh] at a
  have a := abs_le.1 a.1
  have f1 := Int.floor_le ((z + lit 5 1) * int 24 : Fl M).v
  have f2 := Int.lt_floor_add_one ((z + lit 5 1) * int 24 : Fl M).v
  rw [f] at f1 f2
  have f1' : (N : ℝ) ≤ ((z + lit 5 1) * int 24 : Fl M).v := by exact_mod_cast f1
  have f2' : (((z + lit 5 1) * int 24 : Fl M).v : ℝ) < N + 1 := by exact_mod_cast f2
  push_cast at a
  have k1 : (((N : ℚ) / 24 - 1 / 86400 : ℚ) : ℝ) ≤ ((z.v + 1 / 2 : ℚ) : ℝ) := by push_cast; linarith
  have k2 : ((z.v + 1 / 2 : ℚ) : ℝ) ≤ ((((N : ℚ) + 1) / 24 + 1 / 86400 : ℚ) : ℝ) := by push_cast; linarith
  rw [ez]
  exact ⟨by exact_mod_cast k1, by exact_mod_cast k2⟩

theorem clear_of_hour {M : Libm} (hM : M.Good) {n N : ℤ} (hk : |n| ≤ 24000) (h1 : 24 * (1961 - 2000) ≤ n) (H : hourOk n N = true)
    (n1 : 1 ≤ N % 24) (n2 : N % 24 ≤ 22) : ClearOfMidnight (moment (full hM) n) := by
  have h2 := (abs_le.1 hk).2
  obtain ⟨d1, d2⟩ := hour_mem hM hk h1 H
  obtain ⟨-, v, e⟩ := moment_spec (full hM) (n := n) (by omega) (by omega)
  have e' := abs_le.1 e
  obtain ⟨v1, v2⟩ := v
  have hc : 0 ≤ (moment (full hM) n).hour * 3600 + (moment (full hM) n).minute * 60 + (moment (full hM) n).second ∧
      (moment (full hM) n).hour * 3600 + (moment (full hM) n).minute * 60 + (moment (full hM) n).second ≤ 86399 := by
    unfold ClockOk at v2
    omega
  have hs : Cal.secNo (moment (full hM) n) + 86400 * 1721057 = 86400 * JD.jdn (moment (full hM) n).date +
      ((moment (full hM) n).hour * 3600 + (moment (full hM) n).minute * 60 + (moment (full hM) n).second) := by
    rw [JD.jdn_eq v1]
    unfold Cal.secNo
    ring
  unfold ClearOfMidnight
  generalize (moment (full hM) n).hour * 3600 + (moment (full hM) n).minute * 60 + (moment (full hM) n).second = c at *
  generalize JD.jdn (moment (full hM) n).date = j at *
  have hq : (Cal.secNo (moment (full hM) n) : ℚ) + 86400 * 1721057 = 86400 * (j : ℚ) + c := by exact_mod_cast hs
  rw [hq] at e'
  have k1 : 3600 * N + 86400 * 2451545 - 2 ≤ 86400 * j + c := by
    have : 3600 * (N : ℚ) + 86400 * 2451545 - 2 ≤ 86400 * (j : ℚ) + c := by linarith
    exact_mod_cast this
  have k2 : 86400 * j + c ≤ 3600 * (N + 1) + 86400 * 2451545 + 2 := by
    have : 86400 * (j : ℚ) + c ≤ 3600 * ((N : ℚ) + 1) + 86400 * 2451545 + 2 := by linarith
    exact_mod_cast this
  clear hq e e' hs d1 d2 H
  omega

end SunDay
