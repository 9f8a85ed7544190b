import Verif.Spec.SunAlmanac
import Verif.Proof.SampleAlmanac

/-! # The sample almanac meets the hypotheses of `SunAlmanac` for 2022 .. 2025 -/

namespace Sample
open Spec LunarYear

theorem table_eq {Y : ℤ} {jq : List Solar} (h1 : 2022 ≤ Y) (h2 : Y ≤ 2025)
    (h : Lunar.computeJieQi (make astro Y).jieQiJulianDays = .ok jq) : jq = table Y := by
  rw [table_made Y h1 h2] at h
  exact (Except.ok.inj h).symm

theorem table_valid (Y : ℤ) (h1 : 2022 ≤ Y) (h2 : Y ≤ 2025) : Lunar.TermTable Y (table Y) := by
  obtain ⟨jq, e, T⟩ := terms Y h1 h2
  rw [← table_eq h1 h2 e]
  exact T

theorem table_overlap : ∀ Y ∈ [2022, 2023, 2024], ∀ i ∈ List.range 7, (table Y)[24 + i]? = (table (Y + 1))[i]? := by decide +kernel

theorem table_ends : ∀ Y ∈ [2022, 2023, 2024, 2025], (table Y)[0]?.map Solar.year = some (Y - 1) ∧
    (table Y)[28]?.map Solar.year = some (Y + 1) := by decide +kernel

theorem table_short : ∀ Y ∈ [2022, 2023, 2024, 2025], ∀ i ∈ List.range 15,
    (match (table Y)[2 * i]?, (table Y)[2 * i + 2]? with
      | some a, some b => decide (Cal.dn b.date - Cal.dn a.date < 59)
      | _, _ => true) = true := by decide +kernel

theorem key_years : ∀ i ∈ List.range 54,
    JD.jdn ⟨(key (i : ℤ)).1, 1, 1⟩ ≤ first (i : ℤ) ∧ first ((i : ℤ) + 1) ≤ JD.jdn ⟨(key (i : ℤ)).1 + 1 + 1, 1, 1⟩ := by decide +kernel

theorem sunAlmanac : SunAlmanac almanac where
  overlap Y h1 h2 jq jq' e e' i hi := by
    rw [table_eq h1 (by omega) e, table_eq (by omega) (by omega) e']
    exact table_overlap Y (by simp; omega) i (by simpa using hi)
  ends Y h1 h2 jq e := by
    obtain ⟨a, b⟩ := table_ends Y (by simp; omega)
    rw [table_eq h1 h2 e]
    constructor
    · intro s hs
      rw [hs] at a
      simpa using a
    · intro s hs
      rw [hs] at b
      simpa using b
  short Y h1 h2 jq e i a b n ha hb hn := by
    have T := table_valid Y h1 h2
    rw [table_eq h1 h2 e] at ha hb
    have hl : 2 * i + 2 < 31 := by
      obtain ⟨h, -⟩ := List.getElem?_eq_some_iff.1 hb
      rw [T.len] at h
      exact h
    have := table_short Y (by simp; omega) i (by simp; omega)
    rw [ha, hb] at this
    simp only [decide_eq_true_eq] at this
    have va := T.valid _ (List.mem_of_getElem? ha)
    have vb := T.valid _ (List.mem_of_getElem? hb)
    have := (Cal.daysAfter_iff va.1 vb.1 n).1 hn
    omega
  newYear Y h1 h2 := by
    have : Y = 2022 ∨ Y = 2023 ∨ Y = 2024 ∨ Y = 2025 := by omega
    rcases this with rfl | rfl | rfl | rfl
    · exact ⟨2, ⟨2022, 2, 1⟩, by decide +kernel, by decide, (isDay_iff (by decide)).2 (by decide +kernel), rfl⟩
    · exact ⟨14, ⟨2023, 1, 22⟩, by decide +kernel, by decide, (isDay_iff (by decide)).2 (by decide +kernel), rfl⟩
    · exact ⟨27, ⟨2024, 2, 10⟩, by decide +kernel, by decide, (isDay_iff (by decide)).2 (by decide +kernel), rfl⟩
    · exact ⟨39, ⟨2025, 1, 29⟩, by decide +kernel, by decide, (isDay_iff (by decide)).2 (by decide +kernel), rfl⟩
  behind Y h1 h2 k x n hx hY hn f1 f2 := by
    obtain ⟨c1, c2⟩ := almanac.covers Y h1 h2 x n hx hY hn
    have hk : 0 ≤ k ∧ k < 54 := by
      obtain ⟨i, hi, g1, g2⟩ := almanac.month_of_day c1 c2
      have e : k = start Y + i := almanac.month_unique f1 f2 g1 g2
      have s0 : 0 ≤ start Y ∧ start Y ≤ 37 := by unfold start; split_ifs <;> omega
      omega
    have := key_years k.toNat (by simp; omega)
    rw [show (k.toNat : ℤ) = k by omega] at this
    have := year_of (a := (key k).1) (b := (key k).1 + 1) hx hn (le_trans this.1 f1) (lt_of_lt_of_le f2 this.2)
    show (key k).1 = Y ∨ (key k).1 = Y - 1
    omega

end Sample
