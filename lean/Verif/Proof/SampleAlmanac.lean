import Verif.Spec.SampleAlmanac
import Verif.Proof.Almanac

/-! # The sample almanac meets the hypotheses of `Almanac` for 2022 .. 2025 -/

namespace Sample
open Spec LunarYear

/-- the months of 2021-12 .. 2026-03 -/
def names : List (ℤ × ℤ) :=
  [(2021, 11), (2021, 12),
   (2022, 1), (2022, 2), (2022, 3), (2022, 4), (2022, 5), (2022, 6), (2022, 7), (2022, 8), (2022, 9), (2022, 10),
   (2022, 11), (2022, 12),
   (2023, 1), (2023, 2), (2023, -2), (2023, 3), (2023, 4), (2023, 5), (2023, 6), (2023, 7), (2023, 8), (2023, 9),
   (2023, 10), (2023, 11), (2023, 12),
   (2024, 1), (2024, 2), (2024, 3), (2024, 4), (2024, 5), (2024, 6), (2024, 7), (2024, 8), (2024, 9), (2024, 10),
   (2024, 11), (2024, 12),
   (2025, 1), (2025, 2), (2025, 3), (2025, 4), (2025, 5), (2025, 6), (2025, -6), (2025, 7), (2025, 8), (2025, 9),
   (2025, 10), (2025, 11), (2025, 12), (2026, 1), (2026, 2)]

/-- outside the sample: one-day months with names that are not used -/
def key (k : ℤ) : ℤ × ℤ :=
  if 0 ≤ k ∧ k < 54 then names.getD k.toNat (0, 0) else if k < 0 then (k, 13) else (-k, 14)

def first (k : ℤ) : ℤ :=
  if 0 ≤ k ∧ k < 54 then moons.getD k.toNat 0 + 2451545 else if k < 0 then 8008 + 2451545 + k else 9574 + 2451545 + (k - 53)

def start (Y : ℤ) : ℤ := if Y ≤ 2022 then 0 else if Y = 2023 then 12 else if Y = 2024 then 25 else 37

theorem first_lt (k : ℤ) : first k < first (k + 1) := by
  by_cases h1 : k < -1
  · unfold first
    rw [if_neg (by omega), if_pos (by omega), if_neg (by omega), if_pos (by omega)]
    omega
  · by_cases h2 : 53 ≤ k
    · by_cases h3 : k = 53
      · subst h3; decide +kernel
      · unfold first
        rw [if_neg (by omega), if_neg (by omega), if_neg (by omega), if_neg (by omega)]
        omega
    · have key : ∀ i ∈ List.range 54, first ((i : ℤ) - 1) < first ((i : ℤ) - 1 + 1) := by decide +kernel
      have := key (k + 1).toNat (by simp; omega)
      rwa [show ((k + 1).toNat : ℤ) - 1 = k by omega] at this

theorem key_month (k : ℤ) (h0 : 0 ≤ k) (h1 : k < 54) : (key k).2 ≤ 12 ∧ 2021 ≤ (key k).1 ∧
    (2022 ≤ (key k).1 → start (key k).1 ≤ k) ∧ ((key k).1 ≤ 2025 → k < start (key k).1 + 15) ∧
    ((key k).1 = 2022 → 2459216 ≤ first k ∧ first (k + 1) ≤ 2460311) ∧
    ((key k).1 = 2023 → 2459581 ≤ first k ∧ first (k + 1) ≤ 2460677) ∧
    ((key k).1 = 2024 → 2459946 ≤ first k ∧ first (k + 1) ≤ 2461042) ∧
    ((key k).1 = 2025 → 2460311 ≤ first k ∧ first (k + 1) ≤ 2461407) := by
  have key : ∀ i ∈ List.range 54, (key (i : ℤ)).2 ≤ 12 ∧ 2021 ≤ (key (i : ℤ)).1 ∧
      (2022 ≤ (key (i : ℤ)).1 → start (key (i : ℤ)).1 ≤ (i : ℤ)) ∧ ((key (i : ℤ)).1 ≤ 2025 → (i : ℤ) < start (key (i : ℤ)).1 + 15) ∧
      ((key (i : ℤ)).1 = 2022 → 2459216 ≤ first (i : ℤ) ∧ first ((i : ℤ) + 1) ≤ 2460311) ∧
      ((key (i : ℤ)).1 = 2023 → 2459581 ≤ first (i : ℤ) ∧ first ((i : ℤ) + 1) ≤ 2460677) ∧
      ((key (i : ℤ)).1 = 2024 → 2459946 ≤ first (i : ℤ) ∧ first ((i : ℤ) + 1) ≤ 2461042) ∧
      ((key (i : ℤ)).1 = 2025 → 2460311 ≤ first (i : ℤ) ∧ first ((i : ℤ) + 1) ≤ 2461407) := by decide +kernel
  have := key k.toNat (by simp; omega)
  rwa [show (k.toNat : ℤ) = k by omega] at this

theorem key_out (k : ℤ) (h : ¬ (0 ≤ k ∧ k < 54)) : key k = if k < 0 then (k, 13) else (-k, 14) := by
  unfold key; rw [if_neg h]

theorem key_inj (j k : ℤ) (h : key j = key k) : j = k := by
  by_cases hj : 0 ≤ j ∧ j < 54
  · by_cases hk : 0 ≤ k ∧ k < 54
    · have key : ∀ a ∈ List.range 54, ∀ b ∈ List.range 54, key (a : ℤ) = key (b : ℤ) → a = b := by decide +kernel
      have := key j.toNat (by simp; omega) k.toNat (by simp; omega)
      rw [show (j.toNat : ℤ) = j by omega, show (k.toNat : ℤ) = k by omega] at this
      have := this h
      omega
    · have := (key_month j hj.1 hj.2).1
      rw [h, key_out k hk] at this
      split_ifs at this <;> simp at this
  · by_cases hk : 0 ≤ k ∧ k < 54
    · have := (key_month k hk.1 hk.2).1
      rw [← h, key_out j hj] at this
      split_ifs at this <;> simp at this
    · rw [key_out j hj, key_out k hk] at h
      split_ifs at h <;> simp only [Prod.mk.injEq] at h <;> omega

theorem key_in (k : ℤ) (h : 0 ≤ (key k).1) : 0 ≤ k ∧ k < 54 := by
  by_contra hc
  rw [key_out k hc] at h
  split_ifs at h with c
  · simp only at h; omega
  · simp only at h; omega

/-- the terms of the years 2022 .. 2025 as the library tabulates them -/
def rows : List (List Solar) :=
  [[⟨2021, 12, 7, 15, 30, 0⟩, ⟨2021, 12, 21, 15, 30, 0⟩, ⟨2022, 1, 5, 15, 30, 0⟩, ⟨2022, 1, 20, 15, 30, 0⟩,
    ⟨2022, 2, 4, 15, 30, 0⟩, ⟨2022, 2, 19, 15, 30, 0⟩, ⟨2022, 3, 5, 15, 30, 0⟩, ⟨2022, 3, 20, 15, 30, 0⟩,
    ⟨2022, 4, 5, 15, 30, 0⟩, ⟨2022, 4, 20, 15, 30, 0⟩, ⟨2022, 5, 5, 15, 30, 0⟩, ⟨2022, 5, 21, 15, 30, 0⟩,
    ⟨2022, 6, 6, 15, 30, 0⟩, ⟨2022, 6, 21, 15, 30, 0⟩, ⟨2022, 7, 7, 15, 30, 0⟩, ⟨2022, 7, 23, 15, 30, 0⟩,
    ⟨2022, 8, 7, 15, 30, 0⟩, ⟨2022, 8, 23, 15, 30, 0⟩, ⟨2022, 9, 7, 15, 30, 0⟩, ⟨2022, 9, 23, 15, 30, 0⟩,
    ⟨2022, 10, 8, 15, 30, 0⟩, ⟨2022, 10, 23, 15, 30, 0⟩, ⟨2022, 11, 7, 15, 30, 0⟩, ⟨2022, 11, 22, 15, 30, 0⟩,
    ⟨2022, 12, 7, 15, 30, 0⟩, ⟨2022, 12, 22, 15, 30, 0⟩, ⟨2023, 1, 5, 15, 30, 0⟩, ⟨2023, 1, 20, 15, 30, 0⟩,
    ⟨2023, 2, 4, 15, 30, 0⟩, ⟨2023, 2, 19, 15, 30, 0⟩, ⟨2023, 3, 6, 15, 30, 0⟩],
   [⟨2022, 12, 7, 15, 30, 0⟩, ⟨2022, 12, 22, 15, 30, 0⟩, ⟨2023, 1, 5, 15, 30, 0⟩, ⟨2023, 1, 20, 15, 30, 0⟩,
    ⟨2023, 2, 4, 15, 30, 0⟩, ⟨2023, 2, 19, 15, 30, 0⟩, ⟨2023, 3, 6, 15, 30, 0⟩, ⟨2023, 3, 21, 15, 30, 0⟩,
    ⟨2023, 4, 5, 15, 30, 0⟩, ⟨2023, 4, 20, 15, 30, 0⟩, ⟨2023, 5, 6, 15, 30, 0⟩, ⟨2023, 5, 21, 15, 30, 0⟩,
    ⟨2023, 6, 6, 15, 30, 0⟩, ⟨2023, 6, 21, 15, 30, 0⟩, ⟨2023, 7, 7, 15, 30, 0⟩, ⟨2023, 7, 23, 15, 30, 0⟩,
    ⟨2023, 8, 8, 15, 30, 0⟩, ⟨2023, 8, 23, 15, 30, 0⟩, ⟨2023, 9, 8, 15, 30, 0⟩, ⟨2023, 9, 23, 15, 30, 0⟩,
    ⟨2023, 10, 8, 15, 30, 0⟩, ⟨2023, 10, 24, 15, 30, 0⟩, ⟨2023, 11, 8, 15, 30, 0⟩, ⟨2023, 11, 22, 15, 30, 0⟩,
    ⟨2023, 12, 7, 15, 30, 0⟩, ⟨2023, 12, 22, 15, 30, 0⟩, ⟨2024, 1, 6, 15, 30, 0⟩, ⟨2024, 1, 20, 15, 30, 0⟩,
    ⟨2024, 2, 4, 15, 30, 0⟩, ⟨2024, 2, 19, 15, 30, 0⟩, ⟨2024, 3, 5, 15, 30, 0⟩],
   [⟨2023, 12, 7, 15, 30, 0⟩, ⟨2023, 12, 22, 15, 30, 0⟩, ⟨2024, 1, 6, 15, 30, 0⟩, ⟨2024, 1, 20, 15, 30, 0⟩,
    ⟨2024, 2, 4, 15, 30, 0⟩, ⟨2024, 2, 19, 15, 30, 0⟩, ⟨2024, 3, 5, 15, 30, 0⟩, ⟨2024, 3, 20, 15, 30, 0⟩,
    ⟨2024, 4, 4, 15, 30, 0⟩, ⟨2024, 4, 19, 15, 30, 0⟩, ⟨2024, 5, 5, 15, 30, 0⟩, ⟨2024, 5, 20, 15, 30, 0⟩,
    ⟨2024, 6, 5, 15, 30, 0⟩, ⟨2024, 6, 21, 15, 30, 0⟩, ⟨2024, 7, 6, 15, 30, 0⟩, ⟨2024, 7, 22, 15, 30, 0⟩,
    ⟨2024, 8, 7, 15, 30, 0⟩, ⟨2024, 8, 22, 15, 30, 0⟩, ⟨2024, 9, 7, 15, 30, 0⟩, ⟨2024, 9, 22, 15, 30, 0⟩,
    ⟨2024, 10, 8, 15, 30, 0⟩, ⟨2024, 10, 23, 15, 30, 0⟩, ⟨2024, 11, 7, 15, 30, 0⟩, ⟨2024, 11, 22, 15, 30, 0⟩,
    ⟨2024, 12, 6, 15, 30, 0⟩, ⟨2024, 12, 21, 15, 30, 0⟩, ⟨2025, 1, 5, 15, 30, 0⟩, ⟨2025, 1, 20, 15, 30, 0⟩,
    ⟨2025, 2, 3, 15, 30, 0⟩, ⟨2025, 2, 18, 15, 30, 0⟩, ⟨2025, 3, 5, 15, 30, 0⟩],
   [⟨2024, 12, 6, 15, 30, 0⟩, ⟨2024, 12, 21, 15, 30, 0⟩, ⟨2025, 1, 5, 15, 30, 0⟩, ⟨2025, 1, 20, 15, 30, 0⟩,
    ⟨2025, 2, 3, 15, 30, 0⟩, ⟨2025, 2, 18, 15, 30, 0⟩, ⟨2025, 3, 5, 15, 30, 0⟩, ⟨2025, 3, 20, 15, 30, 0⟩,
    ⟨2025, 4, 4, 15, 30, 0⟩, ⟨2025, 4, 20, 15, 30, 0⟩, ⟨2025, 5, 5, 15, 30, 0⟩, ⟨2025, 5, 21, 15, 30, 0⟩,
    ⟨2025, 6, 5, 15, 30, 0⟩, ⟨2025, 6, 21, 15, 30, 0⟩, ⟨2025, 7, 7, 15, 30, 0⟩, ⟨2025, 7, 22, 15, 30, 0⟩,
    ⟨2025, 8, 7, 15, 30, 0⟩, ⟨2025, 8, 23, 15, 30, 0⟩, ⟨2025, 9, 7, 15, 30, 0⟩, ⟨2025, 9, 23, 15, 30, 0⟩,
    ⟨2025, 10, 8, 15, 30, 0⟩, ⟨2025, 10, 23, 15, 30, 0⟩, ⟨2025, 11, 7, 15, 30, 0⟩, ⟨2025, 11, 22, 15, 30, 0⟩,
    ⟨2025, 12, 7, 15, 30, 0⟩, ⟨2025, 12, 21, 15, 30, 0⟩, ⟨2026, 1, 5, 15, 30, 0⟩, ⟨2026, 1, 20, 15, 30, 0⟩,
    ⟨2026, 2, 4, 15, 30, 0⟩, ⟨2026, 2, 18, 15, 30, 0⟩, ⟨2026, 3, 5, 15, 30, 0⟩]]

/-- the months of the years 2022 .. 2025 as the library tabulates them: year, month, first day, length -/
def monthRows : List (List ((ℤ × ℤ) × ℤ × ℤ)) :=
  [[((2021, 11), 2459553, 30), ((2021, 12), 2459583, 29), ((2022, 1), 2459612, 30), ((2022, 2), 2459642, 29),
    ((2022, 3), 2459671, 30), ((2022, 4), 2459701, 29), ((2022, 5), 2459730, 30), ((2022, 6), 2459760, 30),
    ((2022, 7), 2459790, 29), ((2022, 8), 2459819, 30), ((2022, 9), 2459849, 29), ((2022, 10), 2459878, 30),
    ((2022, 11), 2459908, 29), ((2022, 12), 2459937, 30), ((2023, 1), 2459967, 29)],
   [((2022, 11), 2459908, 29), ((2022, 12), 2459937, 30), ((2023, 1), 2459967, 29), ((2023, 2), 2459996, 30),
    ((2023, -2), 2460026, 29), ((2023, 3), 2460055, 30), ((2023, 4), 2460085, 29), ((2023, 5), 2460114, 30),
    ((2023, 6), 2460144, 29), ((2023, 7), 2460173, 30), ((2023, 8), 2460203, 30), ((2023, 9), 2460233, 29),
    ((2023, 10), 2460262, 30), ((2023, 11), 2460292, 29), ((2023, 12), 2460321, 30)],
   [((2023, 11), 2460292, 29), ((2023, 12), 2460321, 30), ((2024, 1), 2460351, 29), ((2024, 2), 2460380, 30),
    ((2024, 3), 2460410, 29), ((2024, 4), 2460439, 29), ((2024, 5), 2460468, 30), ((2024, 6), 2460498, 29),
    ((2024, 7), 2460527, 30), ((2024, 8), 2460557, 30), ((2024, 9), 2460587, 29), ((2024, 10), 2460616, 30),
    ((2024, 11), 2460646, 30), ((2024, 12), 2460676, 29), ((2025, 1), 2460705, 30)],
   [((2024, 11), 2460646, 30), ((2024, 12), 2460676, 29), ((2025, 1), 2460705, 30), ((2025, 2), 2460735, 29),
    ((2025, 3), 2460764, 30), ((2025, 4), 2460794, 29), ((2025, 5), 2460823, 29), ((2025, 6), 2460852, 30),
    ((2025, -6), 2460882, 29), ((2025, 7), 2460911, 30), ((2025, 8), 2460941, 29), ((2025, 9), 2460970, 30),
    ((2025, 10), 2461000, 30), ((2025, 11), 2461030, 30), ((2025, 12), 2461060, 29)]]

def table (Y : ℤ) : List Solar := rows.getD (Y - 2022).toNat []

theorem table_made (Y : ℤ) (h1 : 2022 ≤ Y) (h2 : Y ≤ 2025) : Lunar.computeJieQi (make astro Y).jieQiJulianDays = .ok (table Y) := by
  have key : ∀ Y ∈ [2022, 2023, 2024, 2025], (match Lunar.computeJieQi (make astro Y).jieQiJulianDays with
      | .ok jq => decide (jq = table Y)
      | .error _ => false) = true := by decide +kernel
  have := key Y (by simp; omega)
  split at this
  · next jq e => rw [e, of_decide_eq_true this]
  · cases this

theorem table_props : ∀ Y ∈ [2022, 2023, 2024, 2025], (table Y).length = 31 ∧ (∀ s ∈ table Y, s.Valid) ∧
    (∀ s ∈ table Y, 0 ≤ s.year ∧ s.year ≤ 9999) ∧ (table Y).Pairwise (fun a b => Cal.secNo a < Cal.secNo b) ∧
    (table Y)[4]?.map (fun s => s.year) = some Y := by decide +kernel

theorem months_made : ∀ Y ∈ [2022, 2023, 2024, 2025],
    (make astro Y).months.map (fun m => ((m.year, m.month), m.firstJulianDay, m.dayCount)) = monthRows.getD (Y - 2022).toNat [] := by
  decide +kernel

theorem months_keys : ∀ Y ∈ [2022, 2023, 2024, 2025], ∀ i ∈ List.range 15, (monthRows.getD (Y - 2022).toNat [])[i]? =
    some (key (start Y + (i : ℤ)), first (start Y + (i : ℤ)), first (start Y + (i : ℤ) + 1) - first (start Y + (i : ℤ))) := by
  decide +kernel

/-- the terms of a year as the library tabulates them -/
theorem terms (Y : ℤ) (h1 : 2022 ≤ Y) (h2 : Y ≤ 2025) :
    ∃ jq, Lunar.computeJieQi (make astro Y).jieQiJulianDays = .ok jq ∧ Lunar.TermTable Y jq := by
  obtain ⟨l, v, f, c, lc⟩ := table_props Y (by simp; omega)
  refine ⟨_, table_made Y h1 h2, l, v, f, List.Pairwise.imp_of_mem (fun ha hb h => (Solar.before_iff (v _ ha) (v _ hb)).2 h) c, ?_⟩
  intro s hs
  rw [hs] at lc
  simpa using lc

theorem window (Y : ℤ) (h1 : 2022 ≤ Y) (h2 : Y ≤ 2025) (i : ℕ) (hi : i < 15) :
    ∃ m, (make astro Y).months[i]? = some m ∧ (m.year, m.month) = key (start Y + i) ∧
      m.firstJulianDay = first (start Y + i) ∧ m.dayCount = first (start Y + i + 1) - first (start Y + i) := by
  have := months_keys Y (by simp; omega) i (by simpa using hi)
  rw [← months_made Y (by simp; omega), List.getElem?_map] at this
  cases e : (make astro Y).months[i]? with
  | none => rw [e] at this; simp at this
  | some m =>
    rw [e] at this
    simp only [Option.map_some, Option.some.injEq] at this
    exact ⟨m, rfl, congrArg (fun t => t.1) this, congrArg (fun t => t.2.1) this, congrArg (fun t => t.2.2) this⟩

theorem year_of {x : Date} (hx : x.Valid) {n a b : ℤ} (hn : IsDay n x) (ha : JD.jdn ⟨a, 1, 1⟩ ≤ n)
    (hb : n < JD.jdn ⟨b + 1, 1, 1⟩) : a ≤ x.y ∧ x.y ≤ b := by
  rw [isDay_iff hx] at hn
  subst hn
  exact ⟨year_ge_of_jdn hx ha, year_le_of_jdn hx hb⟩

def almanac : Almanac astro 2022 2025 where
  key := key
  first := first
  start := start
  first_lt := first_lt
  key_inj := key_inj
  window := window
  home k h1 h2 := by
    obtain ⟨a, b⟩ := key_in k (by omega)
    have := key_month k a b
    exact ⟨this.2.2.1 h1, this.2.2.2.1 h2⟩
  overlap Y h1 h2 := by
    have : Y = 2022 ∨ Y = 2023 ∨ Y = 2024 := by omega
    rcases this with rfl | rfl | rfl <;> decide
  covers Y h1 h2 x n hx hY hn := by
    have v1 : (⟨Y, 1, 1⟩ : Date).Valid := by unfold Date.Valid lastDay; simp
    have a1 : JD.jdn ⟨Y, 1, 1⟩ ≤ n := by
      rw [isDay_iff hx] at hn
      subst hn
      rcases Cal.DateLt_trichotomy ⟨Y, 1, 1⟩ x with a | a | a
      · have := Cal.dayNo_lt v1 hx a
        rw [JD.jdn_eq hx, JD.jdn_eq v1]; omega
      · rw [← a]
      · obtain ⟨b1, b2, b3, b4, _⟩ := hx
        unfold Cal.DateLt at a
        simp only at a
        omega
    have v2 : (⟨Y + 1, 1, 1⟩ : Date).Valid := by unfold Date.Valid lastDay; simp
    have a2 : n < JD.jdn ⟨Y + 1, 1, 1⟩ := by
      rw [isDay_iff hx] at hn
      subst hn
      have := Cal.dayNo_lt hx v2 (.inl (by simp only; omega))
      rw [JD.jdn_eq hx, JD.jdn_eq v2]; omega
    have : Y = 2022 ∨ Y = 2023 ∨ Y = 2024 ∨ Y = 2025 := by omega
    rcases this with rfl | rfl | rfl | rfl
    · have e1 : first (start 2022) ≤ JD.jdn ⟨2022, 1, 1⟩ := by decide +kernel
      have e2 : JD.jdn ⟨2022 + 1, 1, 1⟩ ≤ first (start 2022 + 15) := by decide +kernel
      omega
    · have e1 : first (start 2023) ≤ JD.jdn ⟨2023, 1, 1⟩ := by decide +kernel
      have e2 : JD.jdn ⟨2023 + 1, 1, 1⟩ ≤ first (start 2023 + 15) := by decide +kernel
      omega
    · have e1 : first (start 2024) ≤ JD.jdn ⟨2024, 1, 1⟩ := by decide +kernel
      have e2 : JD.jdn ⟨2024 + 1, 1, 1⟩ ≤ first (start 2024 + 15) := by decide +kernel
      omega
    · have e1 : first (start 2025) ≤ JD.jdn ⟨2025, 1, 1⟩ := by decide +kernel
      have e2 : JD.jdn ⟨2025 + 1, 1, 1⟩ ≤ first (start 2025 + 15) := by decide +kernel
      omega
  near Y h1 h2 i hi := by
    have key : ∀ Y ∈ ([2022, 2023, 2024, 2025] : List ℤ), ∀ i ∈ List.range 15, Y - 1 ≤ (key (start Y + (i : ℤ))).1 ∧
      (key (start Y + (i : ℤ))).1 ≤ Y + 1 := by decide +kernel
    exact key Y (by simp; omega) i (by simpa using hi)
  near' k h1 h2 x n hx hn f1 f2 := by
    obtain ⟨a, b⟩ := key_in k (by omega)
    obtain ⟨-, -, -, -, c0, c1, c2, c3⟩ := key_month k a b
    have : (key k).1 = 2022 ∨ (key k).1 = 2023 ∨ (key k).1 = 2024 ∨ (key k).1 = 2025 := by omega
    rcases this with e | e | e | e
    · have := c0 e
      have j1 : JD.jdn ⟨2021, 1, 1⟩ = 2459216 := by decide
      have j2 : JD.jdn ⟨2023 + 1, 1, 1⟩ = 2460311 := by decide
      have := year_of (a := 2021) (b := 2023) hx hn (by omega) (by omega)
      omega
    · have := c1 e
      have j1 : JD.jdn ⟨2022, 1, 1⟩ = 2459581 := by decide
      have j2 : JD.jdn ⟨2024 + 1, 1, 1⟩ = 2460677 := by decide
      have := year_of (a := 2022) (b := 2024) hx hn (by omega) (by omega)
      omega
    · have := c2 e
      have j1 : JD.jdn ⟨2023, 1, 1⟩ = 2459946 := by decide
      have j2 : JD.jdn ⟨2025 + 1, 1, 1⟩ = 2461042 := by decide
      have := year_of (a := 2023) (b := 2025) hx hn (by omega) (by omega)
      omega
    · have := c3 e
      have j1 : JD.jdn ⟨2024, 1, 1⟩ = 2460311 := by decide
      have j2 : JD.jdn ⟨2026 + 1, 1, 1⟩ = 2461407 := by decide
      have := year_of (a := 2024) (b := 2026) hx hn (by omega) (by omega)
      omega
  nonneg Y h1 h2 := by
    have : Y = 2022 ∨ Y = 2023 ∨ Y = 2024 ∨ Y = 2025 := by omega
    rcases this with rfl | rfl | rfl | rfl <;> decide +kernel
  terms := terms

end Sample
