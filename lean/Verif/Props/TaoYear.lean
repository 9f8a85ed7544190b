import Verif.Props.DayStars
import Verif.Props.TaoDays

/-! # C127: the Taoist festivals of the sun come once a year, those of the pillars every sixty days -/

section
open Spec ShouXing Lunar

variable {M : Libm}

/-- the month of the solar year in which a festival of the sun falls, and the days between which it falls -/
def Spec.sunMonths : List (PyStr × ℤ × ℤ × ℤ) :=
  [("立春", 2, 1, 10), ("春分", 3, 16, 25), ("立夏", 5, 1, 10), ("夏至", 6, 16, 25), ("立秋", 8, 1, 10), ("秋分", 9, 16, 25), ("立冬", 11, 1, 10),
   ("冬至", 12, 16, 25)].map (fun p : String × ℤ × ℤ × ℤ => (p.1.toList, p.2))

/-- the name of entry `i` of the table is the name of the day exactly on the day of that entry -/
private theorem named (hM : M.Good) (Y : ℤ) (h1 : 1584 < Y) (h2 : Y < 6890) (i : ℕ) (i1 : 2 ≤ i) (i2 : i ≤ 25) :
    ∃ d : ℤ, (if i % 2 = 0 then 1 ≤ d ∧ d ≤ 10 else 16 ≤ d ∧ d ≤ 25) ∧ ∀ s : Solar, s.Valid → s.year = Y → ∀ l,
      Lunar.fromSolar (astro M) s = .ok l → (l.getJieQi = .ok (termName i) ↔ s.month = ((i / 2 : ℕ) : ℤ) ∧ s.day = d) := by
  have inj : ∀ a ∈ List.range 26, ∀ b ∈ List.range 26, 2 ≤ a → 2 ≤ b → termName a = termName b → a = b := by decide +kernel
  have inj' : ∀ {a b : ℕ}, 2 ≤ a → a ≤ 25 → 2 ≤ b → b ≤ 25 → termName a = termName b → a = b := fun a1 a2 b1 b2 =>
    inj _ (List.mem_range.2 (by omega)) _ (List.mem_range.2 (by omega)) a1 b1
  have ne : ∀ a ∈ List.range 26, ([] : PyStr) ≠ termName a := by decide +kernel
  have ne' := ne i (List.mem_range.2 (by omega))
  obtain ⟨a1, a2, a3, a4, -⟩ := month_terms hM Y ((i / 2 : ℕ) : ℤ) h1 h2 (by omega) (by omega) _ _ rfl rfl
  refine ⟨(Ephem.moment (Ephem.full hM) (24 * (Y - 2000) + 17 + (i : ℤ))).day, ?_, ?_⟩
  · split_ifs with c
    · rw [show 2 * ((i / 2 : ℕ) : ℤ).toNat = i by omega] at a1 a2
      exact ⟨a1, a2⟩
    · rw [show 2 * ((i / 2 : ℕ) : ℤ).toNat + 1 = i by omega] at a3 a4
      exact ⟨a3, a4⟩
  · intro s hs hY l hl
    have m1 : 1 ≤ s.month := hs.1.1
    have m2 : s.month ≤ 12 := hs.1.2.1
    obtain ⟨b1, b2, b3, b4, c⟩ := month_terms hM Y s.month h1 h2 m1 m2 _ _ rfl rfl
    obtain ⟨-, -, e⟩ := c s hs hY rfl l hl
    rw [e, Except.ok.injEq]
    constructor
    · intro h
      split_ifs at h with c1 c2
      · obtain rfl := inj' (by omega) (by omega) i1 i2 h
        exact ⟨by omega, c1⟩
      · obtain rfl := inj' (by omega) (by omega) i1 i2 h
        exact ⟨by omega, c2⟩
      · exact absurd h ne'
    · rintro ⟨h, h'⟩
      rcases Nat.even_or_odd' i with ⟨j, rfl | rfl⟩
      · rw [show s.month.toNat = j by omega, if_pos h']
      · rw [show s.month.toNat = j by omega] at b1 b2 b3 b4 ⊢
        rw [if_neg (by omega), if_pos h']

/-- **C127** each festival of the sun is in the list on exactly one day of every year, in the month of its term: the birthday of 元始天尊
on a day of December from 16 to 25, that of 灵宝天尊 on one of June. -/
theorem C127_once (hM : M.Good) (Y : ℤ) (h1 : 1584 < Y) (h2 : Y < 6890) (name term : PyStr) (hp : (term, name) ∈ sunFestivals) :
    ∃ k lo hi d : ℤ, (term, k, lo, hi) ∈ sunMonths ∧ lo ≤ d ∧ d ≤ hi ∧ ∀ s : Solar, s.Valid → s.year = Y → ∀ l,
      Lunar.fromSolar (astro M) s = .ok l →
        ∃ fs, (Tao.mk l).getFestivals = .ok fs ∧ ((∃ x ∈ fs, x.name = name) ↔ s.month = k ∧ s.day = d) := by
  have find : ∀ p ∈ sunFestivals, ∃ i ∈ List.range 26, 2 ≤ i ∧ p.1 = termName i ∧
      (p.1, ((i / 2 : ℕ) : ℤ), (if i % 2 = 0 then 1 else 16), (if i % 2 = 0 then 10 else 25)) ∈ sunMonths := by decide +kernel
  obtain ⟨i, hi, i1, e, mem⟩ := find _ hp
  obtain ⟨d, hd, c⟩ := named hM Y h1 h2 i i1 (by have := List.mem_range.1 hi; omega)
  refine ⟨_, _, _, d, mem, ?_, ?_, fun s hs hY l hl => ?_⟩
  · split_ifs at hd ⊢ <;> omega
  · split_ifs at hd ⊢ <;> omega
  · obtain ⟨-, P, -⟩ := Ephem.made hM hs (by omega) (by omega) hl
    obtain ⟨fs, hf, g⟩ := C68_sun (Tao.mk l) P term name hp
    refine ⟨fs, hf, ?_⟩
    rw [g, ← c s hs hY l hl]
    dsimp only at e
    rw [e]

/-- **C127** each 会 is in the list on every sixtieth day and on no other: with `k` the number of its pillar, on the days with number `11 + k` modulo 60. -/
theorem C127_sixty (hM : M.Good) (name : PyStr) (k : ℤ) (hp : (ganZhi k, name) ∈ pillarFestivals) (s : Solar) (hs : s.Valid)
    (h1 : 1584 < s.year) (h2 : s.year < 6890) (n : ℤ) (hn : IsDay n s.date) (l : Lunar) (hl : Lunar.fromSolar (astro M) s = .ok l) :
    ∃ fs, (Tao.mk l).getFestivals = .ok fs ∧ ((∃ x ∈ fs, x.name = name) ↔ n % 60 = (11 + k) % 60) := by
  obtain ⟨f1, P, -⟩ := Ephem.made hM hs h1 h2 hl
  obtain ⟨fs, hf, g⟩ := C68_pillar (Tao.mk l) P (ganZhi k) name hp
  refine ⟨fs, hf, ?_⟩
  obtain ⟨-, -, ⟨f2, f3, -⟩, -⟩ := made_fields P.made (by have := P.range; omega) P.range.2
  have e : l.getDayInGanZhi = .ok (ganZhi (JD.jdn l.solar.date - 11)) := pair_eq f2 f3
  rw [f1, ← (isDay_iff hs.1).1 hn] at e
  rw [g]
  dsimp only
  rw [e, Except.ok.injEq, ganZhi_eq_iff]
  omega

/-- in 2026 the birthday of 元始天尊 is on one day of December -/
example : ∃ d : ℤ, 16 ≤ d ∧ d ≤ 25 ∧ ∀ s : Solar, s.Valid → s.year = 2026 → ∀ l, Lunar.fromSolar (astro Libm.cut) s = .ok l →
    ∃ fs, (Tao.mk l).getFestivals = .ok fs ∧ ((∃ x ∈ fs, x.name = "元始天尊圣诞".toList) ↔ s.month = 12 ∧ s.day = d) := by
  obtain ⟨k, lo, hi, d, m, a, b, c⟩ := C127_once Libm.cut_good 2026 (by decide) (by decide) "元始天尊圣诞".toList ['冬', '至'] (by decide +kernel)
  have u : ∀ p ∈ sunMonths, p.1 = ['冬', '至'] → p.2 = (12, 16, 25) := by decide +kernel
  obtain ⟨rfl, rfl, rfl⟩ : k = 12 ∧ lo = 16 ∧ hi = 25 := by
    have := u _ m rfl
    simpa using this
  exact ⟨d, a, b, c⟩

/-- 天会 (丙午, number 42) is on 28 November 2026, day 2461373, and not on the day after -/
example : (∃ l fs, Lunar.fromSolar (astro Libm.cut) ⟨2026, 11, 28, 12, 0, 0⟩ = .ok l ∧ (Tao.mk l).getFestivals = .ok fs ∧ ∃ x ∈ fs, x.name = ['天', '会']) ∧
    ∃ l fs, Lunar.fromSolar (astro Libm.cut) ⟨2026, 11, 29, 12, 0, 0⟩ = .ok l ∧ (Tao.mk l).getFestivals = .ok fs ∧ ¬ ∃ x ∈ fs, x.name = ['天', '会'] := by
  have mem : (ganZhi 42, ['天', '会']) ∈ pillarFestivals := by decide +kernel
  constructor
  · obtain ⟨l, e, -⟩ := C84_round_trip Libm.cut_good ⟨2026, 11, 28, 12, 0, 0⟩ (by decide) (by decide) (by decide)
    obtain ⟨fs, hf, h⟩ := C127_sixty Libm.cut_good ['天', '会'] 42 mem ⟨2026, 11, 28, 12, 0, 0⟩ (by decide) (by decide) (by decide) 2461373
      ((isDay_iff (by decide)).2 (by decide)) l e
    exact ⟨l, fs, e, hf, h.2 (by decide)⟩
  · obtain ⟨l, e, -⟩ := C84_round_trip Libm.cut_good ⟨2026, 11, 29, 12, 0, 0⟩ (by decide) (by decide) (by decide)
    obtain ⟨fs, hf, h⟩ := C127_sixty Libm.cut_good ['天', '会'] 42 mem ⟨2026, 11, 29, 12, 0, 0⟩ (by decide) (by decide) (by decide) 2461374
      ((isDay_iff (by decide)).2 (by decide)) l e
    exact ⟨l, fs, e, hf, fun c => absurd (h.1 c) (by decide)⟩

end
