import Verif.Props.DailyCycles
import Verif.Props.NineStar

/-! # C106: the nine stars by the civil date -/

section
open Spec ShouXing Lunar Solar

variable {M : Libm}

private theorem month_star {y m : ℤ} {Y k : ℤ} (hy : y = (if k = 0 ∨ k = 1 then Y - 5 else Y - 4) % 12) (hm : m = (12 * (Y - 4) + k) % 12)
    (k1 : 0 ≤ k) (k2 : k ≤ 12) : monthNineStar y m = ⟨-(12 * (Y - 4) + k) % 9⟩ := by
  unfold monthNineStar LunarUtil.BASE_MONTH_ZHI_INDEX
  dsimp only
  congr 1
  split_ifs at * <;> omega

/-- **C106** every month `k` of a year `Y` has a day `dj`, the day `getJie` names, on which the star of the month goes back by one: from it on the
star is `-(12 (Y - 4) + k)` mod 9, before it one more.  The star of the year, also counted back, changes on that day
of February. -/
theorem C106_month (hM : M.Good) (Y k : ℤ) (h1 : 1584 < Y) (h2 : Y < 6890) (k1 : 1 ≤ k) (k2 : k ≤ 12) :
    ∃ dj : ℤ, 1 ≤ dj ∧ dj ≤ 10 ∧
      ∀ s : Solar, s.Valid → s.year = Y → s.month = k → ∀ l, Lunar.fromSolar (astro M) s = .ok l →
        l.getJie = .ok (if s.day = dj then termName (2 * k.toNat) else []) ∧
        ∀ sect, sect ≠ 1 → sect ≠ 3 →
          l.getMonthNineStar sect = ⟨-(if s.day < dj then 12 * (Y - 4) + k - 1 else 12 * (Y - 4) + k) % 9⟩ ∧
          l.getYearNineStar sect = .ok ⟨(1 - if k = 1 ∨ k = 2 ∧ s.day < dj then Y - 1 else Y) % 9⟩ := by
  obtain ⟨dj, d1, d2, c⟩ := C104_month hM Y k h1 h2 k1 k2
  refine ⟨dj, d1, d2, fun s hs hY hk l hl => ?_⟩
  obtain ⟨a, b, -, -, e⟩ := c s hs hY hk l hl
  obtain ⟨f1, P, -, -, t⟩ := Ephem.made hM hs (by omega) (by omega) hl
  refine ⟨a, fun sect n1 n3 => ⟨?_, ?_⟩⟩
  · obtain ⟨y, yl, ye, m, me, d, de, ti, N⟩ := P.numbers
    have my := (pair_bounds (by rw [N.ylg]; omega) (by rw [N.ylg]; omega) (by rw [N.ylz]; omega) (by rw [N.ylz]; omega) e).2
    have mm := (P.month b).2
    unfold getMonthNineStar
    rw [if_neg (Ne.symm n1), if_neg (Ne.symm n3)]
    by_cases c : s.day < dj
    · simp only [c, and_true, if_true] at my mm ⊢
      rw [add_sub_assoc] at mm ⊢
      exact month_star (k := k - 1) (my.trans (by congr 2; simp only [eq_iff_iff]; omega)) mm (by omega) (by omega)
    · simp only [c, and_false, or_false, if_false] at my mm ⊢
      exact month_star (my.trans (by congr 2; simp only [eq_iff_iff]; omega)) mm (by omega) k2
  · have vl := P.table.valid _ (List.mem_of_getElem? (t 4 (by norm_num)))
    obtain ⟨-, l1, l2, -⟩ := C34_year_pillars l P.made P.range P.table P.near _ (t 4 (by norm_num))
    obtain ⟨-, -, -, s2⟩ := C48_year P _ (t 4 (by norm_num))
    obtain ⟨s3, s4⟩ := s2 sect n1 n3
    rw [f1, hY] at *
    have ne : ∀ n : ℤ, ganZhi n ≠ ganZhi (n - 1) := by
      intro n h
      have := stem_inj (List.cons.inj h).1
      omega
    rcases lt_or_ge (Cal.dn s.date) (Cal.dn (Ephem.moment (Ephem.full hM) (24 * (Y - 2000) + 17 + (4 : ℕ))).date) with g | g
    · have g' := (dayBefore_iff hs vl).2 g
      rw [s4 g']
      rw [l2 g'] at e
      split_ifs at e ⊢ with c
      · rfl
      · refine absurd (Except.ok.inj e).symm ?_
        rw [show Y - 1 - 4 = Y - 4 - 1 by ring]
        exact ne _
    · have g' := (dayAtOrBefore_iff vl hs).2 g
      rw [s3 g']
      rw [l1 g'] at e
      split_ifs at e ⊢ with c
      · refine absurd (Except.ok.inj e) ?_
        rw [show Y - 5 = Y - 4 - 1 by ring]
        exact ne _
      · rfl

/-- **C106** the stars of the double-hours go up to the day of 夏至 (a day of June from 16 to 25) and from the day of 冬至 (in December) on, between them
down; `d` and `t` are the numbers of the pillars of day and hour. -/
theorem C106_time (hM : M.Good) (Y : ℤ) (h1 : 1584 < Y) (h2 : Y < 6890) :
    ∃ x z : ℤ, 16 ≤ x ∧ x ≤ 25 ∧ 16 ≤ z ∧ z ≤ 25 ∧
      ∀ s : Solar, s.Valid → s.year = Y → ∀ l, Lunar.fromSolar (astro M) s = .ok l → ∀ d t, l.getDayInGanZhi = .ok (ganZhi d) →
        l.getTimeInGanZhi = .ok (ganZhi t) →
        (s.month = 6 → s.day = x → l.getQi = .ok ['夏', '至']) ∧ (s.month = 12 → s.day = z → l.getQi = .ok ['冬', '至']) ∧
        l.getTimeNineStar = .ok ⟨(if s.month < 6 ∨ s.month = 6 ∧ s.day < x ∨ s.month = 12 ∧ z ≤ s.day then 3 * d + t % 12 else 8 - (3 * d + t % 12)) % 9⟩ := by
  obtain ⟨-, -, x1, x2, jx⟩ := month_terms hM Y 6 h1 h2 (by norm_num) (by norm_num) _ _ rfl rfl
  obtain ⟨-, -, z1, z2, jz⟩ := month_terms hM Y 12 h1 h2 (by norm_num) (by norm_num) _ _ rfl rfl
  refine ⟨_, _, x1, x2, z1, z2, fun s hs hY l hl d ti hd ht => ⟨fun hm h => ?_, fun hm h => ?_, ?_⟩⟩
  · obtain ⟨-, a, -⟩ := jx s hs hY hm l hl
    rw [if_pos h] at a
    exact a
  · obtain ⟨-, a, -⟩ := jz s hs hY hm l hl
    rw [if_pos h] at a
    exact a
  · obtain ⟨f1, P, -, -, t⟩ := Ephem.made hM hs (by omega) (by omega) hl
    obtain ⟨-, -, ay, am, -⟩ := Ephem.possible_date hM (Y := Y) h1.le h2.le (i := 13) (by norm_num) (by norm_num)
    obtain ⟨-, -, bym, bm, -⟩ := Ephem.possible_date hM (Y := Y) h1.le h2.le (i := 25) (by norm_num) (by norm_num)
    obtain ⟨-, -, cy, -⟩ := Ephem.possible_date hM (Y := Y - 1) (by omega) (by omega) (i := 25) (by norm_num) (by norm_num)
    rw [show 24 * (Y - 1 - 2000) + 17 + ((25 : ℕ) : ℤ) = 24 * (Y - 2000) + 17 + ((1 : ℕ) : ℤ) by push_cast; ring] at cy
    obtain ⟨u, v⟩ := C48_time P _ _ _ (t 1 (by norm_num)) (t 13 (by norm_num)) (t 25 (by norm_num))
    have v1 := P.table.valid _ (List.mem_of_getElem? (t 1 (by norm_num)))
    have v2 := P.table.valid _ (List.mem_of_getElem? (t 13 (by norm_num)))
    have v3 := P.table.valid _ (List.mem_of_getElem? (t 25 (by norm_num)))
    rw [(P.day hd).2, (P.time ht).2, f1, dayAtOrBefore_iff v1 hs, dayBefore_iff hs v2, dayAtOrBefore_iff v3 hs] at u v
    rw [hY] at u v v1 v2 v3
    have mo := hs.1.1
    have mo' := hs.1.2.1
    simp only [Solar.date] at mo mo'
    have g1 : Cal.dn (Ephem.moment (Ephem.full hM) (24 * (Y - 2000) + 17 + (1 : ℕ))).date ≤ Cal.dn s.date :=
      (Cal.dayNo_lt v1.1 hs.1 (.inl (by simp only [Solar.date]; omega))).le
    have g2 : Cal.dn s.date < Cal.dn (Ephem.moment (Ephem.full hM) (24 * (Y - 2000) + 17 + (13 : ℕ))).date ↔
        s.month < 6 ∨ s.month = 6 ∧ s.day < (Ephem.moment (Ephem.full hM) (24 * (Y - 2000) + 17 + (13 : ℕ))).day := by
      rw [Cal.dayNo_lt_iff hs.1 v2.1]
      simp only [Cal.DateLt, Solar.date]
      omega
    have g3 : Cal.dn (Ephem.moment (Ephem.full hM) (24 * (Y - 2000) + 17 + (25 : ℕ))).date ≤ Cal.dn s.date ↔
        s.month = 12 ∧ (Ephem.moment (Ephem.full hM) (24 * (Y - 2000) + 17 + (25 : ℕ))).day ≤ s.day := by
      rw [← not_lt, Cal.dayNo_lt_iff hs.1 v3.1]
      simp only [Cal.DateLt, Solar.date]
      omega
    rw [g2, g3] at u v
    simp only [g1, true_and] at u v
    change _ = Except.ok (NineStar.mk ((if s.month < 6 ∨ s.month = 6 ∧ s.day < (Ephem.moment (Ephem.full hM) (24 * (Y - 2000) + 17 + (13 : ℕ))).day ∨
      s.month = 12 ∧ (Ephem.moment (Ephem.full hM) (24 * (Y - 2000) + 17 + (25 : ℕ))).day ≤ s.day then _ else _) % 9))
    simp only [or_assoc] at u v
    split_ifs with c
    · rw [u c]
      congr 2
      omega
    · rw [v c]
      congr 2
      omega

/-- the stars of 2026-07-25: the month's is the third (三碧), the year's the first (一白) -/
example : ∃ l, Lunar.fromSolar (astro Libm.cut) ⟨2026, 7, 25, 8, 0, 0⟩ = .ok l ∧ l.getMonthNineStar = ⟨2⟩ ∧ l.getYearNineStar = .ok ⟨0⟩ := by
  obtain ⟨l, e, -⟩ := C84_round_trip Libm.cut_good ⟨2026, 7, 25, 8, 0, 0⟩ (by decide) (by decide) (by decide)
  obtain ⟨dj, -, d2, c⟩ := C106_month Libm.cut_good 2026 7 (by decide) (by decide) (by decide) (by decide)
  obtain ⟨-, b⟩ := c ⟨2026, 7, 25, 8, 0, 0⟩ (by decide) rfl rfl l e
  obtain ⟨b1, b2⟩ := b 2 (by decide) (by decide)
  have n : ¬ (25 : ℤ) < dj := by omega
  simp only [n, if_false, and_false, or_false] at b1 b2
  exact ⟨l, e, b1.trans (by decide), b2.trans (by decide)⟩

/-- on 2026-07-25 the stars of the hours go down -/
example : ∃ l d t, Lunar.fromSolar (astro Libm.cut) ⟨2026, 7, 25, 8, 0, 0⟩ = .ok l ∧ l.getDayInGanZhi = .ok (ganZhi d) ∧ l.getTimeInGanZhi = .ok (ganZhi t) ∧
    l.getTimeNineStar = .ok ⟨(8 - (3 * d + t % 12)) % 9⟩ := by
  obtain ⟨l, e, -⟩ := C84_round_trip Libm.cut_good ⟨2026, 7, 25, 8, 0, 0⟩ (by decide) (by decide) (by decide)
  obtain ⟨-, P, -⟩ := Ephem.made Libm.cut_good (by decide) (by decide) (by decide) e
  have hp := C36_pillars l P.made P.range P.table P.near
  obtain ⟨d, hd⟩ := hp l.getDayInGanZhi (by simp)
  obtain ⟨t, ht⟩ := hp l.getTimeInGanZhi (by simp)
  obtain ⟨x, z, -, -, -, -, c⟩ := C106_time Libm.cut_good 2026 (by decide) (by decide)
  obtain ⟨-, -, h⟩ := c ⟨2026, 7, 25, 8, 0, 0⟩ (by decide) rfl l e d t hd ht
  simp at h
  exact ⟨l, d, t, e, hd, ht, h⟩

end
