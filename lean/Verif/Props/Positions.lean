import Verif.Model.Texts
import Verif.Props.DayLore
import Verif.Props.LunarYear

/-! # C96: the directions of the gods for lunar years and lunar months -/

section
open Spec LunarUtil Lunar LunarYear

/-- **C96** the directions of a lunar year follow its stem, the place of the great year god its branch; `y - 4` is the number of the
year in the sixty (C60) -/
theorem C96_year (A : Astro) (y : ℤ) :
    (make A y).getGanZhi = .ok (ganZhi (y - 4)) ∧
    Stands (make A y).getPositionXi (make A y).getPositionXiDesc (joy (y - 4)) ∧
    Stands (make A y).getPositionCai (make A y).getPositionCaiDesc (wealth (y - 4)) ∧
    (∀ sect, Stands ((make A y).getPositionFu sect) ((make A y).getPositionFuDesc sect) (if sect = 1 then fortune1 (y - 4) else fortune (y - 4))) ∧
    Stands (make A y).getPositionYangGui (make A y).getPositionYangGuiDesc (nobleDay (y - 4)) ∧
    Stands (make A y).getPositionYinGui (make A y).getPositionYinGuiDesc (nobleDay (nobleMate (y - 4))) ∧
    StandsAt (make A y).getPositionTaiSui (make A y).getPositionTaiSuiDesc (taiSuiYear (y - 4)) := by
  have g := LunarYear.make_ganIndex A y
  have z := LunarYear.make_zhiIndex A y
  refine ⟨?_, stands ?_ rfl, stands ?_ rfl, fun sect => stands ?_ rfl, stands ?_ rfl, stands ?_ rfl, standsAt ?_ rfl (taiSuiYear_mem _)⟩
  · have : (make A y).getGanZhi = pair (make A y).ganIndex (make A y).zhiIndex := rfl
    rw [this]
    exact pair_eq g z
  · unfold LunarYear.getPositionXi; rw [g]; exact xi_num _
  · unfold LunarYear.getPositionCai; rw [g]; exact cai_num _
  · unfold LunarYear.getPositionFu
    rw [g]
    by_cases c : sect = 1
    · rw [if_pos c, if_pos c.symm]; exact fu1_num _
    · rw [if_neg c, if_neg (show ¬ 1 = sect from fun e => c e.symm)]; exact fu_num _
  · unfold LunarYear.getPositionYangGui; rw [g]; exact yang_num _
  · unfold LunarYear.getPositionYinGui; rw [g]; exact yin_num _
  · unfold LunarYear.getPositionTaiSui; rw [z]; exact yearPlace_num _

/-- 甲辰 2024: joy in the northeast, the great year god in the southeast -/
example : (make Sample.astro 2024).getPositionXiDesc = .ok ['东', '北'] ∧ (make Sample.astro 2024).getPositionTaiSuiDesc = .ok ['东', '南'] := by
  decide +kernel

/-- **C96** `LunarYear.next` goes to the year `n` later -/
theorem C96_next (A : Astro) (y n m : ℤ) :
    ((make A y).next A n).year = y + n ∧ ((make A y).next A n).next A m = (make A y).next A (n + m) ∧
    ((make A y).next A n).next A (-n) = make A y := by
  unfold LunarYear.next
  simp only [LunarYear.make_year]
  refine ⟨trivial, ?_, ?_⟩ <;> congr 1 <;> ring

/-- **C96** a lunar date has the same great year god as its lunar year -/
theorem C96_same (A : Astro) (l : Lunar) (h : l.Proper) :
    l.getYearPositionTaiSui 1 = (make A l.year).getPositionTaiSui ∧ l.getYearPositionTaiSuiDesc 1 = (make A l.year).getPositionTaiSuiDesc := by
  have a := C75_year l h 1 (l.year - 4) (by
    rw [if_pos rfl]
    obtain ⟨x, e⟩ : ∃ x, l.jieQi[4]? = some x := ⟨_, List.getElem?_eq_getElem (by rw [h.table.len]; norm_num)⟩
    exact (C34_year_pillars l h.made h.range h.table h.near _ e).1)
  have b := (C96_year A l.year).2.2.2.2.2.2
  exact ⟨a.1.trans b.1.symm, a.2.trans b.2.symm⟩

/-- **C96** the directions of a lunar month follow the stem of its pillar -/
theorem C96_month (A : Astro) (m : LunarMonth) (n : ℤ) (hn : m.getGanZhi A = .ok (ganZhi n)) :
    Stands (m.getPositionXi A) (m.getPositionXiDesc A) (joy n) ∧
    Stands (m.getPositionCai A) (m.getPositionCaiDesc A) (wealth n) ∧
    (∀ sect, Stands (m.getPositionFu A sect) (m.getPositionFuDesc A sect) (if sect = 1 then fortune1 n else fortune n)) ∧
    Stands (m.getPositionYangGui A) (m.getPositionYangGuiDesc A) (nobleDay n) ∧
    Stands (m.getPositionYinGui A) (m.getPositionYinGuiDesc A) (nobleDay (nobleMate n)) := by
  have hp : m.getGanZhi A = pair (m.getGanIndex A) m.zhiIndex := rfl
  rw [hp] at hn
  have g := (pair_bounds (by unfold LunarMonth.getGanIndex; dsimp only; omega) (by unfold LunarMonth.getGanIndex; dsimp only; omega)
    (by unfold LunarMonth.zhiIndex; omega) (by unfold LunarMonth.zhiIndex; omega) hn).1
  refine ⟨stands ?_ rfl, stands ?_ rfl, fun sect => stands ?_ rfl, stands ?_ rfl, stands ?_ rfl⟩
  · unfold LunarMonth.getPositionXi; rw [g]; exact xi_num _
  · unfold LunarMonth.getPositionCai; rw [g]; exact cai_num _
  · unfold LunarMonth.getPositionFu
    rw [g]
    by_cases c : sect = 1
    · rw [if_pos c, if_pos c.symm]; exact fu1_num _
    · rw [if_neg c, if_neg (show ¬ 1 = sect from fun e => c e.symm)]; exact fu_num _
  · unfold LunarMonth.getPositionYangGui; rw [g]; exact yang_num _
  · unfold LunarMonth.getPositionYinGui; rw [g]; exact yin_num _

/-- **C96** the great year god of a lunar month other than the second, sixth and tenth (for these see C97): that of the month
with the pillar due to its number, for leap months as for the others -/
theorem C96_month_place (A : Astro) (m : LunarMonth) (h : |m.month| % 4 ≠ 2) :
    StandsAt (m.getPositionTaiSui A) (m.getPositionTaiSuiDesc A) (taiSuiMonth (12 * (m.year - 4) + 1 + |m.month|)) := by
  have key : ∀ c : Char, taiSuiMonth (12 * (m.year - 4) + 1 + |m.month|) = c → m.getPositionTaiSui A = .ok [c] → c ∈ '中' :: trigrams →
      StandsAt (m.getPositionTaiSui A) (m.getPositionTaiSuiDesc A) (taiSuiMonth (12 * (m.year - 4) + 1 + |m.month|)) := by
    intro c e e' h
    rw [e]
    exact standsAt e' rfl h
  unfold LunarMonth.getPositionTaiSui at key ⊢
  unfold taiSuiMonth at key ⊢
  rcases (by omega : |m.month| % 4 = 0 ∨ |m.month| % 4 = 1 ∨ |m.month| % 4 = 3) with c | c | c
  · refine key '巽' ?_ ?_ (by decide)
    · rw [if_neg (by omega), if_neg (by omega), if_pos (by omega)]
    · simp only [c]; rfl
  · refine key '艮' ?_ ?_ (by decide)
    · rw [if_pos (by omega)]
    · simp only [c]; rfl
  · refine key '坤' ?_ ?_ (by decide)
    · rw [if_neg (by omega), if_pos (by omega)]
    · simp only [c]; rfl

/-- the first month of 2024, 丙寅 -/
example : ∃ m ∈ (make Sample.astro 2024).months, m.month = 1 ∧ m.getGanZhi Sample.astro = .ok (ganZhi 2) ∧
    m.getPositionXi Sample.astro = .ok ['坤'] ∧ m.getPositionTaiSui Sample.astro = .ok ['艮'] := by
  decide +kernel

end
