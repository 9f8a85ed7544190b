import Verif.Props.DayLore
import Verif.Props.MonthLength
import Verif.Props.MoonAge
import Verif.Props.NewYear

/-! # C125: the name of the phase tells how much of the moon is lit

`getYueXiang` names the phase by the day of the lunar month alone.  By C119 the day is the age of the moon, so the names are true of the moon as the series of the
library have it. -/

section
open Spec ShouXing LunarUtil

variable {M : Libm}

/-- the part of the disc of the moon that is lit, by its distance from the sun in longitude (its latitude, of five degrees at most, is left out) -/
noncomputable def Spec.lit (t : ℝ) : ℝ := (1 - Real.cos (elongation t)) / 2

/-- names and the first and last of their days -/
private def names : List (List PyStr × ℤ × ℤ) :=
  [([['朔'], ['既', '朔'], ['蛾', '眉', '新'], ['蛾', '眉']], 1, 5), ([['残'], ['晓'], ['晦']], 28, 30), ([['朔']], 1, 1), ([['晦']], 30, 30),
   ([['渐', '盈', '凸'], ['小', '望'], ['望'], ['既', '望'], ['立', '待'], ['居', '待'], ['寝', '待'], ['更', '待']], 13, 20),
   ([['小', '望'], ['望'], ['既', '望']], 14, 16), ([['上', '弦']], 7, 8), ([['下', '弦']], 22, 23),
   ([['蛾', '眉'], ['夕'], ['上', '弦'], ['九', '夜'], ['宵']], 4, 12),
   ([['寝', '待'], ['更', '待'], ['渐', '亏', '凸'], ['下', '弦'], ['有', '明'], ['蛾', '眉', '残']], 19, 27)]

private theorem names_ok : ∀ p ∈ names, ∀ i ∈ List.range 30, ∃ w ∈ YUE_XIANG, pyIndex YUE_XIANG ((i : ℤ) + 1) = .ok w ∧
    (w ∈ p.1 → p.2.1 ≤ (i : ℤ) + 1 ∧ (i : ℤ) + 1 ≤ p.2.2) := by
  decide +kernel

private theorem days {l : Lunar} (h : 1 ≤ l.day ∧ l.day ≤ 30) {w : PyStr} (hw : l.getYueXiang = .ok w) (p : List PyStr × ℤ × ℤ) (hp : p ∈ names)
    (h' : w ∈ p.1) : (p.2.1 : ℝ) ≤ l.day ∧ (l.day : ℝ) ≤ p.2.2 := by
  unfold Lunar.getYueXiang at hw
  generalize l.day = d at *
  obtain ⟨s, -, e, k⟩ := names_ok p hp (d - 1).toNat (by rw [List.mem_range]; omega)
  rw [show ((d - 1).toNat : ℤ) + 1 = d by omega] at e k
  rw [hw] at e
  cases e
  exact ⟨by exact_mod_cast (k h').1, by exact_mod_cast (k h').2⟩

/-- the cosine near 0, and near a half turn -/
private theorem cos_near {E r : ℝ} (h1 : -r ≤ E) (h2 : E ≤ r) : 1 - r ^ 2 / 2 ≤ Real.cos E := by
  have := Real.one_sub_sq_div_two_le_cos (x := E)
  have : E ^ 2 ≤ r ^ 2 := sq_le_sq' h1 h2
  linarith

/-- **C125** at every moment of a day named so: of the crescents (朔 to 蛾眉, 残 to 晦) less than half of the moon is lit, of the days 渐盈凸 to 更待 more than half;
at 朔 and 晦 at most an eighth and a bit (0.14), from 小望 to 既望 at least 0.74; at 上弦 the moon is east of the sun and at 下弦 west of it, by 34° or more from being
at it or opposite; from 蛾眉 to 宵 it is waxing, from 寝待 to 蛾眉残 waning -/
theorem C125_names (hM : M.Good) (s : Solar) (hs : s.Valid) (h1 : 1961 ≤ s.year) (h2 : s.year ≤ 4980) (l : Lunar)
    (hl : Lunar.fromSolar (astro M) s = .ok l) (w : PyStr) (hw : l.getYueXiang = .ok w) :
    ∃ x : Fl M, ∀ δ t : ℝ, |δ - (dtT x : Fl M).v| ≤ 0.01 → Instant s δ t → |(x.v : ℝ) - 36525 * t| ≤ 33 ∧
      (w ∈ [['朔'], ['既', '朔'], ['蛾', '眉', '新'], ['蛾', '眉'], ['残'], ['晓'], ['晦']] → lit t < 1 / 2) ∧
      (w ∈ [['渐', '盈', '凸'], ['小', '望'], ['望'], ['既', '望'], ['立', '待'], ['居', '待'], ['寝', '待'], ['更', '待']] → 1 / 2 < lit t) ∧
      (w ∈ [['朔'], ['晦']] → lit t ≤ 0.14) ∧
      (w ∈ [['小', '望'], ['望'], ['既', '望']] → 0.74 ≤ lit t) ∧
      (w = ['上', '弦'] → 0.57 ≤ Real.sin (elongation t)) ∧
      (w = ['下', '弦'] → Real.sin (elongation t) ≤ -0.61) ∧
      (w ∈ [['蛾', '眉'], ['夕'], ['上', '弦'], ['九', '夜'], ['宵']] → 0 < Real.sin (elongation t)) ∧
      (w ∈ [['寝', '待'], ['更', '待'], ['渐', '亏', '凸'], ['下', '弦'], ['有', '明'], ['蛾', '眉', '残']] → Real.sin (elongation t) < 0) := by
  obtain ⟨l', lm, e, -, a, b, c⟩ := C86_day hM s hs (by omega) (by omega)
  rw [hl] at e
  cases e
  have dd := days (l := l) ⟨a, by omega⟩ hw
  clear a b c hw
  obtain ⟨k, x, h⟩ := C119_age hM s hs h1 h2 l hl
  refine ⟨x, fun δ t hδ ht => ?_⟩
  obtain ⟨a, b, c⟩ := h δ t hδ ht
  have p1 := Real.pi_gt_d4
  have p2 := Real.pi_lt_d4
  unfold lit
  obtain ⟨E, hE⟩ : ∃ E, E = elongation t - k * (2 * Real.pi) := ⟨_, rfl⟩
  rw [← Real.cos_sub_int_mul_two_pi (elongation t) k, ← Real.sin_sub_int_mul_two_pi (elongation t) k]
  rw [← hE] at b c ⊢
  clear h hE ht hδ hl hs h1 h2
  refine ⟨a, fun d => ?_, fun d => ?_, fun d => ?_, fun d => ?_, fun d => ?_, fun d => ?_, fun d => ?_, fun d => ?_⟩
  · have : 0 < Real.cos E := by
      have d : w ∈ [['朔'], ['既', '朔'], ['蛾', '眉', '新'], ['蛾', '眉']] ∨ w ∈ [['残'], ['晓'], ['晦']] := by
        rw [← List.mem_append]; exact d
      rcases d with d | d
      · obtain ⟨d1, d2⟩ := dd (_, 1, 5) (by decide) d
        push_cast at d1 d2
        exact Real.cos_pos_of_mem_Ioo ⟨by linarith, by linarith⟩
      · obtain ⟨d1, d2⟩ := dd (_, 28, 30) (by decide) d
        push_cast at d1 d2
        rw [← Real.cos_sub_two_pi]
        exact Real.cos_pos_of_mem_Ioo ⟨by linarith, by linarith⟩
    linarith
  · obtain ⟨d1, d2⟩ := dd (_, 13, 20) (by decide) d
    push_cast at d1 d2
    have := Real.cos_neg_of_pi_div_two_lt_of_lt (x := E) (by linarith) (by linarith)
    linarith
  · have : 0.72 ≤ Real.cos E := by
      have d : w ∈ [['朔']] ∨ w ∈ [['晦']] := by rw [← List.mem_append]; exact d
      rcases d with d | d
      · obtain ⟨d1, d2⟩ := dd (_, 1, 1) (by decide) d
        push_cast at d1 d2
        have := cos_near (E := E) (r := 0.64) (by linarith) (by linarith)
        linarith
      · obtain ⟨d1, d2⟩ := dd (_, 30, 30) (by decide) d
        push_cast at d1 d2
        rw [← Real.cos_sub_two_pi]
        have := cos_near (E := E - 2 * Real.pi) (r := 0.748) (by linarith) (by linarith)
        linarith
    linarith
  · obtain ⟨d1, d2⟩ := dd (_, 14, 16) (by decide) d
    push_cast at d1 d2
    have := cos_near (E := E - Real.pi) (r := 1.01) (by linarith) (by linarith)
    rw [Real.cos_sub_pi] at this
    linarith
  · obtain ⟨d1, d2⟩ := dd (_, 7, 8) (by decide) (List.mem_singleton.2 d)
    push_cast at d1 d2
    have := cos_near (E := E - Real.pi / 2) (r := 0.927) (by linarith) (by linarith)
    rw [Real.cos_sub_pi_div_two] at this
    linarith
  · obtain ⟨d1, d2⟩ := dd (_, 22, 23) (by decide) (List.mem_singleton.2 d)
    push_cast at d1 d2
    have := cos_near (E := E - Real.pi - Real.pi / 2) (r := 0.8775) (by linarith) (by linarith)
    rw [Real.cos_sub_pi_div_two, Real.sin_sub_pi] at this
    linarith
  · obtain ⟨d1, d2⟩ := dd (_, 4, 12) (by decide) d
    push_cast at d1 d2
    exact Real.sin_pos_of_pos_of_lt_pi (by linarith) (by linarith)
  · obtain ⟨d1, d2⟩ := dd (_, 19, 27) (by decide) d
    push_cast at d1 d2
    have := Real.sin_pos_of_pos_of_lt_pi (x := E - Real.pi) (by linarith) (by linarith)
    rw [Real.sin_sub_pi] at this
    linarith

/-- **C125** every moment has a name -/
theorem C125_named (hM : M.Good) (s : Solar) (hs : s.Valid) (h1 : 1584 < s.year) (h2 : s.year ≤ 5000) :
    ∃ l w, Lunar.fromSolar (astro M) s = .ok l ∧ l.getYueXiang = .ok w ∧ w ≠ [] := by
  obtain ⟨l, lm, e, -, a, b, c⟩ := C86_day hM s hs h1 h2
  have key : ∀ i ∈ List.range 30, ∃ w ∈ YUE_XIANG, pyIndex YUE_XIANG ((i : ℤ) + 1) = .ok w ∧ w ≠ [] := by decide +kernel
  obtain ⟨w, -, k⟩ := key (l.day - 1).toNat (by rw [List.mem_range]; omega)
  rw [show ((l.day - 1).toNat : ℤ) + 1 = l.day by omega] at k
  exact ⟨l, w, e, k⟩

/-- the moon on New Year's day of 2049 -/
example : ∃ l t, Lunar.fromYmd (astro Libm.cut) 2049 1 1 = .ok l ∧ l.getYueXiang = .ok ['朔'] ∧ lit t ≤ 0.14 ∧
    ∃ x : Fl Libm.cut, |(x.v : ℝ) - 36525 * t| ≤ 33 ∧ Instant l.solar (dtT x : Fl Libm.cut).v t := by
  obtain ⟨l, e, v, f, y, -⟩ := C92_exists Libm.cut_good 2049 (by norm_num) (by norm_num)
  have d := (C39_round_trip (C84_almanac Libm.cut_good).choose 2049 1 1 0 0 0 l (by norm_num) (by norm_num) e).1
  have d : l.day = 1 := by simp only [Prod.mk.injEq] at d; exact d.2.2.1
  have w : l.getYueXiang = .ok ['朔'] := by unfold Lunar.getYueXiang; rw [d]; rfl
  obtain ⟨x, h⟩ := C125_names Libm.cut_good l.solar v (by omega) (by omega) l f _ w
  obtain ⟨t, ht⟩ : ∃ t, Instant l.solar (dtT x : Fl Libm.cut).v t :=
    ⟨((86400 * ((JD.jdn l.solar.date : ℤ) - 2451545) + l.solar.hour * 3600 + l.solar.minute * 60 + l.solar.second - 43200 : ℝ) / 86400 +
      (dtT x : Fl Libm.cut).v - 1 / 3) / 36525, JD.jdn l.solar.date, (isDay_iff v.1).2 rfl, by ring⟩
  obtain ⟨a, -, -, b, -⟩ := h _ t (by rw [sub_self, abs_zero]; norm_num) ht
  exact ⟨l, t, e, w, b (by decide), x, a, ht⟩

end
