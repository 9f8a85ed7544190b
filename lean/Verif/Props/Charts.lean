import Verif.Props.Library
import Verif.Props.LunarTime

/-! # C99: stems and branches, the text of a chart, the double-hour of a date -/

section
open Spec Lunar LunarUtil ShouXing

/-- a stem and a branch together are a pillar: its first and its second character -/
private def Parts (pillar gan zhi : Except PyErr PyStr) : Prop :=
  ∀ a b : Char, pillar = .ok [a, b] → gan = .ok [a] ∧ zhi = .ok [b]

private theorem mem_index {α : Type} {T : List α} {i : ℤ} {x : α} (h : pyIndex T i = .ok x) : x ∈ T := by
  unfold pyIndex at h
  split at h
  all_goals
    dsimp only at h
    split at h
    · cases h
    · split at h
      · next e => cases h; exact List.mem_of_getElem? e
      · cases h

private theorem parts (g z : ℤ) : Parts (pair g z) (pyIndex GAN (g + 1)) (pyIndex ZHI (z + 1)) := by
  intro a b h
  unfold pair at h
  cases hg : pyIndex GAN (g + 1) with
  | error e => rw [hg] at h; cases h
  | ok x =>
    cases hz : pyIndex ZHI (z + 1) with
    | error e => rw [hg, hz] at h; cases h
    | ok y =>
      rw [hg, hz] at h
      replace h : x ++ y = [a, b] := by simpa [bind, Except.bind, pure, Except.pure] using h
      have lx : x.length ≤ 1 := (by decide : ∀ x ∈ GAN, x.length ≤ 1) x (mem_index hg)
      have ly : y.length ≤ 1 := (by decide : ∀ y ∈ ZHI, y.length ≤ 1) y (mem_index hz)
      match x, y, lx, ly, h with
      | [], [], _, _, h => cases h
      | [], [_], _, _, h => cases h
      | [_], [], _, _, h => cases h
      | [_], [_], _, _, h => cases h; exact ⟨rfl, rfl⟩

/-- **C99** for the pillars of a date in every convention the stem and the branch are the two characters of the pillar -/
theorem C99_parts (l : Lunar) (a b : Char) :
    (l.getYearInGanZhi = .ok [a, b] → l.getYearGan = .ok [a] ∧ l.getYearZhi = .ok [b]) ∧
    (l.getYearInGanZhiByLiChun = .ok [a, b] → l.getYearGanByLiChun = .ok [a] ∧ l.getYearZhiByLiChun = .ok [b]) ∧
    (l.getYearInGanZhiExact = .ok [a, b] → l.getYearGanExact = .ok [a] ∧ l.getYearZhiExact = .ok [b]) ∧
    (l.getMonthInGanZhi = .ok [a, b] → l.getMonthGan = .ok [a] ∧ l.getMonthZhi = .ok [b]) ∧
    (l.getMonthInGanZhiExact = .ok [a, b] → l.getMonthGanExact = .ok [a] ∧ l.getMonthZhiExact = .ok [b]) ∧
    (l.getDayInGanZhi = .ok [a, b] → l.getDayGan = .ok [a] ∧ l.getDayZhi = .ok [b]) ∧
    (l.getDayInGanZhiExact = .ok [a, b] → l.getDayGanExact = .ok [a] ∧ l.getDayZhiExact = .ok [b]) ∧
    (l.getDayInGanZhiExact2 = .ok [a, b] → l.getDayGanExact2 = .ok [a] ∧ l.getDayZhiExact2 = .ok [b]) ∧
    (l.getTimeInGanZhi = .ok [a, b] → l.getTimeGan = .ok [a] ∧ l.getTimeZhi = .ok [b]) :=
  ⟨parts _ _ a b, parts _ _ a b, parts _ _ a b, parts _ _ a b, parts _ _ a b, parts _ _ a b, parts _ _ a b, parts _ _ a b,
    parts _ _ a b⟩

/-- **C99** and so for the pillars of a chart, whatever its convention for late nights -/
theorem C99_chart_parts (e : EightChar) (p : Pos) (a b : Char) (h : e.get p = .ok [a, b]) :
    e.getGan p = .ok [a] ∧ e.getZhi p = .ok [b] := by
  cases p with
  | year => exact parts _ _ a b h
  | month => exact parts _ _ a b h
  | time => exact parts _ _ a b h
  | day =>
    unfold EightChar.getGan EightChar.getZhi EightChar.ganIndex EightChar.zhiIndex EightChar.getDayGanIndex EightChar.getDayZhiIndex
    dsimp only
    unfold EightChar.get at h
    dsimp only at h
    by_cases c : 2 = e.sect
    · rw [if_pos c] at h ⊢
      rw [if_pos c]
      exact parts _ _ a b h
    · rw [if_neg c] at h ⊢
      rw [if_neg c]
      exact parts _ _ a b h

/-- 2024-02-04 23:30: the day before and after the change of the day at 23:00 -/
example : sample.getDayInGanZhiExact = .ok ['己', '亥'] ∧ sample.getDayGanExact = .ok ['己'] ∧ sample.getDayZhiExact2 = .ok ['戌'] :=
  ⟨by decide +kernel, ((C99_parts sample '己' '亥').2.2.2.2.2.2.1 (by decide +kernel)).1,
    ((C99_parts sample '戊' '戌').2.2.2.2.2.2.2.1 (by decide +kernel)).2⟩

private theorem text {e : EightChar} (h : e.lunar.Proper) : ∃ y m d t, e.get .year = .ok (ganZhi y) ∧ e.get .month = .ok (ganZhi m) ∧
    e.get .day = .ok (ganZhi d) ∧ e.get .time = .ok (ganZhi t) ∧
    e.toString = .ok (ganZhi y ++ ' ' :: ganZhi m ++ ' ' :: ganZhi d ++ ' ' :: ganZhi t) := by
  obtain ⟨y, hy⟩ := EightChar.exists_at h .year
  obtain ⟨m, hm⟩ := EightChar.exists_at h .month
  obtain ⟨d, hd⟩ := EightChar.exists_at h .day
  obtain ⟨t, ht⟩ := EightChar.exists_at h .time
  refine ⟨y, m, d, t, hy.get, hm.get, hd.get, ht.get, ?_⟩
  unfold EightChar.toString
  rw [hy.get, hm.get, hd.get, ht.get]
  rfl

/-- **C99** the text of a chart can be made, and two charts have the same text exactly when all their four pillars are the same -/
theorem C99_text (e e' : EightChar) (h : e.lunar.Proper) (h' : e'.lunar.Proper) :
    (∃ w, e.toString = .ok w ∧ w.length = 11) ∧ (e.toString = e'.toString ↔ ∀ p, e.get p = e'.get p) := by
  obtain ⟨y, m, d, t, a1, a2, a3, a4, a5⟩ := text h
  obtain ⟨y', m', d', t', b1, b2, b3, b4, b5⟩ := text h'
  refine ⟨⟨_, a5, rfl⟩, ?_, ?_⟩
  · intro w
    rw [a5, b5, Except.ok.injEq] at w
    simp only [ganZhi, List.cons_append, List.nil_append, List.cons.injEq, and_true, true_and] at w
    intro p
    obtain ⟨w1, w2, w3, w4, w5, w6, w7, w8⟩ := w
    cases p
    · rw [a1, b1]; unfold ganZhi; rw [w1, w2]
    · rw [a2, b2]; unfold ganZhi; rw [w3, w4]
    · rw [a3, b3]; unfold ganZhi; rw [w5, w6]
    · rw [a4, b4]; unfold ganZhi; rw [w7, w8]
  · intro w
    unfold EightChar.toString
    rw [w, w, w, w]

/-- **C99** changing the convention for late nights leaves year, month and hour alone; it changes the text exactly from 23:00
to 24:00, when convention 1 takes the day pillar after that of convention 2 -/
theorem C99_sect (e : EightChar) (h : e.lunar.Proper) :
    (∀ s p, p ≠ .day → (e.setSect s).get p = e.get p) ∧ (∀ s, (e.setSect s).lunar = e.lunar) ∧
    ((e.setSect 1).toString = (e.setSect 2).toString ↔ e.lunar.hour ≠ 23) ∧
    ∃ k, (e.setSect 2).get .day = .ok (ganZhi k) ∧
      (e.setSect 1).get .day = .ok (ganZhi (if e.lunar.hour = 23 then k + 1 else k)) := by
  obtain ⟨q1, k, q2, q3, q4⟩ := C32_late_night e.lunar h.made (by have := h.range; omega) h.range.2
  have e1 : (e.setSect 1).get .day = e.lunar.getDayInGanZhiExact := rfl
  have e2 : (e.setSect 2).get .day = e.lunar.getDayInGanZhiExact2 := rfl
  have o : ∀ s p, p ≠ Pos.day → (e.setSect s).get p = e.get p := by
    intro s p hp
    cases p with
    | day => exact absurd rfl hp
    | _ => rfl
  refine ⟨o, fun _ => rfl, ?_, k, by rw [e2, q1, q2], by rw [e1, q3]⟩
  rw [(C99_text (e.setSect 1) (e.setSect 2) h h).2, ← q4, ← e1, ← q1, ← e2]
  constructor
  · exact fun w => w _
  · intro w p
    by_cases hp : p = .day
    · rw [hp]; exact w
    · rw [o 1 p hp, o 2 p hp]

/-- 2024-02-04 23:30 in the two conventions -/
example : ((EightChar.fromLunar sample).setSect 1).toString = .ok ['甲', '辰', ' ', '丙', '寅', ' ', '己', '亥', ' ', '甲', '子'] ∧
    ((EightChar.fromLunar sample).setSect 2).toString = .ok ['甲', '辰', ' ', '丙', '寅', ' ', '戊', '戌', ' ', '甲', '子'] := by
  decide +kernel

/-- **C99** `LunarUtil.convertTime`: the branch of a time of day `HH:MM`, 子 from 23:00 to 00:59 and two hours each for the others -/
theorem C99_convert_time (h m : ℤ) (h0 : 0 ≤ h) (h1 : h ≤ 23) (m0 : 0 ≤ m) (m1 : m ≤ 59) :
    convertTime (fmtD 2 h ++ [':'] ++ fmtD 2 m) = .ok [branch ((h + 1) / 2)] := by
  obtain ⟨a, b, c⟩ := C33_time_index h m h0 h1 m0 m1
  unfold convertTime
  rw [zhi_index a (by omega)]
  congr 2
  unfold branch
  congr 2
  split_ifs at c <;> omega

example : convertTime ['2', '3', ':', '0', '0'] = .ok ['子'] ∧ convertTime ['2', '2', ':', '5', '9'] = .ok ['亥'] := by decide +kernel

variable {A : Astro} {lo hi : ℤ}

/-- **C99** `getTime` is the double-hour of that very date: it can be made, its lunar date is the date one started with, and it
says of the hour what the date says -/
theorem C99_time (H : Almanac A lo hi) (y m d h mi s : ℤ) (l : Lunar) (h1 : lo < y) (h2 : y < hi)
    (hl : Lunar.fromYmdHms A y m d h mi s = .ok l) : ∃ t, l.getTime A = .ok t ∧ t.lunar = l ∧ SameHour t l := by
  obtain ⟨r, -⟩ := C39_round_trip H y m d h mi s l h1 h2 hl
  simp only [Prod.mk.injEq] at r
  obtain ⟨r1, r2, r3, r4, r5, r6⟩ := r
  obtain ⟨p, q⟩ := C79_same A y m d h mi s
  obtain ⟨t, ht⟩ := q l hl
  obtain ⟨u, v⟩ := p t ht
  rw [hl] at u
  cases u
  exact ⟨t, by unfold Lunar.getTime; rw [r1, r2, r3, r4, r5, r6]; exact ht, rfl, v⟩

/-- **C99** in the library's own calendar, for the lunar date of any moment -/
theorem C99_library {M : Libm} (hM : M.Good) (s : Solar) (hs : s.Valid) (h1 : 1585 < s.year) (h2 : s.year < 6889) :
    ∃ l t, Lunar.fromSolar (astro M) s = .ok l ∧ l.getTime (astro M) = .ok t ∧ t.lunar = l ∧ SameHour t l := by
  obtain ⟨l, e, f1, f2, f3, r⟩ := C84_round_trip hM s hs (by omega) h2
  obtain ⟨H, -⟩ := C84_almanac hM
  have := (r l.year l.month l.day l.hour l.minute l.second l (by omega) (by omega)).2 ⟨rfl, rfl⟩
  obtain ⟨t, a, b, c⟩ := C99_time H _ _ _ _ _ _ l (by omega) (by omega) this.1
  exact ⟨l, t, e, a, b, c⟩

/-- the double-hour of 2024-02-09 08:00 in the calendar of the library -/
example : ∃ l t, Lunar.fromSolar (astro Libm.cut) ⟨2024, 2, 9, 8, 0, 0⟩ = .ok l ∧ l.getTime (astro Libm.cut) = .ok t ∧ t.lunar = l ∧
    SameHour t l :=
  C99_library Libm.cut_good _ (by decide) (by decide) (by decide)

end
