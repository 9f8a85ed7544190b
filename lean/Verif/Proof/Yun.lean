import Verif.Model.Yun
import Verif.Proof.EightChar
import Verif.Props.Terms
import Verif.Props.GanZhi

/-! # Start of the luck periods: arithmetic -/

open Spec

namespace Yun
open Lunar

/-- the double-hour of the clock as the conversion counts it: 0 until 1 o'clock, ..., 11 from 21 o'clock to midnight -/
theorem zhiOf_eq {s : Solar} (hs : s.Valid) (h4 : 0 ≤ s.year ∧ s.year ≤ 9999) :
    zhiOf s = min ((s.hour + 1) / 2) 11 := by
  obtain ⟨⟨h1, h2, h3, h4', h5⟩, c1, c2, c3, c4, c5, c6⟩ := hs
  simp only [Solar.date] at h1 h2 h3 h4'
  have ly : (fmtD 4 s.year).length = 4 := by
    rw [Str.fmtD_eq 3 _ (by omega) (by norm_num; omega), Str.pad_length]
  have l2 : ∀ n : ℤ, 0 ≤ n → n ≤ 99 → (fmtD 2 n).length = 2 := by
    intro n a b
    rw [Str.fmtD_eq 1 _ (by omega) (by norm_num; omega), Str.pad_length]
  have hd : s.day ≤ 31 := by
    have : lastDay s.year s.month ≤ 31 := by unfold lastDay; split_ifs <;> omega
    omega
  have e : (s.toYmdHms.drop 11).take 5 = fmtD 2 s.hour ++ [':'] ++ fmtD 2 s.minute := by
    have a : s.toYmdHms = (fmtD 4 s.year ++ '-' :: fmtD 2 s.month ++ '-' :: fmtD 2 s.day ++ [' ']) ++
        ((fmtD 2 s.hour ++ [':'] ++ fmtD 2 s.minute) ++ (':' :: fmtD 2 s.second)) := by
      unfold Solar.toYmdHms Solar.toYmd
      simp
    rw [a, List.drop_left' (by simp [ly, l2 s.month (by omega) (by omega), l2 s.day (by omega) (by omega)]),
      List.take_left' (by simp [l2 s.hour (by omega) (by omega), l2 s.minute (by omega) (by omega)])]
  unfold zhiOf
  rw [e]
  have := C33_time_index s.hour s.minute (by omega) (by omega) (by omega) (by omega)
  dsimp only at this
  obtain ⟨t1, t2, t3⟩ := this
  by_cases h23 : s.hour = 23
  · rw [if_pos h23]; omega
  · rw [if_neg h23]
    split_ifs at t3 <;> omega

theorem span_two {a b : Solar} (ha : a.Valid) (hb : b.Valid) (hle : Cal.secNo a ≤ Cal.secNo b) :
    ∃ y m d h, span a b 2 = .ok (y, m, d, h) ∧
      4320 * y + 360 * m + 12 * d + h / 2 = 1440 * (Cal.dn b.date - Cal.dn a.date) + ((b.hour * 60 + b.minute) - (a.hour * 60 + a.minute)) ∧
      0 ≤ y ∧ 0 ≤ m ∧ m < 12 ∧ 0 ≤ d ∧ d < 30 ∧ 0 ≤ h ∧ h < 24 ∧ h % 2 = 0 := by
  obtain ⟨c1, c2, c3, c4, c5, c6⟩ := ha.2
  obtain ⟨d1, d2, d3, d4, d5, d6⟩ := hb.2
  unfold Cal.secNo at hle
  have h0 : 0 ≤ 1440 * (Cal.dn b.date - Cal.dn a.date) + ((b.hour * 60 + b.minute) - (a.hour * 60 + a.minute)) := by omega
  unfold span
  rw [if_pos rfl, Cal.subtractMinute_spec hb ha]
  generalize 1440 * (Cal.dn b.date - Cal.dn a.date) + ((b.hour * 60 + b.minute) - (a.hour * 60 + a.minute)) = t at h0
  refine ⟨_, _, _, _, rfl, ?_⟩
  simp only [Int.tdiv_eq_ediv_of_nonneg h0,
    Int.tdiv_eq_ediv_of_nonneg (show 0 ≤ t - t / 4320 * 4320 by omega),
    Int.tdiv_eq_ediv_of_nonneg (show 0 ≤ t - t / 4320 * 4320 - (t - t / 4320 * 4320) / 360 * 360 by omega)]
  omega

theorem span_one {a b : Solar} (ha : a.Valid) (hb : b.Valid) (h4a : 0 ≤ a.year ∧ a.year ≤ 9999)
    (h4b : 0 ≤ b.year ∧ b.year ≤ 9999) (hle : Cal.secNo a ≤ Cal.secNo b) {sect : ℤ} (hs : sect ≠ 2) :
    ∃ y m d, span a b sect = .ok (y, m, d, 0) ∧
      360 * y + 30 * m + d = 10 * (12 * (Cal.dn b.date - Cal.dn a.date) + (min ((b.hour + 1) / 2) 11 - min ((a.hour + 1) / 2) 11)) ∧
      0 ≤ y ∧ 0 ≤ m ∧ m < 12 ∧ 0 ≤ d ∧ d < 30 := by
  obtain ⟨c1, c2, c3, c4, c5, c6⟩ := ha.2
  obtain ⟨d1, d2, d3, d4, d5, d6⟩ := hb.2
  unfold Cal.secNo at hle
  unfold span
  rw [if_neg (fun h => hs h.symm), Cal.subtract_spec hb ha, zhiOf_eq ha h4a, zhiOf_eq hb h4b]
  have hi1 : 0 ≤ min ((a.hour + 1) / 2) 11 ∧ min ((a.hour + 1) / 2) 11 ≤ 11 := by omega
  have hi2 : 0 ≤ min ((b.hour + 1) / 2) 11 ∧ min ((b.hour + 1) / 2) 11 ≤ 11 := by omega
  have hmono : Cal.dn b.date = Cal.dn a.date → min ((a.hour + 1) / 2) 11 ≤ min ((b.hour + 1) / 2) 11 := by omega
  have hdn : Cal.dn a.date ≤ Cal.dn b.date := by omega
  generalize min ((a.hour + 1) / 2) 11 = i at *
  generalize min ((b.hour + 1) / 2) 11 = j at *
  generalize hD : Cal.dn b.date - Cal.dn a.date = D at *
  simp only [bind, Except.bind, pure, Except.pure]
  by_cases hneg : j - i < 0
  · rw [if_pos hneg]
    dsimp only
    rw [Int.tdiv_eq_ediv_of_nonneg (a := (j - i + 12) * 10) (by omega), Int.tdiv_eq_ediv_of_nonneg (by omega)]
    refine ⟨_, _, _, rfl, ?_⟩
    omega
  · rw [if_neg hneg]
    dsimp only
    rw [Int.tdiv_eq_ediv_of_nonneg (a := (j - i) * 10) (by omega), Int.tdiv_eq_ediv_of_nonneg (by omega)]
    refine ⟨_, _, _, rfl, ?_⟩
    omega

end Yun
