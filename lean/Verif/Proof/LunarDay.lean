import Verif.Model.LunarDay
import Verif.Proof.EightChar

/-! # The eight pairs of indices of a date as numbers of pillars -/

open Spec

namespace Lunar

/-- numbers of the pillars of a date: of the year (three conventions), the month (two), the day (two), the hour -/
structure Nums (l : Lunar) (y yl ye m me d de t : ℤ) : Prop where
  yg : l.yearGanIndex = y % 10
  yz : l.yearZhiIndex = y % 12
  ylg : l.yearGanIndexByLiChun = yl % 10
  ylz : l.yearZhiIndexByLiChun = yl % 12
  yeg : l.yearGanIndexExact = ye % 10
  yez : l.yearZhiIndexExact = ye % 12
  mg : l.monthGanIndex = m % 10
  mz : l.monthZhiIndex = m % 12
  meg : l.monthGanIndexExact = me % 10
  mez : l.monthZhiIndexExact = me % 12
  dg : l.dayGanIndex = d % 10
  dz : l.dayZhiIndex = d % 12
  deg : l.dayGanIndexExact = de % 10
  dez : l.dayZhiIndexExact = de % 12
  d2g : l.dayGanIndexExact2 = d % 10
  d2z : l.dayZhiIndexExact2 = d % 12
  tg : l.timeGanIndex = t % 10
  tz : l.timeZhiIndex = t % 12

theorem Proper.numbers {l : Lunar} (h : l.Proper) : ∃ y yl ye m me d de t, l.Nums y yl ye m me d de t := by
  have hp := C36_pillars l h.made h.range h.table h.near
  obtain ⟨⟨y, ey, f1, f2, f3, f4, f5, f6⟩, ⟨m1, m2, m3, m4⟩, ⟨d1, d2, d3, d4, d5, d6⟩, ⟨t1, t2⟩, _⟩ :=
    made_fields h.made (by have := h.range; omega) h.range.2
  obtain ⟨lc, hlc, -⟩ := term_liChun h.table
  obtain ⟨p', ep, g1, g2, g3, g4, g5, g6⟩ := computeYear_eq h.table h.made.1 rfl h.range h.near hlc
  rw [ey] at ep
  cases ep
  have b10 : ∀ x : ℤ, 0 ≤ x % 10 ∧ x % 10 < 10 := fun x => by omega
  have b12 : ∀ x : ℤ, 0 ≤ x % 12 ∧ x % 12 < 12 := fun x => by omega
  obtain ⟨n1, h1⟩ := hp l.getYearInGanZhi (by simp)
  obtain ⟨n2, h2⟩ := hp l.getYearInGanZhiByLiChun (by simp)
  obtain ⟨n3, h3⟩ := hp l.getYearInGanZhiExact (by simp)
  obtain ⟨n4, h4⟩ := hp l.getMonthInGanZhi (by simp)
  obtain ⟨n5, h5⟩ := hp l.getMonthInGanZhiExact (by simp)
  obtain ⟨n6, h6⟩ := hp l.getDayInGanZhi (by simp)
  obtain ⟨n7, h7⟩ := hp l.getDayInGanZhiExact (by simp)
  obtain ⟨n8, h8⟩ := hp l.getTimeInGanZhi (by simp)
  have p1 := pair_bounds (by rw [f1, g1]; omega) (by rw [f1, g1]; omega) (by rw [f2, g2]; omega) (by rw [f2, g2]; omega) h1
  have p2 := pair_bounds (by rw [f3, g3]; omega) (by rw [f3, g3]; omega) (by rw [f4, g4]; omega) (by rw [f4, g4]; omega) h2
  have p3 := pair_bounds (by rw [f5, g5]; omega) (by rw [f5, g5]; omega) (by rw [f6, g6]; omega) (by rw [f6, g6]; omega) h3
  have p4 := pair_bounds (by rw [m1]; exact (b10 _).1) (by rw [m1]; exact (b10 _).2)
      (by rw [m2]; unfold monthZhi; omega) (by rw [m2]; unfold monthZhi; omega) h4
  have p5 := pair_bounds (by rw [m3]; exact (b10 _).1) (by rw [m3]; exact (b10 _).2)
      (by rw [m4]; unfold monthZhi; omega) (by rw [m4]; unfold monthZhi; omega) h5
  have p6 := pair_bounds (by omega) (by omega) (by omega) (by omega) h6
  have p7 := pair_bounds (by omega) (by omega) (by omega) (by omega) h7
  have p8 := pair_bounds (by omega) (by omega) (by omega) (by omega) h8
  exact ⟨n1, n2, n3, n4, n5, n6, n7, n8, p1.1, p1.2, p2.1, p2.2, p3.1, p3.2, p4.1, p4.2, p5.1, p5.2, p6.1, p6.2, p7.1, p7.2,
    by omega, by omega, p8.1, p8.2⟩

theorem Proper.day {l : Lunar} (h : l.Proper) {n : ℤ} (hn : l.getDayInGanZhi = .ok (ganZhi n)) :
    l.dayGanIndex = n % 10 ∧ l.dayZhiIndex = n % 12 := by
  obtain ⟨y, yl, ye, m, me, d, de, t, N⟩ := h.numbers
  exact pair_bounds (by rw [N.dg]; omega) (by rw [N.dg]; omega) (by rw [N.dz]; omega) (by rw [N.dz]; omega) hn

theorem Proper.month {l : Lunar} (h : l.Proper) {n : ℤ} (hn : l.getMonthInGanZhi = .ok (ganZhi n)) :
    l.monthGanIndex = n % 10 ∧ l.monthZhiIndex = n % 12 := by
  obtain ⟨y, yl, ye, m, me, d, de, t, N⟩ := h.numbers
  exact pair_bounds (by rw [N.mg]; omega) (by rw [N.mg]; omega) (by rw [N.mz]; omega) (by rw [N.mz]; omega) hn

theorem Proper.time {l : Lunar} (h : l.Proper) {n : ℤ} (hn : l.getTimeInGanZhi = .ok (ganZhi n)) :
    l.timeGanIndex = n % 10 ∧ l.timeZhiIndex = n % 12 := by
  obtain ⟨y, yl, ye, m, me, d, de, t, N⟩ := h.numbers
  exact pair_bounds (by rw [N.tg]; omega) (by rw [N.tg]; omega) (by rw [N.tz]; omega) (by rw [N.tz]; omega) hn

theorem zhi_num {n : ℤ} : pyIndex LunarUtil.ZHI (n % 12 + 1) = .ok [branch n] := by
  rw [zhi_index (by omega) (by omega)]
  unfold branch
  rw [show n % 12 % 12 = n % 12 by omega]

theorem gan_num {n : ℤ} : pyIndex LunarUtil.GAN (n % 10 + 1) = .ok [stem n] := by
  rw [gan_index (by omega) (by omega)]
  unfold stem
  rw [show n % 10 % 10 = n % 10 by omega]

end Lunar
