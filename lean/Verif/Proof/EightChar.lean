import Verif.Model.EightChar
import Verif.Props.Pillars

/-! # Indices and pillars of a chart -/

open Spec

namespace Lunar

/-- a lunar date as the constructors make it (C38), in a year with a proper table of solar terms -/
structure Proper (l : Lunar) : Prop where
  made : l.Made
  range : 0 ≤ l.solar.year ∧ l.solar.year ≤ 9999
  table : TermTable l.solar.year l.jieQi
  near : l.year = l.solar.year ∨ l.year = l.solar.year - 1

theorem stem_inj {a b : ℤ} (h : stem a = stem b) : a % 10 = b % 10 := by
  unfold stem at h
  have k1 : ∀ i j : Fin 10, stems.getD i '?' = stems.getD j '?' → i = j := by decide
  have := k1 ⟨(a % 10).toNat, by omega⟩ ⟨(b % 10).toNat, by omega⟩ h
  simp only [Fin.mk.injEq] at this
  omega

theorem branch_inj {a b : ℤ} (h : branch a = branch b) : a % 12 = b % 12 := by
  unfold branch at h
  have k1 : ∀ i j : Fin 12, branches.getD i '?' = branches.getD j '?' → i = j := by decide
  have := k1 ⟨(a % 12).toNat, by omega⟩ ⟨(b % 12).toNat, by omega⟩ h
  simp only [Fin.mk.injEq] at this
  omega

theorem ganZhi_eq_iff {a b : ℤ} : ganZhi a = ganZhi b ↔ a % 60 = b % 60 := by
  constructor
  · intro h
    simp only [ganZhi, List.cons.injEq, and_true] at h
    have := stem_inj h.1
    have := branch_inj h.2
    omega
  · intro h
    unfold ganZhi stem branch
    rw [show a % 10 = b % 10 by omega, show a % 12 = b % 12 by omega]

theorem pair_bounds {g z n : ℤ} (g0 : 0 ≤ g) (g1 : g < 10) (z0 : 0 ≤ z) (z1 : z < 12)
    (h : pair g z = .ok (ganZhi n)) : g = n % 10 ∧ z = n % 12 := by
  unfold pair at h
  rw [gan_index g0 g1, zhi_index z0 z1] at h
  simp only [bind, Except.bind, pure, Except.pure, Except.ok.injEq, List.cons_append, List.nil_append, ganZhi,
    List.cons.injEq, and_true] at h
  have := stem_inj h.1
  have := branch_inj h.2
  omega

end Lunar

namespace EightChar
open Lunar

/-- the chart has pillar number `n` at position `p` -/
structure At (e : EightChar) (p : Pos) (n : ℤ) : Prop where
  gan : e.ganIndex p = n % 10
  zhi : e.zhiIndex p = n % 12
  get : e.get p = .ok (ganZhi n)

theorem exists_at {e : EightChar} (h : e.lunar.Proper) (p : Pos) : ∃ n, e.At p n := by
  have hp := C36_pillars e.lunar h.made h.range h.table h.near
  obtain ⟨⟨y, ey, f1, f2, f3, f4, f5, f6⟩, ⟨m1, m2, m3, m4⟩, ⟨d1, d2, d3, d4, d5, d6⟩, ⟨t1, t2⟩, _⟩ :=
    made_fields h.made (by have := h.range; omega) h.range.2
  obtain ⟨lc, hlc, -⟩ := term_liChun h.table
  obtain ⟨p', ep, g1, g2, g3, g4, g5, g6⟩ := computeYear_eq h.table h.made.1 rfl h.range h.near hlc
  rw [ey] at ep
  cases ep
  cases p with
  | year =>
    obtain ⟨n, hn⟩ := hp e.lunar.getYearInGanZhiExact (by simp)
    have := pair_bounds (by rw [f5, g5]; omega) (by rw [f5, g5]; omega) (by rw [f6, g6]; omega) (by rw [f6, g6]; omega) hn
    exact ⟨n, this.1, this.2, hn⟩
  | month =>
    obtain ⟨n, hn⟩ := hp e.lunar.getMonthInGanZhiExact (by simp)
    have := pair_bounds (by rw [m3]; exact Int.emod_nonneg _ (by decide)) (by rw [m3]; exact Int.emod_lt_of_pos _ (by decide))
      (by rw [m4]; unfold monthZhi; omega) (by rw [m4]; unfold monthZhi; omega) hn
    exact ⟨n, this.1, this.2, hn⟩
  | day =>
    by_cases hs : 2 = e.sect
    · obtain ⟨n, hn⟩ := hp e.lunar.getDayInGanZhiExact2 (by simp)
      have := pair_bounds (by omega) (by omega) (by omega) (by omega) hn
      refine ⟨n, ?_, ?_, ?_⟩
      · show (if 2 = e.sect then _ else _) = _
        rw [if_pos hs]; exact this.1
      · show (if 2 = e.sect then _ else _) = _
        rw [if_pos hs]; exact this.2
      · show (if 2 = e.sect then _ else _) = _
        rw [if_pos hs]; exact hn
    · obtain ⟨n, hn⟩ := hp e.lunar.getDayInGanZhiExact (by simp)
      have := pair_bounds (by omega) (by omega) (by omega) (by omega) hn
      refine ⟨n, ?_, ?_, ?_⟩
      · show (if 2 = e.sect then _ else _) = _
        rw [if_neg hs]; exact this.1
      · show (if 2 = e.sect then _ else _) = _
        rw [if_neg hs]; exact this.2
      · show (if 2 = e.sect then _ else _) = _
        rw [if_neg hs]; exact hn
  | time =>
    obtain ⟨n, hn⟩ := hp e.lunar.getTimeInGanZhi (by simp)
    have := pair_bounds (by omega) (by omega) (by omega) (by omega) hn
    exact ⟨n, this.1, this.2, hn⟩

theorem at_of_get {e : EightChar} (h : e.lunar.Proper) {p : Pos} {n : ℤ} (hn : e.get p = .ok (ganZhi n)) : e.At p n := by
  obtain ⟨m, hm⟩ := exists_at h p
  have := hm.get
  rw [hn] at this
  have := ganZhi_eq_iff.1 (Except.ok.inj this)
  exact ⟨by rw [hm.gan]; omega, by rw [hm.zhi]; omega, hn⟩

theorem At.getGan {e : EightChar} {p : Pos} {n : ℤ} (h : e.At p n) : e.getGan p = .ok [stem n] := by
  unfold EightChar.getGan
  rw [h.gan, gan_index (by omega) (by omega)]
  unfold stem
  rw [show n % 10 % 10 = n % 10 by omega]

theorem At.getZhi {e : EightChar} {p : Pos} {n : ℤ} (h : e.At p n) : e.getZhi p = .ok [branch n] := by
  unfold EightChar.getZhi
  rw [h.zhi, zhi_index (by omega) (by omega)]
  unfold branch
  rw [show n % 12 % 12 = n % 12 by omega]

theorem whileSub_eq (m : ℕ) (hm : 0 < m) (x : ℤ) (hx : 0 < x) : whileSub m x = (x - 1) % m + 1 := by
  fun_induction whileSub m x with
  | case1 x h ih =>
    rw [ih (by omega), show x - m - 1 = x - 1 + m * (-1) by ring, Int.add_mul_emod_self_left]
  | case2 x h =>
    rw [Int.emod_eq_of_lt (by omega) (by omega)]; ring

/-- lift a fact about stems 0..9 -/
theorem lift10 {P : ℤ → Char → Prop} (h : ∀ i : Fin 10, P ((i : ℕ) : ℤ) (stem ((i : ℕ) : ℤ))) (n : ℤ) : P (n % 10) (stem n) := by
  have := h ⟨(n % 10).toNat, by omega⟩
  simp only [show (((n % 10).toNat : ℕ) : ℤ) = n % 10 by omega] at this
  rwa [show stem (n % 10) = stem n by unfold stem; rw [show n % 10 % 10 = n % 10 by omega]] at this

/-- lift a fact about branches 0..11 -/
theorem lift12 {P : ℤ → Char → Prop} (h : ∀ i : Fin 12, P ((i : ℕ) : ℤ) (branch ((i : ℕ) : ℤ))) (n : ℤ) : P (n % 12) (branch n) := by
  have := h ⟨(n % 12).toNat, by omega⟩
  simp only [show (((n % 12).toNat : ℕ) : ℤ) = n % 12 by omega] at this
  rwa [show branch (n % 12) = branch n by unfold branch; rw [show n % 12 % 12 = n % 12 by omega]] at this

end EightChar
