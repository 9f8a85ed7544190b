import Verif.Proof.Ephem.Gaps
import Verif.Props.Everyday

/-! # C90: how far solar terms are apart, and how long luck can be in coming -/

section
open Spec ShouXing Lunar

variable {M : Libm}

private theorem gap (hM : M.Good) {s : Solar} (hs : s.Valid) (h1 : 1584 < s.year) (h2 : s.year < 6890) {l : Lunar}
    (hl : Lunar.fromSolar (astro M) s = .ok l) {i j : ℕ} {p q : Solar} (hp : l.jieQi[i]? = some p) (hq : l.jieQi[i + j]? = some q)
    {a b : ℚ} (g : ∀ n : ℤ, n = 24 * (s.year - 2000) + 17 + i → a ≤ termV M (n + j) - termV M n ∧ termV M (n + j) - termV M n ≤ b) :
    ∃ n : ℤ, DaysAfter n p.date q.date ∧ a - 1.003 < n ∧ (n : ℚ) < b + 1.003 := by
  obtain ⟨-, P, -, -, t⟩ := Ephem.made hM hs h1 h2 hl
  have hj : i + j < 31 := by
    rw [← P.table.len]
    exact (List.getElem?_eq_some_iff.1 hq).1
  have vp := P.table.valid _ (List.mem_of_getElem? hp)
  have vq := P.table.valid _ (List.mem_of_getElem? hq)
  rw [t i (by omega)] at hp
  rw [t (i + j) (by omega)] at hq
  cases hp
  cases hq
  rw [show (24 * (s.year - 2000) + 17 + ((i + j : ℕ) : ℤ)) = 24 * (s.year - 2000) + 17 + (i : ℤ) + j by push_cast; ring] at vq ⊢
  have := Ephem.moment_days hM (n := 24 * (s.year - 2000) + 17 + i) (m := 24 * (s.year - 2000) + 17 + i + j) (by omega) (by omega) (by omega)
    (g _ rfl).1 (g _ rfl).2
  refine ⟨_, ?_, this⟩
  rw [Cal.daysAfter_iff vp.1 vq.1, JD.jdn_eq vp.1, JD.jdn_eq vq.1]
  ring

/-- **C90** neighbouring entries of the table of solar terms are 14 to 17 days apart, from 1962 to 2730 14 to 16 days. -/
theorem C90_terms (hM : M.Good) (s : Solar) (hs : s.Valid) (h1 : 1584 < s.year) (h2 : s.year < 6890) (l : Lunar)
    (hl : Lunar.fromSolar (astro M) s = .ok l) (i : ℕ) (p q : Solar) (hp : l.jieQi[i]? = some p) (hq : l.jieQi[i + 1]? = some q) :
    ∃ n, DaysAfter n p.date q.date ∧ 14 ≤ n ∧ n ≤ 17 ∧ (1962 ≤ s.year → s.year ≤ 2730 → n ≤ 16) := by
  have hi : i + 1 < 31 := by
    obtain ⟨-, P, -⟩ := Ephem.made hM hs h1 h2 hl
    rw [← P.table.len]
    exact (List.getElem?_eq_some_iff.1 hq).1
  by_cases c : 1962 ≤ s.year ∧ s.year ≤ 2730
  · obtain ⟨n, a, b, d⟩ := gap hM hs h1 h2 hl hp hq (fun n e => Ephem.one_v' hM (n := n) (by omega) (by omega))
    have b' : ((13 : ℤ) : ℚ) < n := by push_cast; linarith
    have d' : (n : ℚ) < ((17 : ℤ) : ℚ) := by push_cast; linarith
    have := Int.cast_lt.1 b'
    have := Int.cast_lt.1 d'
    exact ⟨n, a, by omega, by omega, by omega⟩
  · obtain ⟨n, a, b, d⟩ := gap hM hs h1 h2 hl hp hq (fun n e => Ephem.one_v hM (n := n) (by omega) (by omega))
    have b' : ((13 : ℤ) : ℚ) < n := by push_cast; linarith
    have d' : (n : ℚ) < ((18 : ℤ) : ℚ) := by push_cast; linarith
    have := Int.cast_lt.1 b'
    have := Int.cast_lt.1 d'
    exact ⟨n, a, by omega, by omega, by omega⟩

/-- **C90** neighbouring Jie, and neighbouring Qi, are 29 to 32 days apart: the months of the pillars are as long. -/
theorem C90_months (hM : M.Good) (s : Solar) (hs : s.Valid) (h1 : 1584 < s.year) (h2 : s.year < 6890) (l : Lunar)
    (hl : Lunar.fromSolar (astro M) s = .ok l) (i : ℕ) (p q : Solar) (hp : l.jieQi[i]? = some p) (hq : l.jieQi[i + 2]? = some q) :
    ∃ n, DaysAfter n p.date q.date ∧ 29 ≤ n ∧ n ≤ 32 := by
  have hi : i + 2 < 31 := by
    obtain ⟨-, P, -⟩ := Ephem.made hM hs h1 h2 hl
    rw [← P.table.len]
    exact (List.getElem?_eq_some_iff.1 hq).1
  obtain ⟨n, a, b, d⟩ := gap hM hs h1 h2 hl hp hq (fun n e => Ephem.two_v hM (n := n) (by omega) (by omega))
  have b' : ((28 : ℤ) : ℚ) < n := by push_cast; linarith
  have d' : (n : ℚ) < ((33 : ℤ) : ℚ) := by push_cast; linarith
  have := Int.cast_lt.1 b'
  have := Int.cast_lt.1 d'
  exact ⟨n, a, by omega, by omega⟩

/-- the first two terms of the table of a day of 2026 -/
example : ∃ l p q n, Lunar.fromSolar (astro Libm.cut) ⟨2026, 2, 4, 4, 0, 0⟩ = .ok l ∧ l.jieQi[0]? = some p ∧ l.jieQi[1]? = some q ∧
    DaysAfter n p.date q.date ∧ 14 ≤ n ∧ n ≤ 16 := by
  obtain ⟨l, e, -⟩ := C84_round_trip Libm.cut_good ⟨2026, 2, 4, 4, 0, 0⟩ (by decide) (by decide) (by decide)
  obtain ⟨-, P, -, -, t⟩ := Ephem.made Libm.cut_good (by decide) (by decide) (by decide) e
  obtain ⟨n, a, b, -, c⟩ := C90_terms Libm.cut_good _ (by decide) (by decide) (by decide) l e 0 _ _ (t 0 (by norm_num)) (t 1 (by norm_num))
  exact ⟨l, _, _, n, e, t 0 (by norm_num), t 1 (by norm_num), a, b, c (by norm_num) (by norm_num)⟩

/-- the Jie before and after a moment are neighbours in the table -/
private theorem jie_around (hM : M.Good) {s : Solar} (hs : s.Valid) (h1 : 1584 < s.year) (h2 : s.year < 6890) {l : Lunar}
    (hl : Lunar.fromSolar (astro M) s = .ok l) :
    ∃ P N, l.getPrevJie = .ok (some P) ∧ l.getNextJie = .ok (some N) ∧ P.solar.Valid ∧ N.solar.Valid ∧ Cal.secNo P.solar ≤ Cal.secNo s ∧
      Cal.secNo s < Cal.secNo N.solar ∧ Cal.dn N.solar.date ≤ Cal.dn P.solar.date + 32 := by
  obtain ⟨f1, P, -⟩ := Ephem.made hM hs h1 h2 hl
  obtain ⟨⟨i, q, a1, a2, a3, a4, a5⟩, j, p, b1, b2, b3, b4, b5⟩ := C88_terms hM s hs h1 h2 l hl .jie
  have vq := P.table.valid _ (List.mem_of_getElem? a2)
  have vp := P.table.valid _ (List.mem_of_getElem? b2)
  have li : i < 31 := by rw [← P.table.len]; exact (List.getElem?_eq_some_iff.1 a2).1
  have a3' := (Solar.before_iff hs vq).1 a3
  have b3' := (Solar.atOrBefore_iff vp hs).1 b3
  have ij : j < i := by
    by_contra c
    rcases Nat.lt_or_ge i j with h | h
    · obtain ⟨hi, e1⟩ := List.getElem?_eq_some_iff.1 a2
      obtain ⟨hj, e2⟩ := List.getElem?_eq_some_iff.1 b2
      have := List.pairwise_iff_getElem.1 P.table.chron i j hi hj h
      rw [e1, e2, Solar.before_iff vq vp] at this
      omega
    · obtain rfl : i = j := by omega
      rw [a2] at b2
      cases b2
      omega
  simp only [TermKind.has] at a1 b1
  have hlt : j + 2 < l.jieQi.length := by rw [P.table.len]; omega
  obtain ⟨x, hx⟩ : ∃ x, l.jieQi[j + 2]? = some x := ⟨_, List.getElem?_eq_getElem hlt⟩
  have vx := P.table.valid _ (List.mem_of_getElem? hx)
  have le : i ≤ j + 2 := by
    by_cases c : Solar.Before s x
    · exact a4 (j + 2) x (by simp only [TermKind.has]; omega) hx c
    · have : Solar.AtOrBefore x s := by
        rw [Solar.before_iff hs vx] at c
        rw [Solar.atOrBefore_iff vx hs]
        omega
      have := b4 (j + 2) x (by simp only [TermKind.has]; omega) hx this
      omega
  obtain rfl : i = j + 2 := by omega
  obtain ⟨n, d, -, n2⟩ := C90_months hM s hs h1 h2 l hl j p q b2 a2
  rw [Cal.daysAfter_iff vp.1 vq.1] at d
  exact ⟨_, _, b5, a5, vp, vq, b3', a3', by dsimp only; omega⟩

/-- **C90** luck begins within eleven years of birth: `getStartYear` is at most 10, the moment of the start is in one of the
eleven years after the year of birth or in that year, and the first decade of luck begins at the age of 12 or earlier. -/
theorem C90_luck (hM : M.Good) (s : Solar) (hs : s.Valid) (h1 : 1584 < s.year) (h2 : s.year < 6890) (l : Lunar)
    (hl : Lunar.fromSolar (astro M) s = .ok l) (e : EightChar) (he : e.lunar = l) (gender sect : ℤ) (u : Yun)
    (hu : Yun.make e gender sect = .ok u) :
    0 ≤ u.startYear ∧ u.startYear ≤ 10 ∧
      (∀ st, u.getStartSolar = .ok st → s.year ≤ st.year ∧ st.year ≤ s.year + 11) ∧
      ∀ n ds d, u.getDaYun n = .ok ds → ds[1]? = some d → 1 ≤ d.startAge ∧ d.startAge ≤ 12 := by
  obtain ⟨f1, Pr, -⟩ := Ephem.made hM hs h1 h2 hl
  obtain ⟨P, N, hp, hn, vp, vn, lp, ln, g⟩ := jie_around hM hs h1 h2 hl
  subst he
  obtain ⟨y, hy⟩ := EightChar.exists_at Pr .year
  have cs := Cal.clock_bounds hs
  have cp := Cal.clock_bounds vp
  have cn := Cal.clock_bounds vn
  have hc0 := hs.2
  have hc1 := vp.2
  have hc2 := vn.2
  unfold ClockOk at hc0 hc1 hc2
  have d1 : Cal.dn P.solar.date ≤ Cal.dn s.date := by unfold Cal.secNo at lp; omega
  have d2 : Cal.dn s.date ≤ Cal.dn N.solar.date := by unfold Cal.secNo at ln; omega
  have start : u.lunar = e.lunar ∧ 0 ≤ u.startYear ∧ u.startYear ≤ 10 ∧ 0 ≤ u.startMonth ∧ u.startMonth < 12 ∧ 0 ≤ u.startDay ∧ u.startDay < 30 ∧
      0 ≤ u.startHour ∧ u.startHour < 24 := by
    by_cases c : sect = 2
    · subst c
      obtain ⟨u', n, eu, ul, -, -, x⟩ := C50_start_minutes Pr y hy.get gender P N hp hn
      rw [hu] at eu
      cases eu
      rw [f1] at x
      obtain ⟨x1, x2, x3, x4, x5, x6, x7, x8, x9, -⟩ := x
      refine ⟨ul, x3, ?_, x4, x5, x6, x7, x8, x9⟩
      by_cases hf : u.forward = true <;> simp only [hf, if_true, if_false, Bool.false_eq_true] at x1 x2
      swap
      · rw [Cal.daysAfter_iff vp.1 hs.1] at x1
        omega
      · rw [Cal.daysAfter_iff hs.1 vn.1] at x1
        omega
    · obtain ⟨u', n, eu, ul, -, -, x⟩ := C50_start Pr y hy.get gender sect c P N hp hn
      rw [hu] at eu
      cases eu
      rw [f1] at x
      obtain ⟨x1, x2, x3, x4, x5, x6, x7, x8⟩ := x
      refine ⟨ul, x4, ?_, x5, x6, x7, x8, by omega, by omega⟩
      have dh : ∀ h : ℤ, 0 ≤ doubleHour h ∧ doubleHour h ≤ 11 := by
        intro h
        unfold doubleHour
        split_ifs <;> omega
      by_cases hf : u.forward = true <;> simp only [hf, if_true, if_false, Bool.false_eq_true] at x1 x2
      swap
      · rw [Cal.daysAfter_iff vp.1 hs.1] at x1
        have := dh s.hour
        have := dh P.solar.hour
        omega
      · rw [Cal.daysAfter_iff hs.1 vn.1] at x1
        have := dh s.hour
        have := dh N.solar.hour
        omega
  obtain ⟨ul, y0, y1, m0, m1, t0, t1, r0, r1⟩ := start
  have us : u.lunar.solar = s := by rw [ul, f1]
  have when : ∀ st, u.getStartSolar = .ok st → s.year ≤ st.year ∧ st.year ≤ s.year + 11 := by
    intro st hst
    obtain ⟨a, b, c, st', a1, b1, c1, e1, v1, k1, k2, k3⟩ := C51_start_solar u (by rw [us]; exact hs)
    rw [hst] at e1
    cases e1
    rw [us] at a1 k3
    obtain ⟨a', a2, va, -⟩ := C12_nextYear s hs u.startYear
    rw [a1] at a2
    cases a2
    obtain ⟨b', b2, vb, -⟩ := C12_nextMonth a va u.startMonth
    rw [b1] at b2
    cases b2
    obtain ⟨c', c2, vc, -⟩ := C01_next_is_iterated_tomorrow b vb u.startDay
    rw [c1] at c2
    cases c2
    rw [Cal.secondsAfter_iff vc v1] at k1
    rw [Cal.daysAfter_iff vb.1 vc.1] at k2
    have cc := Cal.clock_bounds vc
    have cv := Cal.clock_bounds v1
    unfold Cal.secNo at k1
    have up : Cal.dn st.date ≤ Cal.dn b.date + 30 := by omega
    have dw : Cal.dn b.date ≤ Cal.dn st.date := by omega
    obtain ⟨q1, q2⟩ := Cal.dn_month vb.1
    obtain ⟨q3, q4⟩ := Cal.dn_month v1.1
    have mb := vb.1.1
    have mb' := vb.1.2.1
    have ms := v1.1.1
    have ms' := v1.1.2.1
    have s1 := hs.1.1
    have s2 := hs.1.2.1
    unfold Cal.mi at q1 q2 q3 q4
    simp only [Solar.date] at up dw q1 q2 q3 q4 mb mb' ms ms' s1 s2
    constructor
    · by_contra cx
      have := Cal.MS_le_of_le (k := 12 * st.year + (st.month - 1) + 1) (l := 12 * b.year + (b.month - 1)) (by omega)
      omega
    · by_contra cx
      have w1 := Cal.MS_le_of_le (k := 12 * b.year + (b.month - 1) + 1) (l := 12 * (s.year + 11) + 11) (by omega)
      have w2 := Cal.MS_le_of_le (k := 12 * (s.year + 11) + 11 + 1) (l := 12 * st.year + (st.month - 1)) (by omega)
      have w3 := Cal.MS_succ (12 * (s.year + 11) + 11)
      rw [show (12 * (s.year + 11) + 11) / 12 = s.year + 11 by omega, show (12 * (s.year + 11) + 11) % 12 + 1 = 12 by omega] at w3
      have w4 := (Cal.getDaysOfMonth_bounds (y := s.year + 11) (m := 12) (by norm_num) (by norm_num)).2.2 (by omega)
      have w5 : lastDay (s.year + 11) 12 = 31 := by unfold lastDay; simp
      omega
  refine ⟨y0, y1, when, fun n ds d hd h1d => ?_⟩
  obtain ⟨st, hst⟩ : ∃ st, u.getStartSolar = .ok st := by
    obtain ⟨-, -, -, st, -, -, -, h, -⟩ := C51_start_solar u (by rw [us]; exact hs)
    exact ⟨st, h⟩
  obtain ⟨ds', e1, -, r⟩ := C51_decades u st hst n
  rw [hd] at e1
  cases e1
  obtain ⟨-, -, ra, -⟩ := r 1 d h1d
  have : d.startYear = st.year := by
    obtain ⟨h1l, -⟩ := List.getElem?_eq_some_iff.1 h1d
    have h0 : ds[0]? = some ds[0] := List.getElem?_eq_getElem (by omega)
    obtain ⟨-, -, -, -, z1, -, z2⟩ := r 0 _ h0
    rw [(z2 d h1d).1, (z1 rfl).2]
    ring
  rw [us] at ra
  have := when st hst
  omega

/-- luck of a man born on 2026-02-04 begins by 2037 -/
example : ∃ l u st, Lunar.fromSolar (astro Libm.cut) ⟨2026, 2, 4, 4, 0, 0⟩ = .ok l ∧ Yun.make ⟨1, l⟩ 1 2 = .ok u ∧ u.getStartSolar = .ok st ∧ st.year ≤ 2037 := by
  obtain ⟨l, e, -⟩ := C84_round_trip Libm.cut_good ⟨2026, 2, 4, 4, 0, 0⟩ (by decide) (by decide) (by decide)
  obtain ⟨u, st, ds, a, -, b, -⟩ := C88_luck Libm.cut_good _ (by decide) (by decide) (by decide) l e ⟨1, l⟩ rfl 1 2 10
  exact ⟨l, u, st, e, a, b, ((C90_luck Libm.cut_good _ (by decide) (by decide) (by decide) l e ⟨1, l⟩ rfl 1 2 u a).2.2.1 st b).2⟩

end
