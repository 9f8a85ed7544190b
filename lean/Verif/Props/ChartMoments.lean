import Verif.Props.BaZi
import Verif.Props.Library

/-! # C107: a chart names a double-hour

C52 and C69 say that the moments found by `Solar.fromBaZi` have the given pillars, and which moments are found.  Here: the four
pillars of a moment determine its double-hour among the moments less than 59 years away, so that the moments of one answer are
at least 59 years apart. -/

section
open Spec ShouXing LunarYear LunarUtil Lunar BaZi

attribute [local irreducible] make

variable {A : Astro} {lo hi : ℤ}

private theorem quotient {s : Solar} (hs : s.Valid) : (Cal.secNo s - Cal.secNo ⟨1999, 12, 31, 23, 0, 0⟩) / 7200 =
    12 * (Cal.dn s.date - Cal.dn ⟨1999, 12, 31⟩ - 1) + (s.hour + 1) / 2 := by
  obtain ⟨s1, s2, s3, s4, s5, s6⟩ := hs.2
  have es : Cal.secNo s = 86400 * Cal.dn s.date + (s.hour * 3600 + s.minute * 60 + s.second) := rfl
  have er : Cal.secNo ⟨1999, 12, 31, 23, 0, 0⟩ = 86400 * Cal.dn ⟨1999, 12, 31⟩ + 82800 := rfl
  rw [es, er]
  generalize Cal.dn ⟨1999, 12, 31⟩ = r
  generalize Cal.dn s.date = ds
  omega

private theorem pair_mod {m n : ℤ} (h : ganZhi m = ganZhi n) : m % 60 = n % 60 := by
  have := congrArg getJiaZiIndex h
  rwa [C29_index, C29_index] at this

/-- **C107** for any almanac of Sun and Moon -/
theorem C107_pillars {H : Almanac A lo hi} (S : SunAlmanac H) (s t : Solar) (hs : s.Valid) (ht : t.Valid)
    (s1 : lo < s.year) (s2 : s.year ≤ hi) (t1 : lo < t.year) (t2 : t.year ≤ hi) (n1 : s.year < t.year + 59) (n2 : t.year < s.year + 59)
    (l l' : Lunar) (el : Lunar.fromSolar A s = .ok l) (el' : Lunar.fromSolar A t = .ok l') (sect : ℤ)
    (ey : l.getYearInGanZhiExact = l'.getYearInGanZhiExact) (em : l.getMonthInGanZhiExact = l'.getMonthInGanZhiExact)
    (ed : (if sect = 1 then l.getDayInGanZhiExact else l.getDayInGanZhiExact2) =
      if sect = 1 then l'.getDayInGanZhiExact else l'.getDayInGanZhiExact2)
    (et : l.getTimeInGanZhi = l'.getTimeInGanZhi) : SameDoubleHour s t := by
  obtain ⟨m, hm⟩ := exists_at S hs s1 s2
  cases Except.ok.inj (el.symm.trans hm.from_)
  obtain ⟨m', hm'⟩ := exists_at S ht t1 t2
  cases Except.ok.inj (el'.symm.trans hm'.from_)
  obtain ⟨Y, j, jq, a, b, p, -, e1, e2⟩ := exists_pos S hs s1 s2 hm
  obtain ⟨Y', j', jq', a', b', p', -, e1', e2'⟩ := exists_pos S ht t1 t2 hm'
  have f1 := pair_mod (Except.ok.inj (e1.symm.trans (ey.trans e1')))
  have f2 := pair_mod (Except.ok.inj (e2.symm.trans (em.trans e2')))
  have f4 := pair_mod (Except.ok.inj (hm.time.symm.trans (et.trans hm'.time)))
  have f3 : (JD.jdn s.date + if sect = 1 ∧ s.hour = 23 then 1 else 0) % 60 = (JD.jdn t.date + if sect = 1 ∧ t.hour = 23 then 1 else 0) % 60 := by
    by_cases c : sect = 1
    · rw [if_pos c, if_pos c] at ed
      have := pair_mod (Except.ok.inj (hm.day.2.symm.trans (ed.trans hm'.day.2)))
      simp only [c, true_and]
      clear f1 f2 f4
      omega
    · rw [if_neg c, if_neg c] at ed
      have := pair_mod (Except.ok.inj (hm.day.1.symm.trans (ed.trans hm'.day.1)))
      simp only [c, false_and, if_false]
      clear f1 f2 f4
      omega
  have hY : Y' = Y := by
    have := p.year
    have := p'.year
    clear f2 f3 f4
    omega
  subst hY
  have hj : j' = j := by
    have := p.two
    have := p.thirteen
    have := p'.two
    have := p'.thirteen
    clear f1 f3 f4
    omega
  subst hj
  cases Table.unique p.table p'.table
  cases Option.some.inj (p'.fst.symm.trans p.fst)
  cases Option.some.inj (p'.snd.symm.trans p.snd)
  have Y1 : lo ≤ Y' := by have := p.year; omega
  have Y2 : Y' ≤ hi := by have := p.year; omega
  have T := table_of H Y1 Y2 p.table
  have va := T.valid _ (List.mem_of_getElem? p.fst)
  have vb := T.valid _ (List.mem_of_getElem? p.snd)
  have hsh := S.short Y' Y1 Y2 _ p.table j' _ _ _ p.fst p.snd ((Cal.daysAfter_iff va.1 vb.1 (Cal.dn b.date - Cal.dn a.date)).2 (by ring))
  have g1 := p.le
  have g2 := p.lt
  have g3 := p'.le
  have g4 := p'.lt
  have ca := Cal.clock_bounds va
  have cb := Cal.clock_bounds vb
  have cs := Cal.clock_bounds hs
  have ct := Cal.clock_bounds ht
  have r1 : Cal.dn a.date ≤ Cal.dn s.date := by unfold Cal.secNo at g1; omega
  have r2 : Cal.dn s.date ≤ Cal.dn b.date := by unfold Cal.secNo at g2; omega
  have r3 : Cal.dn a.date ≤ Cal.dn t.date := by unfold Cal.secNo at g3; omega
  have r4 : Cal.dn t.date ≤ Cal.dn b.date := by unfold Cal.secNo at g4; omega
  refine same_iff hs ht ?_
  rw [quotient hs, quotient ht] at f4 ⊢
  rw [JD.jdn_eq hs.1, JD.jdn_eq ht.1] at f3
  obtain ⟨h1, h2, -⟩ := hs.2
  obtain ⟨h3, h4, -⟩ := ht.2
  generalize Cal.dn ⟨1999, 12, 31⟩ = r at *
  unfold Cal.dn at *
  generalize Cal.dayNo s.date.y s.date.m s.date.d = x at *
  generalize Cal.dayNo t.date.y t.date.m t.date.d = y at *
  clear f1 f2 g1 g2 g3 g4 ca cb cs ct el el' ey em ed et e1 e2 e1' e2'
  split_ifs at f3 <;> omega

/-- moments in the same double-hour are less than two hours apart -/
private theorem near {a b : Solar} (ha : a.Valid) (hb : b.Valid) (h : SameDoubleHour a b) :
    Cal.dn b.date ≤ Cal.dn a.date + 1 ∧ Cal.dn a.date ≤ Cal.dn b.date + 1 := by
  have := same_sec ha hb h
  rw [quotient ha, quotient hb] at this
  obtain ⟨h1, h2, -⟩ := ha.2
  obtain ⟨h3, h4, -⟩ := hb.2
  omega

private theorem either {α : Type} {R : α → α → Prop} {L : List α} (h : L.Pairwise R) {a b : α} (ha : a ∈ L) (hb : b ∈ L) (hne : a ≠ b) :
    R a b ∨ R b a := by
  induction h with
  | nil => cases ha
  | cons h _ ih =>
    rcases List.mem_cons.1 ha with rfl | ha' <;> rcases List.mem_cons.1 hb with rfl | hb'
    · exact absurd rfl hne
    · exact .inl (h _ hb')
    · exact .inr (h _ ha')
    · exact ih ha' hb'

/-- **C107** the moments of one answer are at least 59 years apart, for any almanac of Sun and Moon -/
theorem C107_sparse {H : Almanac A lo hi} (S : SunAlmanac H) (now : ℤ) (yg mg dg : PyStr) (g : Char) (n : ℤ) (sect base : ℤ)
    (hr : ∀ y, base - 1 ≤ y → y ≤ now → (∀ k, yg = ganZhi k → (y - 4 - k) % 60 = 0) → lo < y ∧ y + 2 ≤ hi)
    (b1 : lo < base) (b2 : now + 2 ≤ hi) :
    ∃ L, Solar.fromBaZi A now yg mg dg [g, branch n] sect base = .ok L ∧ L.Pairwise (fun a b => a.year + 59 ≤ b.year) ∧
      ∀ s ∈ L, s.Valid ∧ base ≤ s.year ∧ s.year ≤ now + 2 := by
  obtain ⟨L, e, o, m⟩ := ordered_hours S now yg mg dg g n sect base hr
  refine ⟨L, e, o.imp_of_mem (fun {a b} ha hb h => ?_), m⟩
  obtain ⟨va, ya1, ya2⟩ := m a ha
  obtain ⟨vb, yb1, yb2⟩ := m b hb
  obtain ⟨la, pa, pa1, pa2, pa3, pa4⟩ := C52_sound A now yg mg dg _ sect base L e a ha
  obtain ⟨lb, pb, pb1, pb2, pb3, pb4⟩ := C52_sound A now yg mg dg _ sect base L e b hb
  obtain ⟨lt, hh⟩ := h
  have lt' := (Solar.before_iff va vb).1 lt
  have hy := secNo_year va vb lt'.le
  by_contra hc
  have hs := C107_pillars S a b va vb (by omega) (by omega) (by omega) (by omega) (by omega) (by omega) la lb pa pb sect
    (pa1.trans pb1.symm) (pa2.trans pb2.symm) (pa3.trans pb3.symm) (pa4.trans pb4.symm)
  have nr := near va vb hs
  have ny : b.year ≤ a.year + 1 := year_near va.1 vb.1 (by omega)
  have ne : a.hour ≠ b.hour := fun h => by have := hh h; omega
  have q := same_sec va vb hs
  rw [quotient va, quotient vb] at q
  obtain ⟨h1, h2, -⟩ := va.2
  obtain ⟨h3, h4, -⟩ := vb.2
  have dn : sect ≠ 1 → Cal.dn a.date = Cal.dn b.date := fun c => by
    rw [if_neg c] at pa3 pb3
    obtain ⟨m, hm⟩ := exists_at S va (by omega) (by omega)
    cases Except.ok.inj (pa.symm.trans hm.from_)
    obtain ⟨m', hm'⟩ := exists_at S vb (by omega) (by omega)
    cases Except.ok.inj (pb.symm.trans hm'.from_)
    have := pair_mod (Except.ok.inj (hm.day.1.symm.trans ((pa3.trans pb3.symm).trans hm'.day.1)))
    rw [JD.jdn_eq va.1, JD.jdn_eq vb.1] at this
    unfold Cal.dn at *
    clear q
    omega
  have fa := found_hour e ha
  have fb := found_hour e hb
  clear hh hs lt lt' pa3 pb3
  by_cases c : sect = 1
  · have : a.hour % 2 = 0 := by omega
    have : b.hour % 2 = 0 := by omega
    omega
  · have := dn c
    omega

variable {M : Libm}

/-- **C107** of two moments less than 59 years apart in the library's calendar, with the same four pillars (with either convention
for the day pillar late in the evening), one lies in the double-hour of the other -/
theorem C107_unique (hM : M.Good) (s t : Solar) (hs : s.Valid) (ht : t.Valid)
    (s1 : 1584 < s.year) (s2 : s.year ≤ 6890) (t1 : 1584 < t.year) (t2 : t.year ≤ 6890) (n1 : s.year < t.year + 59) (n2 : t.year < s.year + 59)
    (l l' : Lunar) (el : Lunar.fromSolar (astro M) s = .ok l) (el' : Lunar.fromSolar (astro M) t = .ok l') (sect : ℤ)
    (ey : l.getYearInGanZhiExact = l'.getYearInGanZhiExact) (em : l.getMonthInGanZhiExact = l'.getMonthInGanZhiExact)
    (ed : (if sect = 1 then l.getDayInGanZhiExact else l.getDayInGanZhiExact2) =
      if sect = 1 then l'.getDayInGanZhiExact else l'.getDayInGanZhiExact2)
    (et : l.getTimeInGanZhi = l'.getTimeInGanZhi) : SameDoubleHour s t := by
  obtain ⟨H, S⟩ := C84_almanac hM
  exact C107_pillars S s t hs ht s1 s2 t1 t2 n1 n2 l l' el el' sect ey em ed et

/-- **C107** the moments `Solar.fromBaZi` finds in the library's calendar are at least 59 years apart -/
theorem C107_list (hM : M.Good) (now : ℤ) (yg mg dg : PyStr) (g : Char) (n : ℤ) (sect base : ℤ) (h1 : 1586 ≤ base) (h2 : now ≤ 6888) :
    ∃ L, Solar.fromBaZi (astro M) now yg mg dg [g, branch n] sect base = .ok L ∧ L.Pairwise (fun a b => a.year + 59 ≤ b.year) ∧
      ∀ s ∈ L, s.Valid ∧ base ≤ s.year ∧ s.year ≤ now + 2 := by
  obtain ⟨H, S⟩ := C84_almanac hM
  exact C107_sparse S now yg mg dg g n sect base (fun y _ _ _ => by omega) (by omega) (by omega)

/-- **C107** there and back: from the pillars of a moment after the year `base` the library finds exactly one moment less than 58
years away, and it is in the double-hour of that moment, unless a Jie falls as in C69 -/
theorem C107_found (hM : M.Good) (s : Solar) (hs : s.Valid) (now sect base : ℤ) (b1 : 1586 ≤ base) (b2 : base < s.year) (b3 : s.year ≤ now)
    (b4 : now ≤ 6888) (l : Lunar) (hl : Lunar.fromSolar (astro M) s = .ok l)
    (hgap : s.hour % 2 = 1 → (sect ≠ 1 → s.hour ≠ 23) → ∀ (i : ℕ) (t : Solar) (n : ℤ), l.jieQi[2 * i]? = some t →
      SecondsAfter n s.date s.hour s.minute s.second t.date t.hour t.minute t.second → 0 < n →
      3600 < 60 * s.minute + s.second + n) :
    ∃ yg mg dg tg L c, l.getYearInGanZhiExact = .ok yg ∧ l.getMonthInGanZhiExact = .ok mg ∧
      (if sect = 1 then l.getDayInGanZhiExact else l.getDayInGanZhiExact2) = .ok dg ∧ l.getTimeInGanZhi = .ok tg ∧
      Solar.fromBaZi (astro M) now yg mg dg tg sect base = .ok L ∧ c ∈ L ∧ SameDoubleHour s c ∧
      ∀ c' ∈ L, c'.year < s.year + 58 → s.year < c'.year + 58 → c' = c := by
  obtain ⟨H, S⟩ := C84_almanac hM
  obtain ⟨m, hm⟩ := exists_at S hs (by omega) (by omega)
  cases Except.ok.inj (hl.symm.trans hm.from_)
  obtain ⟨Y, j, jq, a, b, p, -, e1, e2⟩ := exists_pos S hs (by omega) (by omega) hm
  obtain ⟨dg, e3⟩ : ∃ dg, (if sect = 1 then l.getDayInGanZhiExact else l.getDayInGanZhiExact2) = .ok dg := by
    split
    · exact ⟨_, hm.day.2⟩
    · exact ⟨_, hm.day.1⟩
  obtain ⟨L, e, o, mL⟩ := C107_sparse S now (ganZhi (Y - 4)) (ganZhi (12 * (Y - 4) + j)) dg _ _ sect base (fun y _ _ _ => by omega) (by omega) (by omega)
  obtain ⟨z, hz, vz⟩ := get hm.terms (i := 0) (by decide)
  have zy := (S.ends _ (by omega) (by omega) _ hm.table).1 z hz
  have zs : z.AtOrBefore s := (Solar.atOrBefore_iff vz hs).2 (by
    by_contra hc
    have := secNo_year hs vz (by omega)
    omega)
  obtain ⟨c, hc, hsame⟩ := C69_complete_partial S s hs (by omega) (by omega) l hl now sect base b3
    ⟨0, z, hz, by omega, zs⟩ _ _ _ _ e1 e2 e3 hm.time hgap L e
  refine ⟨_, _, _, _, L, c, e1, e2, e3, hm.time, e, hc, hsame, fun c' hc' y1 y2 => ?_⟩
  obtain ⟨vc, -⟩ := mL c hc
  have nr := near hs vc hsame
  have ny : c.year ≤ s.year + 1 := year_near hs.1 vc.1 (by omega)
  have ny' : s.year ≤ c.year + 1 := year_near vc.1 hs.1 (by omega)
  by_contra hne
  rcases either o hc' hc hne with h | h <;> omega

/-- 2024-05-20 08:20 and 2042-05-20 08:20 are not in the same double-hour, so their charts differ -/
example : ∃ l l', Lunar.fromSolar (astro Libm.cut) ⟨2024, 5, 20, 8, 20, 0⟩ = .ok l ∧
    Lunar.fromSolar (astro Libm.cut) ⟨2042, 5, 20, 8, 20, 0⟩ = .ok l' ∧
    ¬ (l.getYearInGanZhiExact = l'.getYearInGanZhiExact ∧ l.getMonthInGanZhiExact = l'.getMonthInGanZhiExact ∧
      l.getDayInGanZhiExact2 = l'.getDayInGanZhiExact2 ∧ l.getTimeInGanZhi = l'.getTimeInGanZhi) := by
  obtain ⟨l, e, -⟩ := C84_round_trip Libm.cut_good ⟨2024, 5, 20, 8, 20, 0⟩ (by decide) (by decide) (by decide)
  obtain ⟨l', e', -⟩ := C84_round_trip Libm.cut_good ⟨2042, 5, 20, 8, 20, 0⟩ (by decide) (by decide) (by decide)
  refine ⟨l, l', e, e', fun ⟨h1, h2, h3, h4⟩ => ?_⟩
  have := near (by decide) (by decide) (C107_unique Libm.cut_good _ _ (by decide) (by decide) (by decide) (by decide)
    (by decide) (by decide) (by decide) (by decide) l l' e e' 2 h1 h2 h3 h4)
  revert this
  decide

/-- the moments of 甲辰 己巳 丁亥 甲辰 from 1600 to 2026 are at least 59 years apart -/
example : ∃ L, Solar.fromBaZi (astro Libm.cut) 2026 ['甲', '辰'] ['己', '巳'] ['丁', '亥'] ['甲', '辰'] 2 1600 = .ok L ∧
    L.Pairwise (fun a b => a.year + 59 ≤ b.year) ∧ ∀ s ∈ L, s.Valid ∧ 1600 ≤ s.year ∧ s.year ≤ 2026 + 2 :=
  C107_list Libm.cut_good 2026 ['甲', '辰'] ['己', '巳'] ['丁', '亥'] '甲' 4 2 1600 (by decide) (by decide)

/-- 2024-05-20 08:20 is found from its pillars -/
example : ∃ l yg mg dg tg L c, Lunar.fromSolar (astro Libm.cut) ⟨2024, 5, 20, 8, 20, 0⟩ = .ok l ∧
    l.getYearInGanZhiExact = .ok yg ∧ l.getMonthInGanZhiExact = .ok mg ∧ l.getDayInGanZhiExact2 = .ok dg ∧ l.getTimeInGanZhi = .ok tg ∧
    Solar.fromBaZi (astro Libm.cut) 2026 yg mg dg tg 2 1900 = .ok L ∧ c ∈ L ∧ SameDoubleHour ⟨2024, 5, 20, 8, 20, 0⟩ c := by
  obtain ⟨l, e, -⟩ := C84_round_trip Libm.cut_good ⟨2024, 5, 20, 8, 20, 0⟩ (by decide) (by decide) (by decide)
  obtain ⟨yg, mg, dg, tg, L, c, h1, h2, h3, h4, h5, h6, h7, -⟩ := C107_found Libm.cut_good _ (by decide) 2026 2 1900 (by decide) (by decide)
    (by decide) (by decide) l e (fun h => absurd h (by decide))
  exact ⟨l, yg, mg, dg, tg, L, c, e, h1, h2, h3, h4, h5, h6, h7⟩

end
