import Verif.Props.Everyday

/-! # C98: the pillars of all periods of a life, and their decades of ten pillars

For every birth, sex and school: the pillars of the ten-year periods, of their years, of the small luck and of the months, together
with the 旬 and 旬空 of each, in the calendar of the library itself. -/

section
open Spec LunarYear ShouXing Lunar

variable {M : Libm}

private theorem decade_of {g : Except PyErr PyStr} {n : ℤ} (h : g = .ok (ganZhi n)) :
    Decade g (g >>= LunarUtil.getXun) (g >>= LunarUtil.getXunKong) := by
  obtain ⟨a, b, -, h1, h2⟩ := C30_xunKong n
  refine ⟨n, a, b, h, ?_, ?_, h2⟩
  · rw [h]; exact C30_xun n
  · rw [h]; exact h1

/-- the names of the twelve months -/
def monthNames : List Char := ['正', '二', '三', '四', '五', '六', '七', '八', '九', '十', '冬', '腊']

private theorem month_name (n : LiuNian) (i : ℕ) (m : LiuYue) (h : n.getLiuYue[i]? = some m) :
    m.index = i ∧ ∃ c, monthNames[i]? = some c ∧ m.getMonthInChinese = .ok [c] := by
  have hi : i < 12 := (List.getElem?_eq_some_iff.1 h).1
  have hm' : m = ⟨n, i⟩ := by
    unfold LiuNian.getLiuYue pyRange at h
    rw [List.getElem?_map, List.getElem?_map, List.getElem?_range (by simpa using hi)] at h
    simpa using h.symm
  subst hm'
  refine ⟨rfl, ?_⟩
  have key : ∀ k : Fin 12, ∃ c, monthNames[(k : ℕ)]? = some c ∧ pyIndex LunarUtil.MONTH (((k : ℕ) : ℤ) + 1) = .ok [c] := by
    intro k
    have : ∀ k : Fin 12, pyIndex LunarUtil.MONTH (((k : ℕ) : ℤ) + 1) = .ok [monthNames[(k : ℕ)]'(by have := k.2; exact this)] := by
      decide +kernel
    exact ⟨_, List.getElem?_eq_getElem _, this k⟩
  exact key ⟨i, hi⟩

/-- **C98** every period of the life of a person born at `s`: the ten-year period `i` (up to the sixtieth) stands `i` steps from
the month pillar, forward or backward; a year has the pillar of the calendar year, the small luck at age `a` stands `a` steps from
the hour pillar, the twelve months of a year have their names and the pillars of the months of that year; and for each of them
`getXun` and `getXunKong` are the decade of its pillar. -/
theorem C98_luck (hM : M.Good) (s : Solar) (hs : s.Valid) (h1 : 1584 < s.year) (h2 : s.year < 6890) (l : Lunar)
    (hl : Lunar.fromSolar (astro M) s = .ok l) (e : EightChar) (he : e.lunar = l) (gender sect n : ℤ) :
    ∃ u ds m t, Yun.make e gender sect = .ok u ∧ u.getDaYun n = .ok ds ∧ ds.length = n.toNat ∧
      l.getMonthInGanZhiExact = .ok (ganZhi m) ∧ l.getTimeInGanZhi = .ok (ganZhi t) ∧
      ∀ (i : ℕ) (d : DaYun), ds[i]? = some d →
        (1 ≤ i → i ≤ 60 → d.getGanZhi = .ok (ganZhi (m + if u.forward then (i : ℤ) else -i)) ∧ Decade d.getGanZhi d.getXun d.getXunKong) ∧
        (∀ k (x : XiaoYun), x ∈ d.getXiaoYun k →
          x.getGanZhi = .ok (ganZhi (t + if u.forward then x.age else -x.age)) ∧ Decade x.getGanZhi x.getXun x.getXunKong) ∧
        ∀ k (y : LiuNian), y ∈ d.getLiuNian k →
          y.getGanZhi (astro M) = .ok (ganZhi (y.year - 4)) ∧
          Decade (y.getGanZhi (astro M)) (y.getXun (astro M)) (y.getXunKong (astro M)) ∧
          y.getLiuYue.length = 12 ∧
          ∀ (j : ℕ) (q : LiuYue), y.getLiuYue[j]? = some q →
            (∃ c, monthNames[j]? = some c ∧ q.getMonthInChinese = .ok [c]) ∧
            q.getGanZhi (astro M) = .ok (ganZhi (12 * (y.year - 4) + 1 + (j + 1))) ∧
            Decade (q.getGanZhi (astro M)) (q.getXun (astro M)) (q.getXunKong (astro M)) := by
  obtain ⟨u, st, ds, e1, e2, e3, -, e4, e5, e6⟩ := C88_luck hM s hs h1 h2 l hl e he gender sect n
  obtain ⟨f1, P, -⟩ := Ephem.made hM hs h1 h2 hl
  have hP : (EightChar.fromLunar l).lunar.Proper := P
  obtain ⟨m, hm⟩ := EightChar.exists_at hP .month
  obtain ⟨t, ht⟩ := EightChar.exists_at hP .time
  have hm : l.getMonthInGanZhiExact = .ok (ganZhi m) := hm.get
  have ht : l.getTimeInGanZhi = .ok (ganZhi t) := ht.get
  refine ⟨u, ds, m, t, e1, e4, e5, hm, ht, fun i d hd => ?_⟩
  obtain ⟨ds', d1, -, d3⟩ := C51_decades u st e3 n
  rw [e4] at d1
  cases d1
  obtain ⟨g1, g2, -⟩ := d3 i d hd
  have hmem := List.mem_of_getElem? hd
  have hmk : ∃ i, DaYun.make u i = .ok d := by
    unfold Yun.getDaYun at e4
    exact mapM_mem e4 hmem
  refine ⟨fun c1 c2 => ?_, fun k x hx => ?_, fun k y hy => ?_⟩
  · have := C51_decade_pillar_partial d m (by rw [g1, e2]; exact hm) (by omega) (by omega) (by omega)
    rw [g1, g2] at this
    exact ⟨this, decade_of this⟩
  · unfold DaYun.getXiaoYun at hx
    obtain ⟨j, -, rfl⟩ := List.mem_map.1 hx
    obtain ⟨i', hi'⟩ := hmk
    have := C51_small_pillar u i' d hi' t (by rw [e2]; exact ht) j d.yun.forward
    refine ⟨?_, decade_of this⟩
    rw [this, g1]
  · unfold DaYun.getLiuNian at hy
    obtain ⟨j, -, rfl⟩ := List.mem_map.1 hy
    have hy := e6 d hmem j
    obtain ⟨a, b⟩ := C51_month_pillar (astro M) (LiuNian.make d j) _ hy
    refine ⟨hy, decade_of hy, a, fun j' q hq => ?_⟩
    obtain ⟨-, c⟩ := b j' q hq
    have c' : q.getGanZhi (astro M) = .ok (ganZhi (12 * ((LiuNian.make d j).year - 4) + 1 + (j' + 1))) := by
      rw [c]; congr 2; ring
    exact ⟨(month_name _ _ _ hq).2, c', decade_of c'⟩

/-- **C98** the years before the first period have no pillar; the library reports the decade of 甲子 all the same. -/
theorem C98_childhood (d : DaYun) (h : d.index < 1) : d.getGanZhi = .ok [] ∧ d.getXun = .ok (ganZhi 0) ∧ d.getXunKong = .ok [branch 10, branch 11] := by
  have := C51_decade_zero d h
  refine ⟨this, ?_, ?_⟩
  · unfold DaYun.getXun; rw [this]; decide +kernel
  · unfold DaYun.getXunKong; rw [this]; decide +kernel

/-- the first ten-year period of the man of the sample is 丁卯, in the decade of 甲子, without 戌 and 亥 -/
example : (⟨sampleYun, 1, 2033, 10, 2042, 19⟩ : DaYun).getGanZhi = .ok ['丁', '卯'] ∧
    (⟨sampleYun, 1, 2033, 10, 2042, 19⟩ : DaYun).getXun = .ok ['甲', '子'] ∧
    (⟨sampleYun, 8, 2103, 80, 2112, 89⟩ : DaYun).getXun = .ok ['甲', '戌'] ∧
    (⟨sampleYun, 8, 2103, 80, 2112, 89⟩ : DaYun).getXunKong = .ok ['申', '酉'] := by decide +kernel

/-- a woman born on 2026-02-04: there are ten periods, and each has years with pillars -/
example : ∃ l u ds, Lunar.fromSolar (astro Libm.cut) ⟨2026, 2, 4, 4, 0, 0⟩ = .ok l ∧ Yun.make ⟨2, l⟩ 0 1 = .ok u ∧ u.getDaYun 10 = .ok ds ∧ ds.length = 10 ∧
    ∀ d, ds[1]? = some d → (LiuNian.make d 0).getGanZhi (astro Libm.cut) = .ok (ganZhi (d.startYear - 4)) := by
  obtain ⟨l, e, -⟩ := C84_round_trip Libm.cut_good ⟨2026, 2, 4, 4, 0, 0⟩ (by decide) (by decide) (by decide)
  obtain ⟨u, ds, m, t, a, b, c, -, -, f⟩ := C98_luck Libm.cut_good _ (by decide) (by decide) (by decide) l e ⟨2, l⟩ rfl 0 1 10
  refine ⟨l, u, ds, e, a, b, c, fun d hd => ?_⟩
  have := ((f 1 d hd).2.2 10 (LiuNian.make d 0) ?_).1
  · rw [this]; simp [LiuNian.make]
  · obtain ⟨st, hst⟩ : ∃ st, u.getStartSolar = .ok st := by
      obtain ⟨u', st, -, a', -, b', -⟩ := C88_luck Libm.cut_good _ (by decide) (by decide) (by decide) l e ⟨2, l⟩ rfl 0 1 10
      rw [a] at a'; cases a'; exact ⟨st, b'⟩
    obtain ⟨ds', d1, -, d3⟩ := C51_decades u st hst 10
    rw [b] at d1; cases d1
    obtain ⟨-, g2, -⟩ := d3 1 d hd
    unfold DaYun.getLiuNian
    dsimp only
    rw [g2, if_neg (by norm_num)]
    exact List.mem_map.2 ⟨0, by decide, rfl⟩

end
