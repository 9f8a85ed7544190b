import Verif.Proof.LunarDay
import Verif.Proof.Cycles
import Verif.Proof.SampleSun
import Verif.Spec.Mansions
import Verif.Props.EightChar
import Verif.Props.DayLore
import Verif.Props.Festivals
import Verif.Props.Words
import Verif.Props.Terms
import Verif.Props.LunarTime

/-! # C80-C83: `toFullString`, decades of the pillars, lists of the chart, attributes of the mansion -/

open Spec Lunar LunarUtil

section
variable {A : Astro} {lo hi : ℤ}

/-! ## C83 -/

private theorem lift28 {P : ℤ → Char → Prop} (h : ∀ i : Fin 28, P ((i : ℕ) : ℤ) (mansions.getD i '?')) (k : ℤ) :
    P (k % 28) (mansions.getD (k % 28).toNat '?') := by
  have := h ⟨(k % 28).toNat, by omega⟩
  simpa only [show (((k % 28).toNat : ℕ) : ℤ) = k % 28 by omega] using this

/-- **C83** the attributes of the mansion of a day: quarter and beast by sevens, the animal, the luck; the song begins with the
name of the mansion -/
theorem C83_mansion (l : Lunar) (k : ℤ) (h : l.getXiu = .ok [mansions.getD (k % 28).toNat '?']) :
    l.getGong = .ok [quarter k] ∧ l.getShou = .ok (beast k) ∧ l.getAnimal = .ok [mansionAnimal k] ∧
    l.getXiuLuck = .ok (if k % 28 ∈ luckyMansions then ['吉'] else ['凶']) ∧
    l.getZheng = .ok [luminary (k + 4)] ∧
    ∃ s, l.getXiuSong = .ok (mansions.getD (k % 28).toNat '?' :: s) := by
  have q1 : quarter k = quarter (k % 28) := by unfold quarter; rw [Int.emod_emod]
  have q2 : beast k = beast (k % 28) := by unfold beast; rw [Int.emod_emod]
  have q3 : mansionAnimal k = mansionAnimal (k % 28) := by unfold mansionAnimal; rw [Int.emod_emod]
  have q4 : luminary (k + 4) = luminary (k % 28 + 4) := by unfold luminary; rw [show (k + 4) % 7 = (k % 28 + 4) % 7 by omega]
  have a1 := lift28 (P := fun k c => pyDict GONG [c] = .ok [quarter k] ∧ pyDict SHOU [quarter k] = .ok (beast k) ∧
    pyDict ANIMAL [c] = .ok [mansionAnimal k] ∧ pyDict XIU_LUCK [c] = .ok (if k ∈ luckyMansions then ['吉'] else ['凶']) ∧
    pyDict ZHENG [c] = .ok [luminary (k + 4)]) (by decide +kernel) k
  have a2 := lift28 (P := fun k c => ∃ s, pyDict XIU_SONG [c] = .ok (c :: s)) (by
    have : ∀ i : Fin 28, (match pyDict XIU_SONG [mansions.getD i '?'] with
        | .ok (a :: _) => a == mansions.getD i '?'
        | _ => false) = true := by decide +kernel
    intro i
    have := this i
    split at this
    · rename_i a s e
      rw [beq_iff_eq] at this
      exact ⟨s, by rw [e, this]⟩
    · cases this) k
  obtain ⟨g, sh, an, lu, zh⟩ := a1
  obtain ⟨s, so⟩ := a2
  rw [q1, q2, q3, q4]
  have eg : l.getGong = .ok [quarter (k % 28)] := by
    unfold getGong; rw [h]; exact g
  refine ⟨eg, ?_, ?_, ?_, ?_, s, ?_⟩
  · unfold getShou; rw [eg]; exact sh
  · unfold getAnimal; rw [h]; exact an
  · unfold getXiuLuck; rw [h]; exact lu
  · unfold getZheng; rw [h]; exact zh
  · unfold getXiuSong; rw [h]; exact so

/-- **C83** the luminary of the mansion of a day is that of its day of the week -/
theorem C83_weekday (l : Lunar) (h : l.Proper) : l.getZheng = .ok [luminary l.solar.getWeek] := by
  have r := h.range
  have hv := h.made.1
  have hn : DaysAfter (Cal.dn l.solar.date - Cal.dn ⟨2000, 1, 1⟩) ⟨2000, 1, 1⟩ l.solar.date :=
    (Cal.daysAfter_iff (by decide) hv.1 _).2 (by ring)
  have e := C49_mansion l h.made (by omega) r.2 _ hn
  rw [(C83_mansion l _ e).2.2.2.2.1, JD.getWeek_eq hv (by omega) r.2, JD.jdn_eq hv.1]
  have e0 : Cal.dn ⟨2000, 1, 1⟩ = 730488 := by decide
  unfold luminary
  rw [e0]
  congr 4
  omega

/-- Sunday 2024-02-04: mansion 星 (number 24) in the south, the horse of the sun, unlucky -/
example : sample.getXiu = .ok [mansions.getD (24 % 28 : ℤ).toNat '?'] ∧ sample.getGong = .ok ['南'] ∧ sample.getShou = .ok ['朱', '雀'] ∧
    sample.getZheng = .ok ['日'] ∧ sample.getAnimal = .ok ['马'] ∧ sample.getXiuLuck = .ok ['凶'] ∧ sample.solar.getWeek = 0 := by
  decide +kernel

/-! ## C81 -/

/-- the decade of the pillar `g`: `x` is the pillar opening it, `k` names the two branches that do not occur in it -/
def Decade (g x k : Except PyErr PyStr) : Prop :=
  ∃ n a b : ℤ, g = .ok (ganZhi n) ∧ x = .ok (ganZhi (10 * (n % 60 / 10))) ∧ k = .ok [branch a, branch b] ∧
    ∀ c : Char, c ∈ branches → ((c = branch a ∨ c = branch b) ↔ ∀ i : ℤ, 0 ≤ i → i < 10 → c ≠ branch (10 * (n % 60 / 10) + i))

/-- **C81** the `…Xun` and `…XunKong` getters of the pillars of a date, in all conventions -/
theorem C81_decades (l : Lunar) (h : l.Proper) :
    (Decade l.getYearInGanZhi l.getYearXun l.getYearXunKong ∧
      Decade l.getYearInGanZhiByLiChun l.getYearXunByLiChun l.getYearXunKongByLiChun ∧
      Decade l.getYearInGanZhiExact l.getYearXunExact l.getYearXunKongExact) ∧
    (Decade l.getMonthInGanZhi l.getMonthXun l.getMonthXunKong ∧
      Decade l.getMonthInGanZhiExact l.getMonthXunExact l.getMonthXunKongExact) ∧
    (Decade l.getDayInGanZhi l.getDayXun l.getDayXunKong ∧ Decade l.getDayInGanZhiExact l.getDayXunExact l.getDayXunKongExact ∧
      Decade l.getDayInGanZhiExact2 l.getDayXunExact2 l.getDayXunKongExact2) ∧
    Decade l.getTimeInGanZhi l.getTimeXun l.getTimeXunKong := by
  have key : ∀ g ∈ [l.getYearInGanZhi, l.getYearInGanZhiByLiChun, l.getYearInGanZhiExact, l.getMonthInGanZhi,
      l.getMonthInGanZhiExact, l.getDayInGanZhi, l.getDayInGanZhiExact, l.getDayInGanZhiExact2, l.getTimeInGanZhi],
      Decade g (g >>= LunarUtil.getXun) (g >>= LunarUtil.getXunKong) := by
    intro g hg
    obtain ⟨n, e⟩ := C36_pillars l h.made h.range h.table h.near g hg
    obtain ⟨a, b, -, h1, h2⟩ := C30_xunKong n
    refine ⟨n, a, b, e, ?_, ?_, h2⟩
    · rw [e]; exact C30_xun n
    · rw [e]; exact h1
  exact ⟨⟨key l.getYearInGanZhi (by simp), key l.getYearInGanZhiByLiChun (by simp), key l.getYearInGanZhiExact (by simp)⟩,
    ⟨key l.getMonthInGanZhi (by simp), key l.getMonthInGanZhiExact (by simp)⟩,
    ⟨key l.getDayInGanZhi (by simp), key l.getDayInGanZhiExact (by simp), key l.getDayInGanZhiExact2 (by simp)⟩,
    key l.getTimeInGanZhi (by simp)⟩

/-- 戊戌 is in the decade of 甲午, without 辰 and 巳 -/
example : sample.getDayXun = .ok ['甲', '午'] ∧ sample.getDayXunKong = .ok ['辰', '巳'] ∧ sample.getDayXunExact = .ok ['甲', '午'] := by
  decide +kernel

/-! ## C82 -/

private theorem hiddenStems_ne (n : ℤ) : hiddenStems n ≠ [] := by
  have key : ∀ i : Fin 12, hiddenStems ((i : ℕ) : ℤ) ≠ [] := by decide
  have := key ⟨(n % 12).toNat, by omega⟩
  simp only [show (((n % 12).toNat : ℕ) : ℤ) = n % 12 by omega] at this
  rwa [show hiddenStems (n % 12) = hiddenStems n by unfold hiddenStems; rw [Int.emod_emod]] at this

/-- **C82** the lists of the chart: the pillars of year and month at the instants of the Jie, of the day from midnight and of the
hour; for each the phases of stem and branch, the NaYin, the ten god of the stem (the day stem is 日主) and the ten god of the
principal stem in the branch -/
theorem C82_lists (l : Lunar) (h : l.Proper) (y m d t : ℤ) (hy : l.getYearInGanZhiExact = .ok (ganZhi y))
    (hm : l.getMonthInGanZhiExact = .ok (ganZhi m)) (hd : l.getDayInGanZhi = .ok (ganZhi d)) (ht : l.getTimeInGanZhi = .ok (ganZhi t)) :
    l.getBaZi = .ok [ganZhi y, ganZhi m, ganZhi d, ganZhi t] ∧
    l.getBaZiWuXing = .ok ([y, m, d, t].map (fun n => [phaseName (stemPhase n), phaseName (branchPhase n)])) ∧
    (∃ r, l.getBaZiNaYin = .ok r ∧ List.Forall₂ (fun n x => ∃ s, x = some s ∧ s.getLast? = some (pairPhase n)) [y, m, d, t] r) ∧
    (∃ a b c, l.getBaZiShiShenGan = .ok [some a, some b, some ['日', '主'], some c] ∧ IsTenGod d y a ∧ IsTenGod d m b ∧ IsTenGod d t c) ∧
    (∃ r, l.getBaZiShiShenZhi = .ok r ∧
      List.Forall₂ (fun n x => ∃ s, x = some s ∧ IsTenGod d ((hiddenStems n).headD 0) s) [y, m, d, t] r) ∧
    ∀ p n, (EightChar.fromLunar l).get p = .ok (ganZhi n) → ∃ r, l.getBaZiShiShenOfZhi p = .ok r ∧
      List.Forall₂ (fun o x => ∃ s, x = some s ∧ IsTenGod d o s) (hiddenStems n) r := by
  have P : (EightChar.fromLunar l).lunar.Proper := h
  have ey : (EightChar.fromLunar l).get .year = .ok (ganZhi y) := hy
  have em : (EightChar.fromLunar l).get .month = .ok (ganZhi m) := hm
  have d2 : l.getDayInGanZhiExact2 = .ok (ganZhi d) := by
    obtain ⟨y', yl, ye, m', me, d', de, t', N⟩ := h.numbers
    obtain ⟨a, b⟩ := h.day hd
    exact pair_eq (by rw [N.d2g, ← N.dg, a]) (by rw [N.d2z, ← N.dz, b])
  have ed : (EightChar.fromLunar l).get .day = .ok (ganZhi d) := d2
  have et : (EightChar.fromLunar l).get .time = .ok (ganZhi t) := ht
  refine ⟨?_, ?_, ?_, ?_, ?_, ?_⟩
  · unfold getBaZi
    dsimp only
    rw [ey, em, ed, et]
    rfl
  · unfold getBaZiWuXing
    dsimp only
    rw [C64_wuXing P _ _ ey, C64_wuXing P _ _ em, C64_wuXing P _ _ ed, C64_wuXing P _ _ et]
    rfl
  · obtain ⟨a, a1, a2⟩ := C64_naYin_of P _ _ ey
    obtain ⟨b, b1, b2⟩ := C64_naYin_of P _ _ em
    obtain ⟨c, c1, c2⟩ := C64_naYin_of P _ _ ed
    obtain ⟨e, e1, e2⟩ := C64_naYin_of P _ _ et
    refine ⟨[some a, some b, some c, some e], ?_, .cons ⟨a, rfl, a2⟩ (.cons ⟨b, rfl, b2⟩ (.cons ⟨c, rfl, c2⟩ (.cons ⟨e, rfl, e2⟩ .nil)))⟩
    unfold getBaZiNaYin
    dsimp only
    rw [a1, b1, c1, e1]
    rfl
  · obtain ⟨a, a1, a2⟩ := C56_stem P .year (by decide) _ _ ed ey
    obtain ⟨b, b1, b2⟩ := C56_stem P .month (by decide) _ _ ed em
    obtain ⟨e, e1, e2⟩ := C56_stem P .time (by decide) _ _ ed et
    refine ⟨a, b, e, ?_, a2, b2, e2⟩
    unfold getBaZiShiShenGan
    dsimp only
    rw [a1, b1, e1]
    rfl
  · have first : ∀ p n, (EightChar.fromLunar l).get p = .ok (ganZhi n) → ∃ r s, (EightChar.fromLunar l).getShiShenZhi p = .ok r ∧
        pyIndex r 0 = .ok (some s) ∧ IsTenGod d ((hiddenStems n).headD 0) s := by
      intro p n hn
      obtain ⟨r, e, f⟩ := C56_hidden_gods P p _ _ ed hn
      have ne := hiddenStems_ne n
      generalize hiddenStems n = hs at f ne ⊢
      cases f with
      | nil => exact absurd rfl ne
      | cons q _ =>
        obtain ⟨s, rfl, hs⟩ := q
        exact ⟨_, s, e, rfl, hs⟩
    obtain ⟨ra, a, a1, a2, a3⟩ := first _ _ ey
    obtain ⟨rb, b, b1, b2, b3⟩ := first _ _ em
    obtain ⟨rc, c, c1, c2, c3⟩ := first _ _ ed
    obtain ⟨re, e, e1, e2, e3⟩ := first _ _ et
    refine ⟨[some a, some b, some c, some e], ?_, .cons ⟨a, rfl, a3⟩ (.cons ⟨b, rfl, b3⟩ (.cons ⟨c, rfl, c3⟩ (.cons ⟨e, rfl, e3⟩ .nil)))⟩
    unfold getBaZiShiShenZhi
    dsimp only
    simp only [a1, b1, c1, e1, a2, b2, c2, e2, bind, Except.bind, pure, Except.pure]
  · intro p n hn
    exact C56_hidden_gods P p _ _ ed hn

/-- the chart of 2024-02-04 23:30: 甲辰 丙寅 戊戌 甲子 -/
example : sample.getBaZi = .ok [['甲', '辰'], ['丙', '寅'], ['戊', '戌'], ['甲', '子']] ∧
    sample.getBaZiWuXing = .ok [['木', '土'], ['火', '木'], ['土', '土'], ['木', '水']] ∧
    sample.getBaZiShiShenGan = .ok [some ['七', '杀'], some ['偏', '印'], some ['日', '主'], some ['七', '杀']] ∧
    sample.getBaZiShiShenZhi = .ok [some ['比', '肩'], some ['七', '杀'], some ['比', '肩'], some ['正', '财']] := by
  decide +kernel

/-! ## C80 -/

private theorem ok_of {α : Type} {x : Except PyErr α} {a : α} (h : x = .ok a) : ∃ b, x = .ok b := ⟨a, h⟩

/-- **C80** the long text of a lunar date can always be made; it begins with the date in words -/
theorem C80_full (H : Almanac A lo hi) (s t : Solar) (l : Lunar) (hs : s.Valid) (hst : s.next 1 = .ok t)
    (s1 : lo < s.year) (s2 : s.year < hi) (t2 : t.year < hi) (h0 : 0 ≤ lo) (hl : Lunar.fromSolar A s = .ok l)
    (hy : l.year ≤ s.year) (hm : 1 ≤ |l.month| ∧ |l.month| ≤ 12) (hd : 1 ≤ l.day ∧ l.day ≤ 30)
    (hq : ∀ q, l.jieQi[16]? = some q → q.year < hi) :
    ∃ w, l.toFullString A = .ok (dateWords l.year.toNat l.month l.day ++ w) := by
  have P : l.Proper := by
    rcases C38_proper H s l hs s1 s2 (by omega) hl with h | h
    · exact h
    · omega
  obtain ⟨l0, e0, f1, -⟩ := C38_round_trip H s hs s1 s2
  rw [hl] at e0
  cases e0
  have ny : 0 ≤ l.year := by rcases P.near with h | h <;> rw [h, f1] <;> omega
  obtain ⟨y, yl, ye, m, me, d, de, ti, N⟩ := P.numbers
  have ey : l.getYearInGanZhi = .ok (ganZhi y) := pair_eq N.yg N.yz
  have em : l.getMonthInGanZhi = .ok (ganZhi m) := pair_eq N.mg N.mz
  have ed : l.getDayInGanZhi = .ok (ganZhi d) := pair_eq N.dg N.dz
  have et : l.getTimeInGanZhi = .ok (ganZhi ti) := pair_eq N.tg N.tz
  have animal : ∀ n : ℤ, ∃ c, pyIndex SHENGXIAO (n % 12 + 1) = .ok c := by
    intro n
    have key : ∀ i : Fin 12, ∃ c, pyIndex SHENGXIAO (((i : ℕ) : ℤ) + 1) = .ok c := by
      intro i
      exact ⟨_, (by revert i; decide : pyIndex SHENGXIAO (((i : ℕ) : ℤ) + 1) = .ok (SHENGXIAO.getD ((i : ℕ) + 1) []))⟩
    have := key ⟨(n % 12).toNat, by omega⟩
    simpa only [show (((n % 12).toNat : ℕ) : ℤ) = n % 12 by omega] using this
  obtain ⟨a1, ea1⟩ : ∃ c, l.getYearShengXiao = .ok c := by unfold getYearShengXiao; rw [N.yz]; exact animal _
  obtain ⟨a2, ea2⟩ : ∃ c, l.getMonthShengXiao = .ok c := by unfold getMonthShengXiao; rw [N.mz]; exact animal _
  obtain ⟨a3, ea3⟩ : ∃ c, l.getDayShengXiao = .ok c := by unfold getDayShengXiao; rw [N.dz]; exact animal _
  obtain ⟨a4, ea4⟩ : ∃ c, l.getTimeShengXiao = .ok c := by unfold getTimeShengXiao; rw [N.tz]; exact animal _
  have etz : l.getTimeZhi = .ok [branch ti] := by unfold getTimeZhi; rw [N.tz]; exact zhi_num
  have nayin : ∀ {g : Except PyErr PyStr} {n : ℤ}, g = .ok (ganZhi n) → ∃ c, (g >>= fun z => pyDict NAYIN z) = .ok c := by
    intro g n hg
    obtain ⟨z, hz, -⟩ := C64_naYin_phase n
    refine ⟨z, ?_⟩
    rw [hg]
    show pyDict NAYIN (ganZhi n) = _
    unfold pyDictGet at hz
    obtain ⟨p, hp, rfl⟩ := Option.map_eq_some_iff.1 hz
    unfold pyDict
    rw [hp]
  obtain ⟨n1, en1⟩ : ∃ c, l.getYearNaYin = .ok c := nayin ey
  obtain ⟨n2, en2⟩ : ∃ c, l.getMonthNaYin = .ok c := nayin em
  obtain ⟨n3, en3⟩ : ∃ c, l.getDayNaYin = .ok c := nayin ed
  obtain ⟨n4, en4⟩ : ∃ c, l.getTimeNaYin = .ok c := nayin et
  obtain ⟨wk, ewk⟩ : ∃ c, l.getWeekInChinese = .ok c := by
    obtain ⟨_, _, _, _, f3, _⟩ := made_fields P.made (by have := P.range; omega) P.range.2
    unfold getWeekInChinese
    rw [f3, JD.getWeek_eq P.made.1 (by have := P.range; omega) P.range.2]
    have key : ∀ i : Fin 7, pyIndex SolarUtil.WEEK ((i : ℕ) : ℤ) = .ok (SolarUtil.WEEK.getD (i : ℕ) []) := by decide
    have := key ⟨((JD.jdn l.solar.date + 1) % 7).toNat, by omega⟩
    simp only [show ((((JD.jdn l.solar.date + 1) % 7).toNat : ℕ) : ℤ) = (JD.jdn l.solar.date + 1) % 7 by omega] at this
    exact ⟨_, this⟩
  obtain ⟨fe, efe⟩ : ∃ c, l.getFestivals A = .ok c := by
    obtain ⟨t', g1, vt, gc, gd⟩ := Cal.nextDay_spec hs 1
    rw [hst] at g1
    cases g1
    have tl : s.date.y ≤ t.date.y := year_mono hs.1 vt.1 (by rw [JD.jdn_eq hs.1, JD.jdn_eq vt.1]; omega)
    simp only [Solar.date] at tl
    obtain ⟨l', e', -⟩ := C41_next H s t l 1 hs vt ((Cal.daysAfter_iff hs.1 vt.1 1).mpr gd) (by rw [gc.1, gc.2.1, gc.2.2])
      s1 s2 (by omega) t2 hl
    unfold getFestivals
    rw [e']
    simp only [bind, Except.bind, pure, Except.pure]
    split_ifs <;> exact ⟨_, rfl⟩
  obtain ⟨of, eof⟩ : ∃ c, l.getOtherFestivals A = .ok c := by
    have T := P.table
    have len := T.len
    have g4 : l.jieQi[4]? = some l.jieQi[4] := List.getElem?_eq_getElem (by omega)
    have g8 : l.jieQi[8]? = some l.jieQi[8] := List.getElem?_eq_getElem (by omega)
    have g16 : l.jieQi[16]? = some l.jieQi[16] := List.getElem?_eq_getElem (by omega)
    have v4 := T.valid _ (List.mem_of_getElem? g4)
    have v8 := T.valid _ (List.mem_of_getElem? g8)
    have v16 := T.valid _ (List.mem_of_getElem? g16)
    exact ⟨_, C78_other_festivals H s l hs s1 s2 hl _ _ _ g4 g8 g16 (hq _ g16) _ _ _ _ ((isDay_iff hs.1).2 rfl)
      ((isDay_iff v8.1).2 rfl) ((isDay_iff v4.1).2 rfl) ((isDay_iff v16.1).2 rfl)⟩
  obtain ⟨jq, ejq⟩ : ∃ jq, l.getJieQi = .ok jq := by
    rcases C62_name P.table.len .all with ⟨i, s, -, -, -, -, h5⟩ | ⟨h1, h2⟩
    · exact ⟨_, h5⟩
    · exact ⟨_, h2⟩
  have hn : DaysAfter (Cal.dn l.solar.date - Cal.dn ⟨2000, 1, 1⟩) ⟨2000, 1, 1⟩ l.solar.date :=
    (Cal.daysAfter_iff (by decide) P.made.1.1 _).2 (by ring)
  have exiu := C49_mansion l P.made (by have := P.range; omega) P.range.2 _ hn
  obtain ⟨egong, eshou, eanimal, eluck, ezheng, -⟩ := C83_mansion l _ exiu
  obtain ⟨pg, epg⟩ : ∃ c, l.getPengZuGan = .ok c := by
    have key : ∀ i : Fin 10, pyIndex PENG_ZU_GAN (((i : ℕ) : ℤ) + 1) = .ok (PENG_ZU_GAN.getD ((i : ℕ) + 1) []) := by decide
    have := key ⟨(d % 10).toNat, by omega⟩
    simp only [show (((d % 10).toNat : ℕ) : ℤ) = d % 10 by omega] at this
    unfold getPengZuGan
    rw [N.dg]
    exact ⟨_, this⟩
  obtain ⟨pz, epz⟩ : ∃ c, l.getPengZuZhi = .ok c := by
    have key : ∀ i : Fin 12, pyIndex PENG_ZU_ZHI (((i : ℕ) : ℤ) + 1) = .ok (PENG_ZU_ZHI.getD ((i : ℕ) + 1) []) := by decide
    have := key ⟨(d % 12).toNat, by omega⟩
    simp only [show (((d % 12).toNat : ℕ) : ℤ) = d % 12 by omega] at this
    unfold getPengZuZhi
    rw [N.dz]
    exact ⟨_, this⟩
  obtain ⟨⟨x1, x2⟩, ⟨x3, x4⟩, x5, ⟨x6, x7⟩, x8, x9⟩ := C74_day l P d ed
  obtain ⟨x10, x11⟩ := x5 2
  obtain ⟨-, -, ech, esh, -⟩ := C71_day l P d ed
  unfold toFullString
  rw [C70_words l ny hm hd]
  simp only [ey, em, ed, ea1, ea2, ea3, ea4, etz, en1, en2, en3, en4, ewk, efe, eof, ejq, egong, eshou, eanimal, eluck, ezheng, exiu,
    epg, epz, x1, x2, x3, x4, x6, x7, x8, x9, x10, x11, ech, esh, bind, Except.bind, pure, Except.pure]
  split_ifs <;> simp only [List.append_assoc] <;> exact ⟨_, rfl⟩

/-- 2024-02-09, the 30th of month 12 -/
example : ∃ l w, Lunar.fromSolar Sample.astro ⟨2024, 2, 9, 23, 30, 0⟩ = .ok l ∧
    l.toFullString Sample.astro = .ok ("二〇二三年腊月三十".toList ++ w) := by
  obtain ⟨l, e, -, -, -, -, k, h1, h2, h3, h4⟩ :=
    C38_round_trip Sample.almanac ⟨2024, 2, 9, 23, 30, 0⟩ (by decide) (by decide) (by decide)
  obtain ⟨l', e', t⟩ := Sample.almanac.fromSolar_table (s := ⟨2024, 2, 9, 23, 30, 0⟩) (by decide) (by decide) (by decide)
  rw [e] at e'
  cases e'
  rw [isDay_iff (by decide)] at h4
  have j : JD.jdn (⟨2024, 2, 9, 23, 30, 0⟩ : Solar).date = 2460350 := by decide
  have m1 : Sample.almanac.first 26 = 2460321 := by decide +kernel
  have m2 : Sample.almanac.first (26 + 1) = 2460351 := by decide +kernel
  have hk : k = 26 := Sample.almanac.month_unique (n := 2460350) (by omega) (by omega) (by omega) (by omega)
  subst hk
  rw [show Sample.almanac.key 26 = (2023, 12) by decide +kernel, Prod.mk.injEq] at h1
  have hd : l.day = 30 := by omega
  obtain ⟨w, hw⟩ := C80_full Sample.almanac ⟨2024, 2, 9, 23, 30, 0⟩ ⟨2024, 2, 10, 23, 30, 0⟩ l (by decide)
    (Cal.next_eq (by decide) (by decide) 1 (by decide) (by decide)) (by decide) (by decide) (by decide) (by decide) e
    (by rw [h1.1]; decide) (by rw [h1.2]; decide) (by rw [hd]; decide) (by
      intro q hq
      rw [Sample.table_eq (by decide) (by decide) t] at hq
      have : (Sample.table 2024)[16]? = some ⟨2024, 8, 7, 15, 30, 0⟩ := by decide +kernel
      rw [show ((⟨2024, 2, 9, 23, 30, 0⟩ : Solar).year) = 2024 from rfl, this] at hq
      cases hq
      decide)
  rw [h1.1, h1.2, hd] at hw
  exact ⟨l, w, e, hw⟩

/-- **C80** the two sayings of Peng Zu begin with the stem and the branch of the day -/
theorem C80_pengzu (l : Lunar) (h : l.Proper) (d : ℤ) (hd : l.getDayInGanZhi = .ok (ganZhi d)) :
    (∃ w, l.getPengZuGan = .ok (stem d :: '不' :: w)) ∧ ∃ w, l.getPengZuZhi = .ok (branch d :: '不' :: w) := by
  obtain ⟨a, b⟩ := h.day hd
  unfold getPengZuGan getPengZuZhi
  rw [a, b]
  constructor
  · have := EightChar.lift10 (P := fun k c => ∃ w, pyIndex PENG_ZU_GAN (k + 1) = .ok (c :: '不' :: w)) (by
      intro i
      exact ⟨(PENG_ZU_GAN.getD ((i : ℕ) + 1) []).drop 2, by revert i; decide⟩) d
    exact this
  · have := EightChar.lift12 (P := fun k c => ∃ w, pyIndex PENG_ZU_ZHI (k + 1) = .ok (c :: '不' :: w)) (by
      intro i
      exact ⟨(PENG_ZU_ZHI.getD ((i : ℕ) + 1) []).drop 2, by revert i; decide⟩) d
    exact this

/-- 戊不受田田主不祥, 戌不吃犬作怪上床 -/
example : sample.getPengZuGan = .ok "戊不受田田主不祥".toList ∧ sample.getPengZuZhi = .ok "戌不吃犬作怪上床".toList := by decide +kernel

/-- **C80** the animals of the pillars are those of their branches -/
theorem C80_animals (l : Lunar) (h : l.Proper) (y yl ye m me d t : ℤ) (hy : l.getYearInGanZhi = .ok (ganZhi y))
    (hyl : l.getYearInGanZhiByLiChun = .ok (ganZhi yl)) (hye : l.getYearInGanZhiExact = .ok (ganZhi ye))
    (hm : l.getMonthInGanZhi = .ok (ganZhi m)) (hme : l.getMonthInGanZhiExact = .ok (ganZhi me))
    (hd : l.getDayInGanZhi = .ok (ganZhi d)) (ht : l.getTimeInGanZhi = .ok (ganZhi t)) :
    (l.getYearShengXiao = .ok [animal y] ∧ l.getYearShengXiaoByLiChun = .ok [animal yl] ∧ l.getYearShengXiaoExact = .ok [animal ye]) ∧
    (l.getMonthShengXiao = .ok [animal m] ∧ l.getMonthShengXiaoExact = .ok [animal me]) ∧
    l.getDayShengXiao = .ok [animal d] ∧ l.getTimeShengXiao = .ok [animal t] := by
  obtain ⟨y', yl', ye', m', me', d', de', t', N⟩ := h.numbers
  have key : ∀ n : ℤ, pyIndex SHENGXIAO (n % 12 + 1) = .ok [animal n] := by
    intro n
    have := EightChar.lift12 (P := fun k _ => pyIndex SHENGXIAO (k + 1) = .ok [animal k]) (by decide) n
    rwa [show animal (n % 12) = animal n by unfold animal; rw [Int.emod_emod]] at this
  have u1 := pair_bounds (by rw [N.yg]; omega) (by rw [N.yg]; omega) (by rw [N.yz]; omega) (by rw [N.yz]; omega) hy
  have u2 := pair_bounds (by rw [N.ylg]; omega) (by rw [N.ylg]; omega) (by rw [N.ylz]; omega) (by rw [N.ylz]; omega) hyl
  have u3 := pair_bounds (by rw [N.yeg]; omega) (by rw [N.yeg]; omega) (by rw [N.yez]; omega) (by rw [N.yez]; omega) hye
  have u4 := pair_bounds (by rw [N.meg]; omega) (by rw [N.meg]; omega) (by rw [N.mez]; omega) (by rw [N.mez]; omega) hme
  unfold getYearShengXiao getYearShengXiaoByLiChun getYearShengXiaoExact getMonthShengXiao getMonthShengXiaoExact getDayShengXiao getTimeShengXiao
  rw [u1.2, u2.2, u3.2, u4.2, (h.month hm).2, (h.day hd).2, (h.time ht).2]
  exact ⟨⟨key _, key _, key _⟩, ⟨key _, key _⟩, key _, key _⟩

/-- the year 癸卯 (兔) until the new year, 甲辰 (龙) from 立春 on -/
example : sample.getYearShengXiao = .ok ['兔'] ∧ sample.getYearShengXiaoByLiChun = .ok ['龙'] ∧ sample.getDayShengXiao = .ok ['狗'] := by
  decide +kernel

end
