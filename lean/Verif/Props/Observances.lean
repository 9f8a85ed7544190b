import Verif.Proof.Ephem.MonthPillar
import Verif.Proof.Texts
import Verif.Props.MonthLength
import Verif.Props.Words

/-! # C100: observances and texts of the Buddhist and the Taoist calendar -/

namespace Spec

/-- the thirty anniversaries of the Buddhist year: month, day, name -/
def buddhaDays : List (ℤ × ℤ × List Char) :=
  [(1, 1, ['弥', '勒', '菩', '萨', '圣', '诞']),
   (1, 6, ['定', '光', '佛', '圣', '诞']),
   (2, 8, ['释', '迦', '牟', '尼', '佛', '出', '家']),
   (2, 15, ['释', '迦', '牟', '尼', '佛', '涅', '槃']),
   (2, 19, ['观', '世', '音', '菩', '萨', '圣', '诞']),
   (2, 21, ['普', '贤', '菩', '萨', '圣', '诞']),
   (3, 16, ['准', '提', '菩', '萨', '圣', '诞']),
   (4, 4, ['文', '殊', '菩', '萨', '圣', '诞']),
   (4, 8, ['释', '迦', '牟', '尼', '佛', '圣', '诞']),
   (4, 15, ['佛', '吉', '祥', '日']),
   (4, 28, ['药', '王', '菩', '萨', '圣', '诞']),
   (5, 13, ['伽', '蓝', '菩', '萨', '圣', '诞']),
   (6, 3, ['韦', '驮', '菩', '萨', '圣', '诞']),
   (6, 19, ['观', '音', '菩', '萨', '成', '道']),
   (7, 13, ['大', '势', '至', '菩', '萨', '圣', '诞']),
   (7, 15, ['佛', '欢', '喜', '日']),
   (7, 24, ['龙', '树', '菩', '萨', '圣', '诞']),
   (7, 30, ['地', '藏', '菩', '萨', '圣', '诞']),
   (8, 15, ['月', '光', '菩', '萨', '圣', '诞']),
   (8, 22, ['燃', '灯', '佛', '圣', '诞']),
   (9, 9, ['摩', '利', '支', '天', '菩', '萨', '圣', '诞']),
   (9, 19, ['观', '世', '音', '菩', '萨', '出', '家']),
   (9, 30, ['药', '师', '琉', '璃', '光', '佛', '圣', '诞']),
   (10, 5, ['达', '摩', '祖', '师', '圣', '诞']),
   (10, 20, ['文', '殊', '菩', '萨', '出', '家']),
   (11, 17, ['阿', '弥', '陀', '佛', '圣', '诞']),
   (11, 19, ['日', '光', '菩', '萨', '圣', '诞']),
   (12, 8, ['释', '迦', '牟', '尼', '佛', '成', '道']),
   (12, 23, ['监', '斋', '菩', '萨', '圣', '诞']),
   (12, 29, ['华', '严', '菩', '萨', '圣', '诞'])]

end Spec

section
open Spec ShouXing

private theorem other_good : Keys.Good FotoUtil.OTHER_FESTIVAL := by decide +kernel

private theorem table_eq : FotoUtil.OTHER_FESTIVAL.map (fun p => (Keys.parse p.1, p.2)) = buddhaDays.map (fun p => ((p.1, p.2.1), [p.2.2])) := by
  decide +kernel

/-- **C100** the anniversaries of a Buddhist date are those listed for its month and day; leap months have none -/
theorem C100_other (f : Foto) (w : List Char) : w ∈ f.getOtherFestivals ↔ (f.getMonth, f.getDay, w) ∈ buddhaDays := by
  unfold Foto.getOtherFestivals
  generalize f.getMonth = m
  generalize f.getDay = d
  rw [Keys.dict_md other_good]
  have e1 : (FotoUtil.OTHER_FESTIVAL.find? (fun p => Keys.parse p.1 = (m, d))).map Prod.snd =
      ((FotoUtil.OTHER_FESTIVAL.map (fun p => (Keys.parse p.1, p.2))).find? (fun p => p.1 = (m, d))).map Prod.snd := by
    rw [List.find?_map, Option.map_map]
    rfl
  rw [e1, table_eq]
  have nd : (buddhaDays.map (fun p => (p.1, p.2.1))).Nodup := by decide +kernel
  generalize buddhaDays = L at nd
  induction L with
  | nil => simp
  | cons p L ih =>
    obtain ⟨pm, pd, pw⟩ := p
    rw [List.map_cons, List.nodup_cons] at nd
    rw [List.map_cons, List.find?_cons]
    by_cases c : (pm, pd) = (m, d)
    · simp only [c, decide_true, Option.map_some, Option.getD_some, List.mem_cons, List.not_mem_nil, or_false]
      cases c
      constructor
      · rintro rfl; exact .inl rfl
      · rintro (h | h)
        · cases h; rfl
        · exact absurd (List.mem_map.2 ⟨_, h, rfl⟩) nd.1
    · simp only [c, decide_false]
      refine (ih nd.2).trans ?_
      rw [List.mem_cons]
      constructor
      · exact .inr
      · rintro (h | h)
        · cases h; exact absurd rfl c
        · exact h

/-- **C100** an anniversary is on one day of the year only -/
theorem C100_once (f f' : Foto) (w : List Char) (h : w ∈ f.getOtherFestivals) (h' : w ∈ f'.getOtherFestivals) :
    f.getMonth = f'.getMonth ∧ f.getDay = f'.getDay := by
  rw [C100_other] at h h'
  have nd : ∀ p ∈ buddhaDays, ∀ q ∈ buddhaDays, p.2.2 = q.2.2 → p = q := by decide +kernel
  have := nd _ h _ h' rfl
  simp only [Prod.mk.injEq] at this
  exact ⟨this.1, this.2.1⟩

private theorem foto_ymd {A : Astro} {y m d : ℤ} {l : Lunar} (e : Lunar.fromYmdHms A y m d 0 0 0 = .ok l) :
    Foto.fromYmd A (y + 544) m d = .ok ⟨l⟩ := by
  unfold Foto.fromYmd Foto.fromYmdHms
  rw [show y + 544 + Foto.DEAD_YEAR - 1 = y by unfold Foto.DEAD_YEAR; ring, e]
  rfl

/-- **C100** every anniversary comes every year, in the library's own calendar.  Full statement: for each `(m, d, w)` of the
list.  It fails for the two anniversaries on a thirtieth day (`C100_violated_short_month`), so here `d ≤ 29`. -/
theorem C100_every_year_partial {M : Libm} (hM : M.Good) (y m d : ℤ) (w : List Char) (h1 : 1586 ≤ y) (h2 : y ≤ 5000) (hw : (m, d, w) ∈ buddhaDays)
    (hd : d ≤ 29) : ∃ f, Foto.fromYmd (astro M) (y + 544) m d = .ok f ∧ w ∈ f.getOtherFestivals ∧ f.getYear = y + 544 ∧
      (f.lunar.hour, f.lunar.minute, f.lunar.second) = (0, 0, 0) := by
  have b : ∀ p ∈ buddhaDays, (1 ≤ p.1 ∧ p.1 ≤ 12) ∧ 1 ≤ p.2.1 ∧ p.2.1 ≤ 30 := by decide +kernel
  obtain ⟨⟨m1, m2⟩, d1, -⟩ := b _ hw
  obtain ⟨k, hk⟩ := Ephem.has_month (hM := hM) (Y := y) (m := m) (by omega) (by omega) m1 m2
  obtain ⟨lm, e, -⟩ := (Ephem.almanac (Ephem.full hM)).getMonth_some (k := k) (by rw [show (Ephem.almanac (Ephem.full hM)).key k = _ from hk]; omega)
    (by rw [show (Ephem.almanac (Ephem.full hM)).key k = _ from hk]; omega)
  rw [show (Ephem.almanac (Ephem.full hM)).key k = _ from hk] at e
  obtain ⟨-, -, dc⟩ := C86_fromYm hM y m (by omega) h2 lm e
  obtain ⟨l, el⟩ := (C86_dates hM y m d 0 0 0 (by omega) h2).1.2 ⟨⟨lm, e, d1, by omega, dc⟩, by decide⟩
  obtain ⟨r, rs⟩ := C39_round_trip (Ephem.almanac (Ephem.full hM)) y m d 0 0 0 l (by omega) (by omega) el
  obtain ⟨hv, sy⟩ : l.solar.Valid ∧ y - 1 ≤ l.solar.year ∧ l.solar.year ≤ y + 1 := by
    obtain ⟨k', x, hk', a1, a2, hx, hn, x1, x2, hc⟩ := accepted (Ephem.almanac (Ephem.full hM)) (by omega) (by omega) el
    have k1 : ((Ephem.almanac (Ephem.full hM)).key k').1 = y := by rw [hk']
    have k2 : ((Ephem.almanac (Ephem.full hM)).key k').2 = m := by rw [hk']
    obtain ⟨l', e', -, -, -, -, -, q, v, -⟩ := (Ephem.almanac (Ephem.full hM)).fromYmdHms_ok (k := k') (by omega) (by omega) a1 a2 hx hn x1 x2 hc
    rw [k1, k2, el] at e'
    cases e'
    have := (Ephem.almanac (Ephem.full hM)).near' k' (by omega) (by omega) x _ hx hn (by omega) (by omega)
    rw [k1] at this
    refine ⟨v.1, ?_⟩
    rw [q]
    exact this
  simp only [Prod.mk.injEq] at r
  obtain ⟨r1, r2, r3, r4, r5, r6⟩ := r
  obtain ⟨-, P, -⟩ := Ephem.made hM hv (by omega) (by omega) rs
  refine ⟨⟨l⟩, foto_ymd el, (C100_other _ _).2 ?_, ?_, by rw [r4, r5, r6]⟩
  · show (l.month, l.day, w) ∈ _
    rw [r2, r3]
    exact hw
  · rw [(C53_year l P).1, r1]

/-- **C100** when the ninth month has 29 days the anniversary of its thirtieth day is on no day of the year -/
theorem C100_violated_short_month {A : Astro} {lo hi : ℤ} (H : Almanac A lo hi) (y k : ℤ) (h1 : lo < y) (h2 : y < hi) (hk : H.key k = (y, 9))
    (h29 : H.first (k + 1) - H.first k = 29) (m d h mi s : ℤ) (f : Foto) (hf : Foto.fromYmdHms A (y + 544) m d h mi s = .ok f) :
    ['药', '师', '琉', '璃', '光', '佛', '圣', '诞'] ∉ f.getOtherFestivals := by
  intro w
  obtain ⟨a, b, -⟩ := C53_foto A _ m d h mi s f hf
  have e : Lunar.fromYmdHms A y m d h mi s = .ok f.lunar := by
    unfold Foto.fromYmdHms at hf
    rw [show y + 544 + Foto.DEAD_YEAR - 1 = y by unfold Foto.DEAD_YEAR; ring] at hf
    cases hl : Lunar.fromYmdHms A y m d h mi s with
    | error x => rw [hl] at hf; cases hf
    | ok l => rw [hl] at hf; cases hf; rfl
  rw [C100_other, a, b] at w
  have only : ∀ p ∈ buddhaDays, p.2.2 = ['药', '师', '琉', '璃', '光', '佛', '圣', '诞'] → p.1 = 9 ∧ p.2.1 = 30 := by decide +kernel
  obtain ⟨rfl, rfl⟩ := only _ w rfl
  obtain ⟨⟨k', hk', -, d2⟩, -⟩ := (C40_accepts_iff H y 9 30 h mi s h1 h2).1.1 ⟨_, e⟩
  obtain rfl := H.key_inj k k' (by rw [hk, hk'])
  omega

/-- the sample almanac: the ninth month of 2024 (number 35) has 29 days, the first month 6th is a day of an anniversary in 2024 -/
example : (∀ m d h mi s f, Foto.fromYmdHms Sample.astro (2024 + 544) m d h mi s = .ok f →
    ['药', '师', '琉', '璃', '光', '佛', '圣', '诞'] ∉ f.getOtherFestivals) ∧
    ∃ f, Foto.fromYmd (astro Libm.cut) (2024 + 544) 1 6 = .ok f ∧ ['定', '光', '佛', '圣', '诞'] ∈ f.getOtherFestivals := by
  refine ⟨fun m d h mi s f => C100_violated_short_month Sample.almanac 2024 35 (by decide) (by decide) (by decide +kernel) (by decide +kernel)
    m d h mi s f, ?_⟩
  obtain ⟨f, a, b, -⟩ := C100_every_year_partial Libm.cut_good 2024 1 6 ['定', '光', '佛', '圣', '诞'] (by norm_num) (by norm_num)
    (by decide +kernel) (by norm_num)
  exact ⟨f, a, b⟩

/-- **C100** every date of the Taoist calendar can be given by year, month and day alone: it is the date at midnight -/
theorem C100_tao_midnight (A : Astro) (y m d : ℤ) : Tao.fromYmd A y m d = Tao.fromYmdHms A y m d 0 0 0 ∧
    ∀ t, Tao.fromYmd A y m d = .ok t → t.getYear = y ∧ t.getMonth = m ∧ t.getDay = d :=
  ⟨rfl, fun t e => C53_tao A y m d 0 0 0 t e⟩

/-! ## Texts -/

private theorem numeral_ne (n : ℕ) {c : Char} (h : c ∉ ['〇', '一', '二', '三', '四', '五', '六', '七', '八', '九', '十', '?']) : numeral n ≠ c := by
  intro e
  apply h
  rw [← e]
  unfold numeral
  rcases lt_or_ge n 11 with hn | hn
  · interval_cases n <;> decide
  · rw [List.getD_eq_default _ _ (by simpa using hn)]
    decide

private theorem year_words (n : ℕ) : '年' ∉ yearWords n := by
  unfold yearWords
  intro h
  obtain ⟨c, -, e⟩ := List.mem_map.1 h
  exact numeral_ne _ (by decide) e

private theorem month_words (m : ℤ) : '月' ∉ monthWords m := by
  unfold monthWords
  have := numeral_ne |m|.toNat (c := '月') (by decide)
  intro h
  rw [List.mem_append] at h
  rcases h with h | h
  · split_ifs at h
    · revert h; decide
    · cases h
  · rw [List.mem_singleton] at h
    split_ifs at h
    · revert h; decide
    · revert h; decide
    · revert h; decide
    · exact this h.symm

private theorem day_words (d : ℤ) : ∃ a b, dayWords d = [a, b] := by
  unfold dayWords
  split_ifs <;> exact ⟨_, _, rfl⟩

/-- what follows a date in words leaves it readable -/
private theorem prefix_inj {y y' : ℕ} {m m' d d' : ℤ} {w w' : List Char} (h : dateWords y m d ++ w = dateWords y' m' d' ++ w') :
    dateWords y m d = dateWords y' m' d' := by
  unfold dateWords at *
  obtain ⟨a, b, e⟩ := day_words d
  obtain ⟨a', b', e'⟩ := day_words d'
  rw [e, e'] at h ⊢
  simp only [List.append_assoc, List.cons_append, List.nil_append] at h ⊢
  obtain ⟨h1, h2⟩ := Txt.sep_inj (year_words y) (year_words y') h
  obtain ⟨h3, h4⟩ := Txt.sep_inj (month_words m) (month_words m') h2
  simp only [List.cons.injEq] at h4
  rw [h1, h3, h4.1, h4.2.1]

/-- **C100** the full text of a Buddhist date: the date in words, then its observances in brackets -/
theorem C100_foto_text (l : Lunar) (h : l.Proper) (hm : 1 ≤ |l.month| ∧ |l.month| ≤ 12) (hd : 1 ≤ l.day ∧ l.day ≤ 30) :
    (Foto.mk l).toFullString = .ok (dateWords (l.year + 544).toNat l.month l.day ++
      ((Foto.mk l).getFestivals.flatMap (fun f => ' ' :: '(' :: (f.name ++ [')'])))) := by
  have hy := (C53_year l h).1
  have := h.near
  have := h.range
  have e := (C70_foto_tao l l hm hd hm hd).1 (by omega)
  unfold Foto.toFullString
  rw [e, hy, List.flatMap_def]
  rfl

/-- **C100** two Buddhist dates with the same full text are the same date -/
theorem C100_foto_text_distinct (l l' : Lunar) (h : l.Proper) (h' : l'.Proper) (hm : 1 ≤ |l.month| ∧ |l.month| ≤ 12) (hd : 1 ≤ l.day ∧ l.day ≤ 30)
    (hm' : 1 ≤ |l'.month| ∧ |l'.month| ≤ 12) (hd' : 1 ≤ l'.day ∧ l'.day ≤ 30) (e : (Foto.mk l).toFullString = (Foto.mk l').toFullString) :
    l.year = l'.year ∧ l.month = l'.month ∧ l.day = l'.day := by
  rw [C100_foto_text l h hm hd, C100_foto_text l' h' hm' hd', Except.ok.injEq] at e
  have hy := (C53_year l h).1
  have hy' := (C53_year l' h').1
  have := h.near
  have := h.range
  have := h'.near
  have := h'.range
  obtain ⟨q1, -, q, -⟩ := C70_foto_tao l l' hm hd hm' hd'
  obtain ⟨q2, -⟩ := C70_foto_tao l' l hm' hd' hm hd
  obtain ⟨r1, r2, r3⟩ := q (by rw [q1 (by omega), q2 (by omega), hy, hy', prefix_inj e])
  exact ⟨by omega, r2, r3⟩

private theorem parts_of {l : Lunar} (h : l.Proper) : ∃ a b c t, l.getYearInGanZhi = .ok (ganZhi a) ∧ l.getMonthInGanZhi = .ok (ganZhi b) ∧
    l.getDayInGanZhi = .ok (ganZhi c) ∧ l.getTimeInGanZhi = .ok (ganZhi t) := by
  have hp := C36_pillars l h.made h.range h.table h.near
  obtain ⟨a, ha⟩ := hp l.getYearInGanZhi (by simp)
  obtain ⟨b, hb⟩ := hp l.getMonthInGanZhi (by simp)
  obtain ⟨c, hc⟩ := hp l.getDayInGanZhi (by simp)
  obtain ⟨t, ht⟩ := hp l.getTimeInGanZhi (by simp)
  exact ⟨a, b, c, t, ha, hb, hc, ht⟩

/-- **C100** the full text of a Taoist date: year, pillars of year, month and day, month and day in words, branch of the hour -/
theorem C100_tao_text (l : Lunar) (h : l.Proper) (hm : 1 ≤ |l.month| ∧ |l.month| ≤ 12) (hd : 1 ≤ l.day ∧ l.day ≤ 30) (a b c t : ℤ)
    (ha : l.getYearInGanZhi = .ok (ganZhi a)) (hb : l.getMonthInGanZhi = .ok (ganZhi b)) (hc : l.getDayInGanZhi = .ok (ganZhi c))
    (ht : l.getTimeInGanZhi = .ok (ganZhi t)) :
    (Tao.mk l).toFullString = .ok (['道', '歷'] ++ yearWords (l.year + 2697).toNat ++ ['年', '，', '天', '运', stem a, branch a, '年', '，',
      stem b, branch b, '月', '，', stem c, branch c, '日', '。'] ++ monthWords l.month ++ ['月'] ++ dayWords l.day ++
      ['日', '，', branch t, '時', '。']) := by
  have hy := (C53_year l h).2
  have := h.near
  have := h.range
  obtain ⟨x, u, v⟩ := C70_parts l (l.year + 2697) (by omega) hm hd
  have hz : l.getTimeZhi = .ok [branch t] := by
    unfold Lunar.getTimeZhi
    rw [(h.time ht).2, Lunar.zhi_num]
  have hx : (Tao.mk l).getYearInChinese = .ok (yearWords (l.year + 2697).toNat) := by
    unfold Tao.getYearInChinese
    rw [hy, x]
  unfold Tao.toFullString
  rw [hx, show (Tao.mk l).getMonthInChinese = _ from u, show (Tao.mk l).getDayInChinese = _ from v]
  dsimp only
  rw [ha, hb, hc, hz]
  simp [bind, Except.bind, pure, Except.pure, ganZhi]

/-- **C100** two Taoist dates with the same full text are the same date and the same double-hour -/
theorem C100_tao_text_distinct (l l' : Lunar) (h : l.Proper) (h' : l'.Proper) (hm : 1 ≤ |l.month| ∧ |l.month| ≤ 12) (hd : 1 ≤ l.day ∧ l.day ≤ 30)
    (hm' : 1 ≤ |l'.month| ∧ |l'.month| ≤ 12) (hd' : 1 ≤ l'.day ∧ l'.day ≤ 30) (e : (Tao.mk l).toFullString = (Tao.mk l').toFullString) :
    l.year = l'.year ∧ l.month = l'.month ∧ l.day = l'.day ∧ l.getTimeZhi = l'.getTimeZhi := by
  obtain ⟨a, b, c, t, ha, hb, hc, ht⟩ := parts_of h
  obtain ⟨a', b', c', t', ha', hb', hc', ht'⟩ := parts_of h'
  rw [C100_tao_text l h hm hd a b c t ha hb hc ht, C100_tao_text l' h' hm' hd' a' b' c' t' ha' hb' hc' ht', Except.ok.injEq] at e
  obtain ⟨p, q, w⟩ := day_words l.day
  obtain ⟨p', q', w'⟩ := day_words l'.day
  rw [w, w'] at e
  simp only [List.append_assoc, List.cons_append, List.nil_append, List.cons.injEq, true_and] at e
  obtain ⟨e1, e2⟩ := Txt.sep_inj (year_words _) (year_words _) e
  simp only [List.cons.injEq, true_and] at e2
  obtain ⟨-, -, -, -, -, -, e3⟩ := e2
  obtain ⟨e4, e5⟩ := Txt.sep_inj (month_words _) (month_words _) e3
  simp only [List.cons.injEq, true_and, and_true] at e5
  have hy := (C53_year l h).2
  have hy' := (C53_year l' h').2
  have := h.near
  have := h.range
  have := h'.near
  have := h'.range
  obtain ⟨-, q1, -, q3⟩ := C70_foto_tao l l' hm hd hm' hd'
  obtain ⟨-, q2, -⟩ := C70_foto_tao l' l hm' hd' hm hd
  obtain ⟨r1, r2, r3⟩ := q3 (by
    rw [q1 (by omega), q2 (by omega), hy, hy']
    unfold dateWords
    rw [e1, e4, w, w', e5.1, e5.2.1])
  refine ⟨by omega, r2, r3, ?_⟩
  unfold Lunar.getTimeZhi
  rw [(h.time ht).2, (h'.time ht').2, Lunar.zhi_num, Lunar.zhi_num, e5.2.2]

/-- 2024-02-04 23:30 -/
example : (Tao.mk sample).toFullString = .ok ("道歷四七二〇年，天运癸卯年，丙寅月，戊戌日。腊月廿五日，子時。".toList) ∧
    ∃ w, (Foto.mk sample).toFullString = .ok ("二五六七年腊月廿五".toList ++ w) := by
  have hm : 1 ≤ |sample.month| ∧ |sample.month| ≤ 12 := by decide +kernel
  have hd : 1 ≤ sample.day ∧ sample.day ≤ 30 := by decide +kernel
  refine ⟨?_, ?_⟩
  · rw [C100_tao_text sample sample_proper hm hd 39 2 34 0 (by decide +kernel) (by decide +kernel) (by decide +kernel) (by decide +kernel)]
    decide +kernel
  · rw [C100_foto_text sample sample_proper hm hd, show dateWords (sample.year + 544).toNat sample.month sample.day = "二五六七年腊月廿五".toList by
      decide +kernel]
    exact ⟨_, rfl⟩

/-- **C100** the full text of a Buddhist observance: its name, result and remark, those that are there, with spaces between -/
theorem C100_foto_festival_text (f : FotoFestival) (hn : f.name ≠ []) :
    f.toFullString = [' '].intercalate ([f.name, f.result, f.remark].filter (· ≠ [])) := by
  obtain ⟨n, r, e, k⟩ := f
  unfold FotoFestival.toFullString
  dsimp only at hn ⊢
  cases r <;> cases k <;> simp [hn, List.intercalate]

/-- **C100** every observance a Buddhist date can have has a name without spaces: it is what comes before the first space -/
theorem C100_foto_festival_name (f : Foto) (x : FotoFestival) (hx : x ∈ f.getFestivals) :
    x.name ≠ [] ∧ x.toFullString.takeWhile (· ≠ ' ') = x.name := by
  have key : ∀ p ∈ FotoUtil.FESTIVAL, ∀ x ∈ p.2, x.name ≠ [] ∧ x.toFullString.takeWhile (· ≠ ' ') = x.name := by decide +kernel
  unfold Foto.getFestivals at hx
  cases h : pyDictGet FotoUtil.FESTIVAL (Lunar.md |f.getMonth| f.getDay) with
  | none => rw [h] at hx; cases hx
  | some v =>
    rw [h] at hx
    obtain ⟨p, hp, e⟩ := Option.map_eq_some_iff.1 h
    exact key p (List.mem_of_find?_eq_some hp) x (by rw [e]; exact hx)

/-- **C100** the full text of a Taoist festival tells festivals apart: name and, in brackets, remark -/
theorem C100_tao_festival_text (f g : TaoFestival) (hf : '[' ∉ f.name) (hg : '[' ∉ g.name) : f.toFullString = g.toFullString ↔ f = g := by
  refine ⟨fun h => ?_, fun h => by rw [h]⟩
  obtain ⟨n, r⟩ := f
  obtain ⟨n', r'⟩ := g
  unfold TaoFestival.toFullString at h
  dsimp only at hf hg h
  cases r with
  | nil =>
    cases r' with
    | nil => simpa using h
    | cons c r' =>
      rw [if_neg (by simp), if_pos (by simp)] at h
      exact absurd (by rw [h]; simp) hf
  | cons c r =>
    cases r' with
    | nil =>
      rw [if_pos (by simp), if_neg (by simp)] at h
      exact absurd (by rw [← h]; simp) hg
    | cons c' r' =>
      rw [if_pos (by simp), if_pos (by simp)] at h
      simp only [List.append_assoc, List.cons_append, List.nil_append] at h
      obtain ⟨h1, h2⟩ := Txt.sep_inj hf hg h
      have h3 : (c :: r) ++ [']'] = (c' :: r') ++ [']'] := h2
      rw [h1, List.append_cancel_right h3]

/-- **C100** every festival a Taoist date can have has such a name -/
theorem C100_tao_festival_name (t : Tao) (fs : List TaoFestival) (h : t.getFestivals = .ok fs) (x : TaoFestival) (hx : x ∈ fs) :
    x.name ≠ [] ∧ '[' ∉ x.name := by
  have k1 : ∀ p ∈ TaoUtil.FESTIVAL, ∀ x ∈ p.2, x.name ≠ [] ∧ '[' ∉ x.name := by decide +kernel
  have k2 : ∀ p ∈ TaoUtil.BA_JIE, p.2 ≠ [] ∧ '[' ∉ p.2 := by decide +kernel
  have k3 : ∀ p ∈ TaoUtil.BA_HUI, p.2 ≠ [] ∧ '[' ∉ p.2 := by decide +kernel
  have mem : ∀ {T : List (PyStr × PyStr)} {k : PyStr} {x : TaoFestival}, (∀ p ∈ T, p.2 ≠ [] ∧ '[' ∉ p.2) →
      x ∈ (pyDictGet T k).toList.map (fun s => (⟨s, []⟩ : TaoFestival)) → x.name ≠ [] ∧ '[' ∉ x.name := by
    intro T k x hT hx
    obtain ⟨s, hs, rfl⟩ := List.mem_map.1 hx
    rw [Option.mem_toList] at hs
    obtain ⟨p, hp, e⟩ := Option.map_eq_some_iff.1 hs
    have := hT p (List.mem_of_find?_eq_some hp)
    rwa [e] at this
  have fst : ∀ {x}, x ∈ (pyDictGet TaoUtil.FESTIVAL (Lunar.md t.getMonth t.getDay)).getD [] → x.name ≠ [] ∧ '[' ∉ x.name := by
    intro x hx
    cases h : pyDictGet TaoUtil.FESTIVAL (Lunar.md t.getMonth t.getDay) with
    | none => rw [h] at hx; cases hx
    | some v =>
      rw [h] at hx
      obtain ⟨p, hp, e⟩ := Option.map_eq_some_iff.1 h
      exact k1 p (List.mem_of_find?_eq_some hp) x (by rw [e]; exact hx)
  unfold Tao.getFestivals at h
  cases hj : t.lunar.getJieQi with
  | error e => rw [hj] at h; cases h
  | ok jq =>
    cases hg : t.lunar.getDayInGanZhi with
    | error e => rw [hj, hg] at h; cases h
    | ok gz =>
      rw [hj, hg] at h
      simp only [bind, Except.bind, pure, Except.pure, Except.ok.injEq] at h
      subst h
      rw [List.mem_append, List.mem_append] at hx
      rcases hx with (hx | hx) | hx
      · split_ifs at hx
        · rw [List.mem_append, List.mem_singleton] at hx
          rcases hx with hx | rfl
          · exact fst hx
          · decide
        · rw [List.mem_append, List.mem_singleton] at hx
          rcases hx with hx | rfl
          · exact fst hx
          · decide
        · exact fst hx
      · exact mem k2 hx
      · exact mem k3 hx

example : (⟨['三', '元'], ['上']⟩ : TaoFestival).toFullString = ['三', '元', '[', '上', ']'] ∧
    (⟨['月', '望'], ['减', '寿'], true, ['即', '戒']⟩ : FotoFestival).toFullString = ['月', '望', ' ', '减', '寿', ' ', '即', '戒'] := by decide

end
