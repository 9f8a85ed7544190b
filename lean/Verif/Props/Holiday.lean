import Verif.Proof.Holiday2

/-!
# Holiday tables (C24-C28)

`tableText t` is the text of a table of records; `Hol.TOk names t` says all records are
well-formed for `names`; `Hol.shown names r` is the `Holiday` a record describes.
-/

open Spec HolidayUtil Hol

/-! ## C24 -/

/-- **C24** for every well-formed table and every date with a four-digit year, `getHoliday(y, m, d)`
is the first record whose day field spells that date, and `None` iff there is no such record. -/
theorem C24_getHoliday (names : List PyStr) (t : List HRec) (h : TOk names t) (y m d : ℤ)
    (h0 : 1000 ≤ y) (h1 : y ≤ 9999) (m0 : 1 ≤ m) (m1 : m ≤ 12) (d0 : 1 ≤ d) (d1 : d ≤ 31) :
    getHoliday ⟨names, tableText t⟩ y m d
      = .ok ((t.find? (fun r => r.day = ymd8 y m d)).map (shown names)) :=
  getHoliday_table h h0 h1 m0 (by omega) d0 (by omega)

/-- **C24** the same for the string form `getHoliday("YYYY-MM-DD")` (or without dashes). -/
theorem C24_getHoliday_string (names : List PyStr) (t : List HRec) (h : TOk names t) (key : PyStr)
    (hk : key.length = 8) (hd : '-' ∉ key) :
    getHolidayStr ⟨names, tableText t⟩ (dashed key) 0 0
      = .ok ((t.find? (fun r => r.day = key)).map (shown names)) := by
  unfold getHolidayStr
  rw [if_pos (by simp), replace_dashed hd]
  exact lookup_table h hk

/-- **C24** for years below 1000 it fails: `getHoliday(200, 11, 22)` reports 2001-12-29. -/
theorem C24_short_year : getHoliday ⟨[['x']], "200112290020020101".toList⟩ 200 11 22
    = .ok (some ⟨"2001-12-29".toList, ['x'], true, "2002-01-01".toList⟩) := by decide +kernel

/-- three names, three records; the text contains the digits of 2011-10-01 across a record
border, which is not reported -/
def sampleNames : List PyStr := [['a'], ['b'], ['c']]
def sampleTable : List HRec :=
  [⟨"20101002".toList, '1', '1', "20201001".toList⟩, ⟨"20201003".toList, '0', '0', "20201001".toList⟩,
   ⟨"20201004".toList, '2', '1', "20201006".toList⟩]

theorem sampleOk : TOk sampleNames sampleTable := by
  intro r hr
  simp only [sampleTable, List.mem_cons, List.not_mem_nil, or_false] at hr
  rcases hr with rfl | rfl | rfl <;> exact ⟨by decide, by decide, by decide, by decide, by decide, by decide⟩

example : getHoliday ⟨sampleNames, tableText sampleTable⟩ 2020 10 3
    = .ok (some ⟨"2020-10-03".toList, ['a'], true, "2020-10-01".toList⟩) := by
  rw [C24_getHoliday _ _ sampleOk] <;> decide

/-! ## C25 -/

/-- **C25** on a table sorted by day, `getHolidays(y)` is the list of all records of that year. -/
theorem C25_getHolidays_year (names : List PyStr) (t : List HRec) (h : TOk names t)
    (hs : t.Pairwise (fun a b => strLt b.day a.day = false)) (y : ℤ) (h0 : 1000 ≤ y) (h1 : y ≤ 9999) :
    getHolidays ⟨names, tableText t⟩ y 0
      = .ok ((t.filter (fun r => r.day.take 4 = (ymd8 y 0 0).take 4)).map (shown names)) := by
  have hkey : pyReplace ['-'] [] (pyStrInt y) = (ymd8 y 0 0).take 4 := by
    have e := key_ymd8 h0 h1 (le_refl 0) (by norm_num) (le_refl 0) (by norm_num)
    have hl : (pyStrInt y).length = 4 := by
      rw [pyStrInt_four h0 h1, Str.fmtD_eq 3 y (by omega) (by omega), Str.pad_length]
    rw [← e, List.append_assoc, List.take_append_of_le_length (by omega), List.take_of_length_le (by omega)]
    apply replace_no_dash
    rw [pyStrInt_four h0 h1, Str.fmtD_eq 3 y (by omega) (by omega)]
    simp only [Str.pad, digit_eq]
    have : ∀ n : ℤ, '-' ≠ digitCh n := by
      intro n
      unfold digitCh
      have h : (n % 10).toNat < 10 := by omega
      generalize (n % 10).toNat = k at *
      interval_cases k <;> decide
    simp [this]
  unfold getHolidays getHolidaysStr
  rw [if_pos rfl, hkey, forward_table h (by simp [ymd8]) (by simp [ymd8]), run_filter]
  · congr 2
    apply List.filter_congr
    intro x hx
    rw [decide_eq_decide, List.prefix_iff_eq_take]
    simp [ymd8, eq_comm]
  · intro a b c hsub pa pc
    have hp := hs.sublist hsub
    simp only [List.pairwise_cons, List.mem_cons, List.not_mem_nil, or_false] at hp
    have la := (h a (hsub.subset (by simp))).dayLen
    have lb := (h b (hsub.subset (by simp))).dayLen
    have lc := (h c (hsub.subset (by simp))).dayLen
    rw [decide_eq_true_iff] at *
    exact prefix_between _ (by omega) (by omega) (hp.1 b (.inl rfl)) (hp.2.1 c rfl) pa pc

/-- **C25** and `getHolidays(y, m)` the list of all records of that month. -/
theorem C25_getHolidays_month (names : List PyStr) (t : List HRec) (h : TOk names t)
    (hs : t.Pairwise (fun a b => strLt b.day a.day = false)) (y m : ℤ) (h0 : 1000 ≤ y) (h1 : y ≤ 9999)
    (m0 : 1 ≤ m) (m1 : m ≤ 12) :
    getHolidays ⟨names, tableText t⟩ y m
      = .ok ((t.filter (fun r => r.day.take 6 = (ymd8 y m 0).take 6)).map (shown names)) := by
  have hkey : pyStrInt y ++ padding m = (ymd8 y m 0).take 6 := by
    have e := key_ymd8 h0 h1 (by omega : 0 ≤ m) (by omega) (le_refl 0) (by norm_num)
    have hl : (pyStrInt y ++ padding m).length = 6 := by
      rw [pyStrInt_four h0 h1, padding_two (by omega) (by omega), Str.fmtD_eq 3 y (by omega) (by omega),
        Str.fmtD_eq 1 m (by omega) (by omega), List.length_append, Str.pad_length, Str.pad_length]
    rw [← e, List.take_append_of_le_length (by omega), List.take_of_length_le (by omega)]
  unfold getHolidays getHolidaysStr
  rw [if_neg (by omega), hkey, forward_table h (by simp [ymd8]) (by simp [ymd8]), run_filter]
  · congr 2
    apply List.filter_congr
    intro x hx
    rw [decide_eq_decide, List.prefix_iff_eq_take]
    simp [ymd8, eq_comm]
  · intro a b c hsub pa pc
    have hp := hs.sublist hsub
    simp only [List.pairwise_cons, List.mem_cons, List.not_mem_nil, or_false] at hp
    have la := (h a (hsub.subset (by simp))).dayLen
    have lb := (h b (hsub.subset (by simp))).dayLen
    have lc := (h c (hsub.subset (by simp))).dayLen
    rw [decide_eq_true_iff] at *
    exact prefix_between _ (by omega) (by omega) (hp.1 b (.inl rfl)) (hp.2.1 c rfl) pa pc

example : (getHolidays ⟨sampleNames, tableText sampleTable⟩ 2020 10).map List.length = .ok 2 := by
  rw [C25_getHolidays_month _ _ sampleOk (by decide) 2020 10 (by decide) (by decide) (by decide) (by decide)]
  decide

/-! ## C26 -/

/-- **C26** if the records of each target day are contiguous, `getHolidaysByTarget(y, m, d)` is the
list of all records with that target. -/
theorem C26_by_target (names : List PyStr) (t : List HRec) (h : TOk names t)
    (hc : ∀ a b c, [a, b, c].Sublist t → a.target = c.target → b.target = a.target)
    (y m d : ℤ) (h0 : 1000 ≤ y) (h1 : y ≤ 9999) (m0 : 1 ≤ m) (m1 : m ≤ 12) (d0 : 1 ≤ d) (d1 : d ≤ 31) :
    getHolidaysByTarget ⟨names, tableText t⟩ y m d
      = .ok ((t.filter (fun r => r.target = ymd8 y m d)).map (shown names)) := by
  unfold getHolidaysByTarget getHolidaysByTargetStr
  rw [if_neg (by omega), key_ymd8 h0 h1 (by omega) (by omega) (by omega) (by omega), backward_table h rfl,
    run_filter_back]
  intro a b c hs pa pc
  rw [decide_eq_true_iff] at *
  rw [hc a b c hs (by rw [pa, pc]), pa]

example : (getHolidaysByTarget ⟨sampleNames, tableText sampleTable⟩ 2020 10 1).map List.length = .ok 2 := by
  rw [C26_by_target _ _ sampleOk ?_ 2020 10 1 (by decide) (by decide) (by decide) (by decide) (by decide) (by decide)]
  · decide
  · intro a b c hs
    have : [a, b, c] = sampleTable := hs.eq_of_length (by rfl)
    simp only [sampleTable, List.cons.injEq, and_true] at this
    obtain ⟨rfl, rfl, rfl⟩ := this
    decide

/-! ## C27 -/

/-- well-formed for updating: distinct names, well-formed records, one record per day, work flags
`'0'` / `'1'` -/
structure Fixable (names : List PyStr) (t : List HRec) : Prop where
  distinct : names.Nodup
  ok : TOk names t
  days : (t.map HRec.day).Nodup
  work : ∀ r ∈ t, r.workCh = '0' ∨ r.workCh = '1'

/-- the record text occurs only at record borders -/
def OnlyAligned (t : List HRec) (r : HRec) : Prop :=
  ∀ p : ℕ, ¬ 18 ∣ p → ¬ r.text <+: (tableText t).drop p

theorem Hol.noStraddle {t : List HRec} {r : HRec} (h : OnlyAligned t r) : NoStraddle r.text (t.map HRec.text) := by
  intro k i h0 h1
  exact h (18 * k + i) (by omega)

/-- `fix` with one segment is one round of the loop -/
theorem Hol.fix_one (st : HState) (seg : PyStr) (hl : seg.length = 18) (tbl app : PyStr)
    (h : fixStep st.names st.data [] seg = .ok (tbl, app)) :
    fix st none (some seg) = (⟨st.names, tbl ++ app⟩, .ok ()) := by
  unfold fix
  simp only [Option.getD_none]
  have : fixLoop st.names seg.length st.data [] seg = (tbl, .ok app) := by
    rw [hl]
    unfold fixLoop
    rw [if_pos (by omega), List.take_of_length_le (by omega), h]
    dsimp only
    unfold fixLoop
    rw [List.drop_of_length_le (by omega), if_neg (by simp)]
  rw [this]

/-- **C27 (partial)** adding or replacing: after `fix(None, seg)` with a well-formed segment for
day `d`, `getHoliday(d)` is the holiday the segment describes and every other day's lookup is
unchanged; the table stays well-formed.  Missing: tables in which the text of the replaced record
also occurs across a record border (`C27_violated`). -/
theorem C27_fix_set_partial (names : List PyStr) (t : List HRec) (ht : Fixable names t) (s : HRec)
    (hs : s.Ok names.length) (hsw : s.workCh = '0' ∨ s.workCh = '1') (hst : s.nameCh ≠ '~')
    (hal : ∀ r ∈ t, r.day = s.day → OnlyAligned t r) :
    ∃ t', fix ⟨names, tableText t⟩ none (some s.text) = (⟨names, tableText t'⟩, .ok ()) ∧
      Fixable names t' ∧
      ∀ q : PyStr, q.length = 8 → '-' ∉ q →
        getHolidayStr ⟨names, tableText t'⟩ q 0 0 =
          if q = s.day then .ok (some (shown names s)) else getHolidayStr ⟨names, tableText t⟩ q 0 0 := by
  have h8 : s.text.take 8 = s.day := by
    unfold HRec.text
    rw [List.take_append_of_le_length (by rw [hs.dayLen]), List.take_of_length_le (by rw [hs.dayLen])]
  have hn8 : ¬ s.text[8]? = some '~' := by
    unfold HRec.text
    rw [List.getElem?_append_right (by rw [hs.dayLen]), hs.dayLen]
    simpa using hst
  have hstep := fixStep_table ht.distinct ht.ok ht.days ht.work [] s.text (text_length hs)
    (by rw [h8]; exact hs.dayDash) (by rw [h8]; exact fun r hr hd => noStraddle (hal r hr hd))
  rw [h8] at hstep
  simp only [if_neg hn8] at hstep
  have hday : ∀ r ∈ t, ∀ r' ∈ t, r.day = r'.day → r = r' :=
    fun r hr r' hr' e => List.inj_on_of_nodup_map ht.days hr hr' e
  cases hf : t.find? (fun r => decide (r.day = s.day)) with
  | none =>
    rw [hf] at hstep
    have hnone : ∀ r ∈ t, r.day ≠ s.day := by
      have := List.find?_eq_none.1 hf
      simpa using this
    have htok : TOk names (t ++ [s]) := by
      intro r hr
      rw [List.mem_append, List.mem_singleton] at hr
      rcases hr with hr | rfl
      · exact ht.ok r hr
      · exact hs
    refine ⟨t ++ [s], ?_, ⟨ht.distinct, htok, ?_, ?_⟩, ?_⟩
    · rw [fix_one _ _ (text_length hs) _ _ hstep]
      unfold tableText; simp
    · rw [List.map_append, List.map_singleton]
      refine List.nodup_append'.2 ⟨ht.days, List.nodup_singleton _, ?_⟩
      intro a ha hb
      simp only [List.mem_map, List.mem_singleton] at ha hb
      obtain ⟨r, hr, rfl⟩ := ha
      exact hnone r hr hb
    · intro r hr
      rw [List.mem_append, List.mem_singleton] at hr
      rcases hr with hr | rfl
      · exact ht.work r hr
      · exact hsw
    · intro q hq hqd
      rw [getHolidayStr_table htok hq hqd, getHolidayStr_table ht.ok hq hqd, List.find?_append]
      split_ifs with c
      · subst c; rw [hf]; simp
      · have : ¬ s.day = q := fun e => c e.symm
        simp [this]
  | some r =>
    rw [hf] at hstep
    have hr := List.mem_of_find?_eq_some hf
    have hrd : r.day = s.day := by
      have := List.find?_some hf
      simpa using this
    have htok : TOk names (t.map (fun x => if x = r then s else x)) := by
      intro x hx
      simp only [List.mem_map] at hx
      obtain ⟨z, hz, rfl⟩ := hx
      split_ifs
      · exact hs
      · exact ht.ok z hz
    refine ⟨t.map (fun x => if x = r then s else x), ?_, ⟨ht.distinct, htok, ?_, ?_⟩, ?_⟩
    · rw [fix_one _ _ (text_length hs) _ _ hstep]
      unfold tableText
      rw [List.map_map, List.append_nil]
      congr 3
      apply List.map_congr_left
      intro x _
      simp only [Function.comp]
      split_ifs <;> rfl
    · rw [List.map_map]
      have : (HRec.day ∘ fun x => if x = r then s else x) = HRec.day := by
        funext x
        simp only [Function.comp]
        split_ifs with c
        · rw [c, hrd]
        · rfl
      rw [this]; exact ht.days
    · intro x hx
      simp only [List.mem_map] at hx
      obtain ⟨z, hz, rfl⟩ := hx
      split_ifs
      · exact hsw
      · exact ht.work z hz
    · intro q hq hqd
      rw [getHolidayStr_table htok hq hqd, getHolidayStr_table ht.ok hq hqd, find_map_update hrd.symm]
      split_ifs with c1 c2 c2
      · subst c1; rw [hrd, hf]; simp
      · rw [hrd] at c1; exact absurd c1 c2
      · rw [hrd] at c1; exact absurd c2 c1
      · rfl

/-- **C27 (partial)** removing: after `fix(None, seg)` with a removal segment (`~` in the name
place) for day `d`, `getHoliday(d)` is `None` and every other lookup is unchanged. -/
theorem C27_fix_remove_partial (names : List PyStr) (t : List HRec) (ht : Fixable names t) (seg : PyStr)
    (hl : seg.length = 18) (hd : '-' ∉ seg.take 8) (hr : seg[8]? = some '~')
    (hal : ∀ r ∈ t, r.day = seg.take 8 → OnlyAligned t r) :
    ∃ t', fix ⟨names, tableText t⟩ none (some seg) = (⟨names, tableText t'⟩, .ok ()) ∧
      Fixable names t' ∧
      ∀ q : PyStr, q.length = 8 → '-' ∉ q →
        getHolidayStr ⟨names, tableText t'⟩ q 0 0 =
          if q = seg.take 8 then .ok none else getHolidayStr ⟨names, tableText t⟩ q 0 0 := by
  have hstep := fixStep_table ht.distinct ht.ok ht.days ht.work [] seg hl hd
    (fun r hr hd => noStraddle (hal r hr hd))
  simp only [if_pos hr] at hstep
  cases hf : t.find? (fun r => decide (r.day = seg.take 8)) with
  | none =>
    rw [hf] at hstep
    refine ⟨t, ?_, ht, ?_⟩
    · rw [fix_one _ _ hl _ _ hstep, List.append_nil]
    · intro q hq hqd
      rw [getHolidayStr_table ht.ok hq hqd]
      split_ifs with c
      · subst c; rw [hf]; rfl
      · rfl
  | some r =>
    rw [hf] at hstep
    have hrt := List.mem_of_find?_eq_some hf
    have hrd : r.day = seg.take 8 := by
      have := List.find?_some hf
      simpa using this
    have hsub : ∀ x ∈ t.filter (fun x => x ≠ r), x ∈ t := fun x hx => (List.mem_filter.1 hx).1
    have htok : TOk names (t.filter (fun x => x ≠ r)) := fun x hx => ht.ok x (hsub x hx)
    refine ⟨t.filter (fun x => x ≠ r), ?_, ⟨ht.distinct, htok, ?_, fun x hx => ht.work x (hsub x hx)⟩, ?_⟩
    · rw [fix_one _ _ hl _ _ hstep, List.append_nil]
    · exact ht.days.sublist (List.filter_sublist.map _)
    · intro q hq hqd
      rw [getHolidayStr_table htok hq hqd, getHolidayStr_table ht.ok hq hqd, find_filter ht.days hrt, hrd]
      split_ifs <;> rfl

/-- **C27 violated** in general: the three-record table below is well-formed, but the removal of
2012-05-01 also cuts a stretch across the border of the other two records: 2020-12-05 disappears
and 2012-05-02 changes its target. -/
theorem C27_violated :
    let names : List PyStr := [['a'], ['b'], ['c'], ['d']]
    let t : List HRec := [⟨"20120501".toList, '2', '0', "20120501".toList⟩,
      ⟨"20120502".toList, '3', '1', "20120501".toList⟩, ⟨"20201205".toList, '0', '1', "20201205".toList⟩]
    Fixable names t ∧
    ∃ st, fix ⟨names, tableText t⟩ none (some "20120501~000000000".toList) = (st, .ok ()) ∧
      getHoliday ⟨names, tableText t⟩ 2020 12 5 ≠ .ok none ∧ getHoliday st 2020 12 5 = .ok none ∧
      getHoliday ⟨names, tableText t⟩ 2012 5 2 ≠ getHoliday st 2012 5 2 := by
  refine ⟨⟨by decide, ?_, by decide, by decide⟩, ⟨[['a'], ['b'], ['c'], ['d']], "201205023120201205".toList⟩, ?_, ?_, ?_, ?_⟩
  · intro r hr
    simp only [List.mem_cons, List.not_mem_nil, or_false] at hr
    rcases hr with rfl | rfl | rfl <;> exact ⟨by decide, by decide, by decide, by decide, by decide, by decide⟩
  all_goals decide +kernel

/-- the sample table meets the hypotheses of the two partial theorems -/
example : Fixable sampleNames sampleTable ∧ ∀ r ∈ sampleTable, OnlyAligned sampleTable r := by
  refine ⟨⟨by decide, sampleOk, by decide, by decide⟩, ?_⟩
  intro r hr p hp
  by_cases hpl : p < 54
  · have : ∀ r ∈ sampleTable, ∀ p < 54, ¬ 18 ∣ p → ¬ r.text <+: (tableText sampleTable).drop p := by
      decide +kernel
    exact this r hr p hpl hp
  · rw [List.drop_of_length_le (by have : (tableText sampleTable).length = 54 := by decide +kernel
                                   omega)]
    intro h
    have := h.length_le
    rw [text_length (sampleOk r hr)] at this
    simp at this

/-! ### the table stays a sequence of 18-character records -/

/-- length a multiple of 18, no dashes -/
def Aligned (s : PyStr) : Prop := s.length % 18 = 0 ∧ '-' ∉ s

theorem Hol.chunks (s : PyStr) (h : s.length % 18 = 0) : ∃ l, R18 l ∧ l.flatten = s := by
  obtain ⟨n, hn⟩ : ∃ n, s.length = 18 * n := ⟨s.length / 18, by omega⟩
  induction n generalizing s with
  | zero =>
    refine ⟨[], fun x hx => by simp at hx, ?_⟩
    have : s = [] := List.length_eq_zero_iff.1 (by omega)
    rw [this]; rfl
  | succ n ih =>
    obtain ⟨l, h1, h2⟩ := ih (s.drop 18) (by rw [List.length_drop]; omega) (by rw [List.length_drop]; omega)
    refine ⟨s.take 18 :: l, ?_, ?_⟩
    · intro x hx
      rw [List.mem_cons] at hx
      rcases hx with rfl | hx
      · rw [List.length_take]; omega
      · exact h1 x hx
    · rw [List.flatten_cons, h2, List.take_append_drop]

theorem Hol.replace_aligned {old new s : PyStr} (ho : old.length = 18) (hn : Aligned new) (hs : Aligned s) :
    Aligned (pyReplace old new s) := by
  unfold pyReplace
  have key : ∀ n, ∀ s : PyStr, s.length ≤ n →
      (pyReplaceGo old new 0 s).length % 18 = s.length % 18 ∧
      ∀ c ∈ pyReplaceGo old new 0 s, c ∈ s ∨ c ∈ new := by
    intro n
    induction n with
    | zero =>
      intro s hs
      have : s = [] := List.length_eq_zero_iff.1 (by omega)
      subst this
      exact ⟨rfl, fun c hc => by simp [pyReplaceGo] at hc⟩
    | succ n ih =>
      intro s hs
      cases s with
      | nil => exact ⟨rfl, fun c hc => by simp [pyReplaceGo] at hc⟩
      | cons c t =>
        unfold pyReplaceGo
        split_ifs with hp
        · rw [replaceGo_skip]
          have hp' : old <+: c :: t := by simpa using hp
          have hle := hp'.length_le
          simp only [List.length_cons] at hs hle
          obtain ⟨a, b⟩ := ih (t.drop (old.length - 1)) (by rw [List.length_drop]; omega)
          have hn1 := hn.1
          refine ⟨?_, ?_⟩
          · rw [List.length_append, List.length_cons]
            rw [List.length_drop] at a
            omega
          · intro x hx
            rw [List.mem_append] at hx
            rcases hx with hx | hx
            · exact .inr hx
            · rcases b x hx with hx | hx
              · exact .inl (List.mem_cons_of_mem _ (List.mem_of_mem_drop hx))
              · exact .inr hx
        · simp only [List.length_cons] at hs
          obtain ⟨a, b⟩ := ih t (by omega)
          refine ⟨by simp only [List.length_cons]; omega, ?_⟩
          intro x hx
          rw [List.mem_cons] at hx ⊢
          rcases hx with rfl | hx
          · exact .inl (.inl rfl)
          · rcases b x hx with hx | hx
            · exact .inl (.inr hx)
            · exact .inr hx
  obtain ⟨a, b⟩ := key _ s (le_refl _)
  refine ⟨by rw [a]; exact hs.1, fun h => ?_⟩
  rcases b _ h with h | h
  · exact hs.2 h
  · exact hn.2 h

theorem Hol.build_target {names : List PyStr} {r : PyStr} {hol : Holiday}
    (h : buildForward names r = .ok hol) : hol.target = Holiday.ymd (pySlice r 10 18) := by
  unfold buildForward at h
  cases h1 : pyOrd (pySlice r 8 9) with
  | error e => rw [h1] at h; cases h
  | ok o =>
    rw [h1] at h
    change (pyIndex names (o - 48) >>= _) = _ at h
    cases h2 : pyIndex names (o - 48) with
    | error e => rw [h2] at h; cases h
    | ok n =>
      rw [h2] at h
      change (pyOrd (pySlice r 9 10) >>= _) = _ at h
      cases h3 : pyOrd (pySlice r 9 10) with
      | error e => rw [h3] at h; cases h
      | ok w =>
        rw [h3] at h
        change Except.ok _ = Except.ok hol at h
        simp only [Except.ok.injEq] at h
        rw [← h]; rfl

theorem Hol.fixStep_aligned {names : List PyStr} {data app seg tbl' app' : PyStr} (hd : Aligned data)
    (ha : Aligned app) (hl : seg.length = 18) (hs : '-' ∉ seg)
    (h : fixStep names data app seg = .ok (tbl', app')) : Aligned tbl' ∧ Aligned app' := by
  have haseg : Aligned seg := ⟨by omega, hs⟩
  unfold fixStep at h
  dsimp only at h
  cases hg : getHolidayStr ⟨names, data⟩ (seg.take 8) 0 0 with
  | error e => rw [hg] at h; cases h
  | ok o =>
    rw [hg] at h
    cases o with
    | none =>
      change Except.ok _ = Except.ok _ at h
      simp only [Except.ok.injEq, Prod.mk.injEq] at h
      obtain ⟨rfl, rfl⟩ := h
      refine ⟨hd, ?_⟩
      split_ifs
      · exact ha
      · exact ⟨by rw [List.length_append]; have := ha.1; omega, by
          rw [List.mem_append]; rintro (h | h); exacts [ha.2 h, hs h]⟩
    | some hol =>
      change (if nameIndex names hol.name > -1 then Except.ok _ else Except.ok _) = Except.ok _ at h
      by_cases hi : nameIndex names hol.name > -1
      · rw [if_pos hi] at h
        simp only [Except.ok.injEq, Prod.mk.injEq] at h
        obtain ⟨rfl, rfl⟩ := h
        refine ⟨?_, ha⟩
        apply replace_aligned _ _ hd
        · -- length of `old`
          obtain ⟨l, hl18, rfl⟩ := chunks data hd.1
          have hk8 : (seg.take 8).length = 8 := by simp [hl]
          have hkd : '-' ∉ seg.take 8 := fun h => hs (List.mem_of_mem_take h)
          unfold getHolidayStr at hg
          rw [if_pos (by simp), replace_no_dash hkd,
            findHolidaysForward_flat (by omega) (by rintro e; rw [e] at hk8; simp at hk8) hl18] at hg
          have htgt : hol.target.length = 10 ∧ (pyReplace ['-'] [] hol.target).length = 8 := by
            cases hrun : (List.takeWhile (fun r => List.isPrefixOf (List.take 8 seg) r)
                (List.dropWhile (fun r => !List.isPrefixOf (List.take 8 seg) r) l)) with
            | nil => rw [hrun] at hg; cases hg
            | cons r rs =>
              rw [hrun, List.mapM_cons] at hg
              have hrl : r ∈ l := (List.dropWhile_sublist _).subset
                ((List.takeWhile_sublist _).subset (by rw [hrun]; simp))
              cases hb : buildForward names r with
              | error e => rw [hb] at hg; cases hg
              | ok hb' =>
                rw [hb] at hg
                cases hm : rs.mapM (buildForward names) with
                | error e => rw [hm] at hg; cases hg
                | ok bs =>
                  rw [hm] at hg
                  change Except.ok (some hb') = Except.ok (some hol) at hg
                  simp only [Except.ok.injEq, Option.some.injEq] at hg
                  subst hg
                  rw [build_target hb]
                  have hr18 := hl18 r hrl
                  have hsl : pySlice r 10 18 = (r.drop 10).take 8 := rfl
                  have hnd : '-' ∉ pySlice r 10 18 := by
                    rw [hsl]
                    intro h
                    exact hd.2 (List.mem_flatten.2 ⟨r, hrl, List.mem_of_mem_drop (List.mem_of_mem_take h)⟩)
                  rw [ymd_dashed hnd, replace_dashed hnd, hsl]
                  refine ⟨?_, by simp [hr18]⟩
                  unfold dashed
                  simp [hr18]
          rw [List.length_append, List.length_append, List.length_append, htgt.2, hk8]
          cases hol.work <;> rfl
        · split_ifs
          · exact ⟨rfl, by simp⟩
          · exact haseg
      · rw [if_neg hi] at h
        simp only [Except.ok.injEq, Prod.mk.injEq] at h
        obtain ⟨rfl, rfl⟩ := h
        exact ⟨hd, ha⟩

/-- **C27** whatever names and (dash-free) data any call of `fix` is given, and whether or not it
raises, the table remains a sequence of complete 18-character records. -/
theorem C27_length (st : HState) (h : Aligned st.data) (names : Option (List PyStr)) (data : Option PyStr)
    (hd : ∀ d ∈ data, '-' ∉ d) : Aligned (fix st names data).1.data := by
  unfold fix
  dsimp only
  cases data with
  | none => exact h
  | some d =>
    have hdd := hd d rfl
    have loop : ∀ f tbl app d, Aligned tbl → Aligned app → '-' ∉ d →
        Aligned (fixLoop (names.getD st.names) f tbl app d).1 ∧
        ∀ a, (fixLoop (names.getD st.names) f tbl app d).2 = .ok a → Aligned a := by
      intro f
      induction f with
      | zero =>
        intro tbl app d h1 h2 _
        refine ⟨h1, fun a ha => ?_⟩
        simp only [fixLoop, Except.ok.injEq] at ha
        rw [← ha]; exact h2
      | succ f ih =>
        intro tbl app d h1 h2 h3
        unfold fixLoop
        split_ifs with hl
        · cases hst : fixStep (names.getD st.names) tbl app (d.take 18) with
          | error e => exact ⟨h1, fun a ha => by simp at ha⟩
          | ok p =>
            obtain ⟨tbl', app'⟩ := p
            obtain ⟨a1, a2⟩ := fixStep_aligned h1 h2 (by rw [List.length_take]; omega)
              (fun hx => h3 (List.mem_of_mem_take hx)) hst
            exact ih tbl' app' (d.drop 18) a1 a2 (fun hx => h3 (List.mem_of_mem_drop hx))
        · refine ⟨h1, fun a ha => ?_⟩
          simp only [Except.ok.injEq] at ha
          rw [← ha]; exact h2
    obtain ⟨l1, l2⟩ := loop d.length st.data [] d h ⟨rfl, by simp⟩ hdd
    dsimp only
    cases hres : fixLoop (names.getD st.names) d.length st.data [] d with
    | mk tbl r =>
      rw [hres] at l1 l2
      cases r with
      | error e => exact l1
      | ok app =>
        have h2 := l2 app rfl
        have l1 : Aligned tbl := l1
        exact ⟨by rw [List.length_append]; have := l1.1; have := h2.1; omega, by
          rw [List.mem_append]; rintro (h | h); exacts [l1.2 h, h2.2 h]⟩

/-- **C27** hence after any sequence of `fix` calls. -/
theorem C27_length_history (st : HState) (h : Aligned st.data)
    (calls : List (Option (List PyStr) × Option PyStr)) (hd : ∀ c ∈ calls, ∀ d ∈ c.2, '-' ∉ d) :
    Aligned (calls.foldl (fun st c => (fix st c.1 c.2).1) st).data := by
  induction calls generalizing st with
  | nil => exact h
  | cons c cs ih =>
    rw [List.foldl_cons]
    exact ih _ (C27_length st h c.1 c.2 (hd c (by simp))) (fun c hc => hd c (by simp [hc]))

/-- the dash condition is needed: with a target like `2020-1-1` the searched text is 16 characters
long; here one call leaves a table of 38 characters. -/
example : ((fix ⟨[['a']], "20200101002020-1-1202001010020201101".toList⟩ none
    (some "202001010020200101".toList)).1.data.length) = 38 := by decide +kernel

/-! ## C28 -/

/-- **C28 violated** a day added by `fix` is appended at the end of the table, so `getHolidays`
of a year that is not the last one does not list it. -/
theorem C28_violated :
    let names : List PyStr := [['a']]
    let t : List HRec := [⟨"20120501".toList, '0', '0', "20120501".toList⟩,
      ⟨"20130501".toList, '0', '1', "20130501".toList⟩]
    let s : HRec := ⟨"20120607".toList, '0', '1', "20120607".toList⟩
    let st := (fix ⟨names, tableText t⟩ none (some s.text)).1
    getHoliday st 2012 6 7 = .ok (some (shown names s)) ∧
    (getHolidays st 2012 0) = .ok [shown names ⟨"20120501".toList, '0', '0', "20120501".toList⟩] := by
  decide +kernel

/-- **C28 (partial)** if the added day is not earlier than any day of the (sorted) table, then
`getHolidays` of its year lists it, after the records it listed before.  Missing: days added
before the end, see `C28_violated`. -/
theorem C28_append_partial (names : List PyStr) (t : List HRec) (ht : Fixable names t) (s : HRec)
    (hs : s.Ok names.length) (hst : s.nameCh ≠ '~')
    (hsort : t.Pairwise (fun a b => strLt b.day a.day = false))
    (hnew : ∀ r ∈ t, r.day ≠ s.day) (hlast : ∀ r ∈ t, strLt s.day r.day = false)
    (y : ℤ) (h0 : 1000 ≤ y) (h1 : y ≤ 9999) (hy : s.day.take 4 = (ymd8 y 0 0).take 4) :
    ∃ st old, fix ⟨names, tableText t⟩ none (some s.text) = (st, .ok ()) ∧
      getHolidays ⟨names, tableText t⟩ y 0 = .ok old ∧
      getHolidays st y 0 = .ok (old ++ [shown names s]) := by
  have h8 : s.text.take 8 = s.day := by
    unfold HRec.text
    rw [List.take_append_of_le_length (by rw [hs.dayLen]), List.take_of_length_le (by rw [hs.dayLen])]
  have hn8 : ¬ s.text[8]? = some '~' := by
    unfold HRec.text
    rw [List.getElem?_append_right (by rw [hs.dayLen]), hs.dayLen]
    simpa using hst
  have hstep := fixStep_table ht.distinct ht.ok ht.days ht.work [] s.text (text_length hs)
    (by rw [h8]; exact hs.dayDash) (by rw [h8]; exact fun r hr hd => absurd hd (hnew r hr))
  rw [h8] at hstep
  simp only [if_neg hn8] at hstep
  have hf : t.find? (fun r => decide (r.day = s.day)) = none := by
    rw [List.find?_eq_none]; simpa using hnew
  rw [hf] at hstep
  have htok : TOk names (t ++ [s]) := by
    intro r hr
    rw [List.mem_append, List.mem_singleton] at hr
    rcases hr with hr | rfl
    · exact ht.ok r hr
    · exact hs
  refine ⟨⟨names, tableText (t ++ [s])⟩, _, ?_, C25_getHolidays_year names t ht.ok hsort y h0 h1, ?_⟩
  · rw [fix_one _ _ (text_length hs) _ _ hstep]
    unfold tableText; simp
  · rw [C25_getHolidays_year names _ htok ?_ y h0 h1]
    · rw [List.filter_append, List.filter_singleton]
      simp [hy]
    · rw [List.pairwise_append]
      refine ⟨hsort, List.pairwise_singleton _ _, ?_⟩
      intro a ha b hb
      rw [List.mem_singleton] at hb
      subst hb
      exact hlast a ha

/-- 2013-06-07 added after 2012-05-01 and 2013-05-01 -/
example :
    let names : List PyStr := [['a']]
    let t : List HRec := [⟨"20120501".toList, '0', '0', "20120501".toList⟩,
      ⟨"20130501".toList, '0', '1', "20130501".toList⟩]
    let s : HRec := ⟨"20130607".toList, '0', '1', "20130607".toList⟩
    ∃ st old, fix ⟨names, tableText t⟩ none (some s.text) = (st, .ok ()) ∧
      getHolidays ⟨names, tableText t⟩ 2013 0 = .ok old ∧ getHolidays st 2013 0 = .ok (old ++ [shown names s]) := by
  intro names t s
  refine C28_append_partial names t ⟨by decide, ?_, by decide, by decide⟩ s
    ⟨by decide, by decide, by decide, by decide, by decide, by decide⟩ (by decide) (by decide) (by decide) (by decide)
    2013 (by decide) (by decide) (by decide)
  intro r hr
  simp only [t, List.mem_cons, List.not_mem_nil, or_false] at hr
  rcases hr with rfl | rfl <;> exact ⟨by decide, by decide, by decide, by decide, by decide, by decide⟩
