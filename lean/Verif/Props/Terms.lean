import Verif.Proof.JieQi
import Verif.Props.Pillars

/-! # C45, C62, C63: searches in the table of solar terms

`TermTable Y l.jieQi` is the hypothesis on the table (31 existing moments in order). -/

section
open Spec LunarUtil Lunar Solar

/-- the API call that looks for the next term of a kind -/
def nextOf : TermKind → Lunar → Bool → Except PyErr (Option JieQi)
  | .all, l, w => getNextJieQi l w
  | .jie, l, w => getNextJie l w
  | .qi, l, w => getNextQi l w

/-- the API call that looks for the previous term of a kind -/
def prevOf : TermKind → Lunar → Bool → Except PyErr (Option JieQi)
  | .all, l, w => getPrevJieQi l w
  | .jie, l, w => getPrevJie l w
  | .qi, l, w => getPrevQi l w

private theorem nextOf_eq (k : TermKind) (l : Lunar) (w : Bool) : nextOf k l w = getNearJieQi l true (kindNames k) w := by
  cases k <;> rfl

private theorem prevOf_eq (k : TermKind) (l : Lunar) (w : Bool) : prevOf k l w = getNearJieQi l false (kindNames k) w := by
  cases k <;> rfl

variable {Y : ℤ} {l : Lunar}

private theorem lt31 (T : TermTable Y l.jieQi) {i : ℕ} {s : Solar} (h : l.jieQi[i]? = some s) : i < 31 := by
  have := (List.getElem?_eq_some_iff.1 h).1
  rwa [T.len] at this

/-- **C45** the next term by instant: the earliest one of the kind strictly after the moment, with its
name, its flags and its instant; `None` if the table has none. -/
theorem C45_next (T : TermTable Y l.jieQi) (hs : l.solar.Valid) (h4 : 0 ≤ l.solar.year ∧ l.solar.year ≤ 9999) (k : TermKind) :
    (∃ i s, k.has i ∧ l.jieQi[i]? = some s ∧ Before l.solar s ∧
      (∀ j t, k.has j → l.jieQi[j]? = some t → Before l.solar t → i ≤ j) ∧
      nextOf k l false = .ok (some ⟨termName i, i % 2 = 0, i % 2 = 1, s⟩)) ∨
    ((∀ i s, k.has i → l.jieQi[i]? = some s → AtOrBefore s l.solar) ∧ nextOf k l false = .ok none) := by
  obtain ⟨r, e, h⟩ := getNear_fwd T hs h4 false k
  rw [nextOf_eq, e]
  match r, h with
  | none, h =>
    refine .inr ⟨fun i s hk hi => ?_, rfl⟩
    rw [atOrBefore_iff (T.valid _ (List.mem_of_getElem? hi)) hs]
    exact h i (lt31 T hi) hk s hi
  | some (n, s), ⟨i, h1, h2, h3, h4, h5, h6⟩ =>
    refine .inl ⟨i, s, h2, h3, ?_, fun j t hk hj hb => ?_, ?_⟩
    · rw [before_iff hs (T.valid _ (List.mem_of_getElem? h3))]; exact h5
    · rw [before_iff hs (T.valid _ (List.mem_of_getElem? hj))] at hb
      exact h6 j (lt31 T hj) hk t hj hb
    · rw [h4]
      simp only [Option.map_some, make_term h1]

/-- **C45** the next term by whole days: the earliest one of the kind on a later day. -/
theorem C45_next_day (T : TermTable Y l.jieQi) (hs : l.solar.Valid) (h4 : 0 ≤ l.solar.year ∧ l.solar.year ≤ 9999) (k : TermKind) :
    (∃ i s, k.has i ∧ l.jieQi[i]? = some s ∧ DayBefore l.solar s ∧
      (∀ j t, k.has j → l.jieQi[j]? = some t → DayBefore l.solar t → i ≤ j) ∧
      nextOf k l true = .ok (some ⟨termName i, i % 2 = 0, i % 2 = 1, s⟩)) ∨
    ((∀ i s, k.has i → l.jieQi[i]? = some s → DayAtOrBefore s l.solar) ∧ nextOf k l true = .ok none) := by
  obtain ⟨r, e, h⟩ := getNear_fwd T hs h4 true k
  rw [nextOf_eq, e]
  match r, h with
  | none, h =>
    refine .inr ⟨fun i s hk hi => ?_, rfl⟩
    rw [dayAtOrBefore_iff (T.valid _ (List.mem_of_getElem? hi)) hs]
    exact h i (lt31 T hi) hk s hi
  | some (n, s), ⟨i, h1, h2, h3, h4, h5, h6⟩ =>
    refine .inl ⟨i, s, h2, h3, ?_, fun j t hk hj hb => ?_, ?_⟩
    · rw [dayBefore_iff hs (T.valid _ (List.mem_of_getElem? h3))]; exact h5
    · rw [dayBefore_iff hs (T.valid _ (List.mem_of_getElem? hj))] at hb
      exact h6 j (lt31 T hj) hk t hj hb
    · rw [h4]
      simp only [Option.map_some, make_term h1]

/-- **C45** the previous term by instant: the latest one of the kind at or before the moment. -/
theorem C45_prev (T : TermTable Y l.jieQi) (hs : l.solar.Valid) (h4 : 0 ≤ l.solar.year ∧ l.solar.year ≤ 9999) (k : TermKind) :
    (∃ i s, k.has i ∧ l.jieQi[i]? = some s ∧ AtOrBefore s l.solar ∧
      (∀ j t, k.has j → l.jieQi[j]? = some t → AtOrBefore t l.solar → j ≤ i) ∧
      prevOf k l false = .ok (some ⟨termName i, i % 2 = 0, i % 2 = 1, s⟩)) ∨
    ((∀ i s, k.has i → l.jieQi[i]? = some s → Before l.solar s) ∧ prevOf k l false = .ok none) := by
  obtain ⟨r, e, h⟩ := getNear_bwd T hs h4 false k
  rw [prevOf_eq, e]
  match r, h with
  | none, h =>
    refine .inr ⟨fun i s hk hi => ?_, rfl⟩
    rw [before_iff hs (T.valid _ (List.mem_of_getElem? hi))]
    exact h i (lt31 T hi) hk s hi
  | some (n, s), ⟨i, h1, h2, h3, h4, h5, h6⟩ =>
    refine .inl ⟨i, s, h2, h3, ?_, fun j t hk hj hb => ?_, ?_⟩
    · rw [atOrBefore_iff (T.valid _ (List.mem_of_getElem? h3)) hs]; exact h5
    · rw [atOrBefore_iff (T.valid _ (List.mem_of_getElem? hj)) hs] at hb
      have := (h6 j (lt31 T hj) hk t hj hb).1
      by_contra c
      obtain ⟨hi, rfl⟩ := List.getElem?_eq_some_iff.1 h3
      obtain ⟨hj', rfl⟩ := List.getElem?_eq_some_iff.1 hj
      have q := List.pairwise_iff_getElem.1 T.chron i j hi hj' (by omega)
      rw [before_iff (T.valid _ (List.getElem_mem hi)) (T.valid _ (List.getElem_mem hj'))] at q
      simp only [Bool.false_eq_true, if_false] at this
      omega
    · rw [h4]
      simp only [Option.map_some, make_term h1]

/-- **C45** the previous term by whole days: of the terms of the kind on the day or an earlier day, one
on the latest of these days (the first, should there be two on that day). -/
theorem C45_prev_day (T : TermTable Y l.jieQi) (hs : l.solar.Valid) (h4 : 0 ≤ l.solar.year ∧ l.solar.year ≤ 9999) (k : TermKind) :
    (∃ i s, k.has i ∧ l.jieQi[i]? = some s ∧ DayAtOrBefore s l.solar ∧
      (∀ j t, k.has j → l.jieQi[j]? = some t → DayAtOrBefore t l.solar →
        DayAtOrBefore t s ∧ (t.date = s.date → i ≤ j)) ∧
      prevOf k l true = .ok (some ⟨termName i, i % 2 = 0, i % 2 = 1, s⟩)) ∨
    ((∀ i s, k.has i → l.jieQi[i]? = some s → DayBefore l.solar s) ∧ prevOf k l true = .ok none) := by
  obtain ⟨r, e, h⟩ := getNear_bwd T hs h4 true k
  rw [prevOf_eq, e]
  match r, h with
  | none, h =>
    refine .inr ⟨fun i s hk hi => ?_, rfl⟩
    rw [dayBefore_iff hs (T.valid _ (List.mem_of_getElem? hi))]
    exact h i (lt31 T hi) hk s hi
  | some (n, s), ⟨i, h1, h2, h3, h4, h5, h6⟩ =>
    have vs := T.valid _ (List.mem_of_getElem? h3)
    refine .inl ⟨i, s, h2, h3, ?_, fun j t hk hj hb => ?_, ?_⟩
    · rw [dayAtOrBefore_iff vs hs]; exact h5
    · have vt := T.valid _ (List.mem_of_getElem? hj)
      rw [dayAtOrBefore_iff vt hs] at hb
      have := h6 j (lt31 T hj) hk t hj hb
      rw [dayAtOrBefore_iff vt vs]
      exact ⟨this.1, fun e => this.2 (by simp only [if_true, e])⟩
    · rw [h4]
      simp only [Option.map_some, make_term h1]

/-- **C45** previous and next of the same kind are neighbours in the table. -/
theorem C45_adjacent (T : TermTable Y l.jieQi) (hs : l.solar.Valid) (h4 : 0 ≤ l.solar.year ∧ l.solar.year ≤ 9999) (k : TermKind)
    (p q : JieQi) (hp : prevOf k l false = .ok (some p)) (hq : nextOf k l false = .ok (some q)) :
    ∃ i, k.has i ∧ l.jieQi[i]? = some p.solar ∧ l.jieQi[i + k.step]? = some q.solar ∧
      p.name = termName i ∧ q.name = termName (i + k.step) := by
  rcases C45_prev T hs h4 k with ⟨i, s, a1, a2, a3, a4, a5⟩ | ⟨_, a⟩
  · rcases C45_next T hs h4 k with ⟨j, t, b1, b2, b3, b4, b5⟩ | ⟨_, b⟩
    · rw [hp] at a5
      rw [hq] at b5
      obtain rfl := Option.some.inj (Except.ok.inj a5)
      obtain rfl := Option.some.inj (Except.ok.inj b5)
      have i31 := lt31 T a2
      have j31 := lt31 T b2
      have vs := T.valid _ (List.mem_of_getElem? a2)
      have vt := T.valid _ (List.mem_of_getElem? b2)
      have hij : i < j := by
        by_contra c
        have := (table_le T (by omega : j ≤ i) b2 a2).1
        rw [atOrBefore_iff vs hs] at a3
        rw [before_iff hs vt] at b3
        omega
      have hstep : k.has (i + k.step) ∧ i + k.step ≤ j := by
        cases k with
        | all => exact ⟨trivial, hij⟩
        | jie => simp only [TermKind.has, TermKind.step] at *; omega
        | qi => simp only [TermKind.has, TermKind.step] at *; omega
      have hl : i + k.step < l.jieQi.length := by rw [T.len]; omega
      have e := List.getElem?_eq_getElem hl
      have vx := T.valid _ (List.getElem_mem hl)
      have hj : j = i + k.step := by
        refine le_antisymm ?_ hstep.2
        by_cases c : Before l.solar l.jieQi[i + k.step]
        · exact b4 _ _ hstep.1 e c
        · exfalso
          rw [before_iff hs vx] at c
          have := a4 _ _ hstep.1 e (by rw [atOrBefore_iff vx hs]; omega)
          cases k <;> simp only [TermKind.step] at this <;> omega
      subst hj
      exact ⟨i, a1, a2, b2, rfl, rfl⟩
    · rw [hq] at b; cases b
  · rw [hp] at a; cases a

/-- 2024-02-04 23:30: the term before is 立春 (16:26:53 that day), the next 节 is 惊蛰 and the next 气 雨水 -/
example : getPrevJieQi sample = .ok (some ⟨['立', '春'], true, false, ⟨2024, 2, 4, 16, 26, 53⟩⟩) ∧
    getNextJie sample = .ok (some ⟨['惊', '蛰'], true, false, ⟨2024, 3, 5, 10, 22, 31⟩⟩) ∧
    getNextQi sample = .ok (some ⟨['雨', '水'], false, true, ⟨2024, 2, 19, 12, 12, 58⟩⟩) ∧
    getPrevQi sample true = .ok (some ⟨['大', '寒'], false, true, ⟨2024, 1, 20, 22, 7, 8⟩⟩) := by
  decide +kernel

/-! ## C62 -/

/-- the API call for the name of the day's term of a kind -/
def nameOf : TermKind → Lunar → Except PyErr PyStr
  | .all, l => getJieQi l
  | .jie, l => getJie l
  | .qi, l => getQi l

private theorem nameOf_eq (k : TermKind) (l : Lunar) : nameOf k l = (do return nameOr (← findTerm l (kindKeys k))) := by
  cases k <;> rfl

/-- **C62** `getJieQi`, `getJie`, `getQi`: the name of the term of the kind that falls on the day, and
the empty string exactly if there is none. -/
theorem C62_name (h : l.jieQi.length = 31) (k : TermKind) :
    (∃ i s, k.has i ∧ l.jieQi[i]? = some s ∧ s.date = l.solar.date ∧
      (∀ j t, k.has j → l.jieQi[j]? = some t → t.date = l.solar.date → i ≤ j) ∧ nameOf k l = .ok (termName i)) ∨
    ((∀ i s, k.has i → l.jieQi[i]? = some s → s.date ≠ l.solar.date) ∧ nameOf k l = .ok []) := by
  obtain ⟨r, e, hr⟩ := findTerm_kind h k
  rw [nameOf_eq, e]
  match r, hr with
  | none, hr => exact .inr ⟨fun i s hk hs => hr i hk s hs, rfl⟩
  | some (key, s), ⟨i, h1, h2, h3, h4, h5⟩ =>
    refine .inl ⟨i, s, h1, h2, h4, fun j t hk => h5 j hk t, ?_⟩
    rw [← h3]; rfl

/-- **C62** `getCurrentJie`, `getCurrentQi`: the term with its instant. -/
theorem C62_current (h : l.jieQi.length = 31) (k : TermKind) (hk : k = .jie ∨ k = .qi) :
    (∃ i s, k.has i ∧ l.jieQi[i]? = some s ∧ s.date = l.solar.date ∧
      (∀ j t, k.has j → l.jieQi[j]? = some t → t.date = l.solar.date → i ≤ j) ∧
      (if k = .jie then getCurrentJie l else getCurrentQi l) = .ok (some ⟨termName i, i % 2 = 0, i % 2 = 1, s⟩)) ∨
    ((∀ i s, k.has i → l.jieQi[i]? = some s → s.date ≠ l.solar.date) ∧
      (if k = .jie then getCurrentJie l else getCurrentQi l) = .ok none) := by
  have hc : (if k = .jie then getCurrentJie l else getCurrentQi l) =
      (do return (← findTerm l (kindKeys k)).map (fun p => JieQi.make (convertJieQi p.1) p.2)) := by
    rcases hk with rfl | rfl <;> rfl
  obtain ⟨r, e, hr⟩ := findTerm_kind h k
  rw [hc, e]
  match r, hr with
  | none, hr => exact .inr ⟨fun i s hk hs => hr i hk s hs, rfl⟩
  | some (key, s), ⟨i, h1, h2, h3, h4, h5⟩ =>
    refine .inl ⟨i, s, h1, h2, h4, fun j t hk => h5 j hk t, ?_⟩
    have hi : i < 31 := by
      have := (List.getElem?_eq_some_iff.1 h2).1
      omega
    rw [← make_term hi, ← h3]
    rfl

/-- **C62** `getCurrentJieQi` (full statement: like `C62_current`, the object has the instant of the
term).  Name and flags are those of the day's term, but `getSolar` of the object is the moment asked
about, ... -/
theorem C62_current_any_partial (h : l.jieQi.length = 31) :
    (∃ (i : ℕ) (s : Solar), l.jieQi[i]? = some s ∧ s.date = l.solar.date ∧
      (∀ (j : ℕ) (t : Solar), l.jieQi[j]? = some t → t.date = l.solar.date → i ≤ j) ∧
      getCurrentJieQi l = .ok (some ⟨termName i, i % 2 = 0, i % 2 = 1, l.solar⟩)) ∨
    ((∀ (i : ℕ) (s : Solar), l.jieQi[i]? = some s → s.date ≠ l.solar.date) ∧ getCurrentJieQi l = .ok none) := by
  obtain ⟨r, e, hr⟩ := findTerm_kind h .all
  have hc : getCurrentJieQi l = (do return (← findTerm l (kindKeys .all)).map (fun p => JieQi.make (convertJieQi p.1) l.solar)) := rfl
  rw [hc, e]
  match r, hr with
  | none, hr => exact .inr ⟨fun i s hs => hr i trivial s hs, rfl⟩
  | some (key, s), ⟨i, h1, h2, h3, h4, h5⟩ =>
    refine .inl ⟨i, s, h2, h4, fun j t => h5 j trivial t, ?_⟩
    have hi : i < 31 := by
      have := (List.getElem?_eq_some_iff.1 h2).1
      omega
    rw [← make_term hi, ← h3]
    rfl

/-- ... so it is wrong whenever that is not the very second of the term. -/
theorem C62_violated_instant (h : l.jieQi.length = 31) (j : JieQi) (hj : getCurrentJieQi l = .ok (some j))
    (hn : l.solar ∉ l.jieQi) : ∃ s ∈ l.jieQi, s.date = l.solar.date ∧ j.solar ∉ l.jieQi := by
  rcases C62_current_any_partial h with ⟨i, s, h1, h2, _, h3⟩ | ⟨_, h3⟩
  · rw [hj] at h3
    cases h3
    exact ⟨s, List.mem_of_getElem? h1, h2, hn⟩
  · rw [hj] at h3; cases h3

example : getJieQi sample = .ok ['立', '春'] ∧ getJie sample = .ok ['立', '春'] ∧ getQi sample = .ok [] ∧
    getCurrentJie sample = .ok (some ⟨['立', '春'], true, false, ⟨2024, 2, 4, 16, 26, 53⟩⟩) ∧
    getCurrentJieQi sample = .ok (some ⟨['立', '春'], true, false, ⟨2024, 2, 4, 23, 30, 0⟩⟩) ∧
    sample.solar ∉ sample.jieQi := by
  decide +kernel

/-! ## C63 -/

/-- **C63** `getHou` and `getWuHou`: with the latest term (by day) `i` of the table and `d` days since,
the pentad is number `min (d / 5) 2` of the term, and the phenology that of pentad
`3 (i - 1) + min (d / 5) 2` counted from the winter solstice. -/
theorem C63_pentad (T : TermTable Y l.jieQi) (hs : l.solar.Valid) (h4 : 0 ≤ l.solar.year ∧ l.solar.year ≤ 9999)
    (p : JieQi) (hp : getPrevJieQi l true = .ok (some p)) (d : ℤ) (hd : DaysAfter d p.solar.date l.solar.date) :
    ∃ i s, l.jieQi[i]? = some s ∧ p.solar = s ∧ p.name = termName i ∧ 0 ≤ d ∧
      l.getHou = .ok (termName i ++ ' ' :: [['初', '候'], ['二', '候'], ['三', '候']].getD (min (d / 5) 2).toNat []) ∧
      l.getWuHou = .ok (WU_HOU.getD ((3 * ((i : ℤ) + 23) + min (d / 5) 2) % 72).toNat []) := by
  rcases C45_prev_day T hs h4 .all with ⟨i, s, _, a2, a3, _, a5⟩ | ⟨_, a5⟩
  · have hp' : prevOf .all l true = .ok (some p) := hp
    rw [hp'] at a5
    obtain rfl := Option.some.inj (Except.ok.inj a5)
    have i31 := lt31 T a2
    have vs := T.valid _ (List.mem_of_getElem? a2)
    rw [dayAtOrBefore_iff vs hs] at a3
    have hd' := (Cal.daysAfter_iff vs.1 hs.1 d).1 hd
    have hsub : l.solar.subtract s = .ok d := by
      rw [Cal.subtract_spec hs vs, hd']; congr 1; ring
    have h0 : 0 ≤ d := by omega
    refine ⟨i, s, a2, rfl, rfl, h0, ?_, ?_⟩
    · unfold getHou
      rw [hp]
      simp only [bind, Except.bind, hsub]
      rw [Int.tdiv_eq_ediv_of_nonneg h0]
      have hl : ((HOU.length : ℕ) : ℤ) - 1 = 2 := by decide
      rw [hl]
      have e : (if d / 5 > 2 then (2 : ℤ) else d / 5) = min (d / 5) 2 := by split_ifs <;> omega
      rw [e]
      have hm : 0 ≤ min (d / 5) 2 ∧ min (d / 5) 2 ≤ 2 := by omega
      generalize min (d / 5) 2 = m at hm ⊢
      have : m = 0 ∨ m = 1 ∨ m = 2 := by omega
      rcases this with rfl | rfl | rfl <;> simp [pyIndex, HOU, pure, Except.pure]
    · unfold getWuHou
      rw [hp]
      simp only [bind, Except.bind, hsub]
      rw [Int.tdiv_eq_ediv_of_nonneg h0]
      have e : (if d / 5 > 2 then (2 : ℤ) else d / 5) = min (d / 5) 2 := by split_ifs <;> omega
      rw [e]
      have hm : 0 ≤ min (d / 5) 2 ∧ min (d / 5) 2 ≤ 2 := by omega
      generalize min (d / 5) 2 = m at hm ⊢
      have all : ∀ i : Fin 31, JIE_QI.findIdx? (fun x => termName i == x) = some (((i : ℕ) + 23) % 24) := by decide +kernel
      rw [all ⟨i, i31⟩]
      dsimp only
      have key : ∀ i : Fin 31, ∀ m : Fin 3, pyIndex WU_HOU (((((i : ℕ) + 23) % 24 : ℕ) * 3 + ((m : ℕ) : ℤ)) % 72) =
          .ok (WU_HOU.getD ((3 * (((i : ℕ) : ℤ) + 23) + ((m : ℕ) : ℤ)) % 72).toNat []) := by decide +kernel
      have := key ⟨i, i31⟩ ⟨m.toNat, by omega⟩
      simpa only [show ((m.toNat : ℕ) : ℤ) = m by omega] using this
  · have hp' : prevOf .all l true = .ok (some p) := hp
    rw [hp'] at a5; cases a5

/-- on the day of 立春: first pentad, 东风解冻 -/
example : sample.getHou = .ok ['立', '春', ' ', '初', '候'] ∧ sample.getWuHou = .ok ['东', '风', '解', '冻'] := by
  decide +kernel

end
