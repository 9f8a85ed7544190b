import Verif.Props.FotoTao

/-! # C68: which Taoist festivals hang on the sun, which on the pillar of the day and which on the lunar date -/

section
open Spec

/-- the festivals of the solar terms: the term and the name of the festival -/
def Spec.sunFestivals : List (PyStr × PyStr) :=
  [("冬至", "元始天尊圣诞"), ("夏至", "灵宝天尊圣诞"), ("立春", "东北方度仙上圣天尊同梵炁始青天君下降"), ("春分", "东方玉宝星上天尊同青帝九炁天君下降"),
   ("立夏", "东南方好生度命天尊同梵炁始丹天君下降"), ("夏至", "南方玄真万福天尊同赤帝三炁天君下降"), ("立秋", "西南方太灵虚皇天尊同梵炁始素天君下降"),
   ("秋分", "西方太妙至极天尊同白帝七炁天君下降"), ("立冬", "西北方无量太华天尊同梵炁始玄天君下降"),
   ("冬至", "北方玄上玉宸天尊同黑帝五炁天君下降")].map (fun p : String × String => (p.1.toList, p.2.toList))

/-- the festivals of the pillars: the pillar of the day and the name of the festival -/
def Spec.pillarFestivals : List (PyStr × PyStr) :=
  [("丙午", "天会"), ("壬午", "地会"), ("壬子", "人会"), ("庚午", "日会"), ("庚申", "月会"), ("辛酉", "星辰会"), ("甲辰", "五行会"),
   ("甲戌", "四时会")].map (fun p : String × String => (p.1.toList, p.2.toList))

private theorem get_mem {β : Type} {T : List (PyStr × β)} {k : PyStr} {v : β} (h : pyDictGet T k = some v) : (k, v) ∈ T := by
  unfold pyDictGet at h
  obtain ⟨p, hp, rfl⟩ := Option.map_eq_some_iff.1 h
  have := List.find?_some hp
  have e : p.1 = k := by simpa using this
  rw [← e]
  exact List.mem_of_find?_eq_some hp

private theorem members {t : Tao} {fs : List TaoFestival} {jq gz : PyStr} (hj : t.lunar.getJieQi = .ok jq)
    (hg : t.lunar.getDayInGanZhi = .ok gz) (h : t.getFestivals = .ok fs) (x : TaoFestival) :
    x ∈ fs ↔ x ∈ (pyDictGet TaoUtil.FESTIVAL (Lunar.md t.getMonth t.getDay)).getD [] ∨
      ((jq, x.name) ∈ sunFestivals ∧ x.remark = []) ∨ ((gz, x.name) ∈ pillarFestivals ∧ x.remark = []) := by
  have s1 : ∀ p ∈ TaoUtil.BA_JIE, p ∈ sunFestivals ∧ pyDictGet TaoUtil.BA_JIE p.1 = some p.2 := by decide +kernel
  have s2 : ∀ p ∈ sunFestivals, p ∈ TaoUtil.BA_JIE ∨ p = (['冬', '至'], ['元', '始', '天', '尊', '圣', '诞']) ∨
    p = (['夏', '至'], ['灵', '宝', '天', '尊', '圣', '诞']) := by decide +kernel
  have s3 : ((['冬', '至'], ['元', '始', '天', '尊', '圣', '诞']) : PyStr × PyStr) ∈ sunFestivals ∧
    ((['夏', '至'], ['灵', '宝', '天', '尊', '圣', '诞']) : PyStr × PyStr) ∈ sunFestivals := by decide +kernel
  have p1 : ∀ p ∈ TaoUtil.BA_HUI, p ∈ pillarFestivals := by decide +kernel
  have p2 : ∀ p ∈ pillarFestivals, pyDictGet TaoUtil.BA_HUI p.1 = some p.2 := by decide +kernel
  unfold Tao.getFestivals at h
  rw [hj, hg] at h
  simp only [bind, Except.bind, pure, Except.pure, Except.ok.injEq] at h
  subst h
  have lst : ∀ {T : List (PyStr × PyStr)} {k : PyStr}, x ∈ (pyDictGet T k).toList.map (fun s => (⟨s, []⟩ : TaoFestival)) ↔
      pyDictGet T k = some x.name ∧ x.remark = [] := by
    intro T k
    obtain ⟨n, r⟩ := x
    constructor
    · intro hx
      obtain ⟨s, hs, e⟩ := List.mem_map.1 hx
      rw [Option.mem_toList] at hs
      cases e
      exact ⟨hs, rfl⟩
    · rintro ⟨h1, h2⟩
      cases h2
      exact List.mem_map.2 ⟨n, Option.mem_toList.2 h1, rfl⟩
  rw [List.mem_append, List.mem_append, lst, lst]
  constructor
  · rintro ((hx | ⟨hx, hr⟩) | ⟨hx, hr⟩)
    · split_ifs at hx with c1 c2
      · rw [List.mem_append, List.mem_singleton] at hx
        rcases hx with hx | rfl
        · exact .inl hx
        · exact .inr (.inl ⟨c1 ▸ s3.1, rfl⟩)
      · rw [List.mem_append, List.mem_singleton] at hx
        rcases hx with hx | rfl
        · exact .inl hx
        · exact .inr (.inl ⟨c2 ▸ s3.2, rfl⟩)
      · exact .inl hx
    · exact .inr (.inl ⟨(s1 _ (get_mem hx)).1, hr⟩)
    · exact .inr (.inr ⟨p1 _ (get_mem hx), hr⟩)
  · rintro (hx | ⟨hx, hr⟩ | ⟨hx, hr⟩)
    · left; left
      split_ifs
      · exact List.mem_append_left _ hx
      · exact List.mem_append_left _ hx
      · exact hx
    · left
      rcases s2 _ hx with h | h | h
      · exact .inr ⟨(s1 _ h).2, hr⟩
      · left
        obtain ⟨n, r⟩ := x
        cases hr
        obtain ⟨rfl, rfl⟩ := Prod.mk.injEq .. ▸ h
        rw [if_pos rfl]
        exact List.mem_append_right _ (List.mem_singleton.2 rfl)
      · left
        obtain ⟨n, r⟩ := x
        cases hr
        obtain ⟨rfl, rfl⟩ := Prod.mk.injEq .. ▸ h
        rw [if_neg (by decide), if_pos rfl]
        exact List.mem_append_right _ (List.mem_singleton.2 rfl)
    · exact .inr ⟨p2 _ hx, hr⟩

private theorem table_names {k : PyStr} {x : TaoFestival} (hx : x ∈ (pyDictGet TaoUtil.FESTIVAL k).getD []) :
    x.name ∉ sunFestivals.map Prod.snd ∧ x.name ∉ pillarFestivals.map Prod.snd := by
  have key : ∀ p ∈ TaoUtil.FESTIVAL, ∀ x ∈ p.2, x.name ∉ sunFestivals.map Prod.snd ∧ x.name ∉ pillarFestivals.map Prod.snd := by
    decide +kernel
  cases h : pyDictGet TaoUtil.FESTIVAL k with
  | none => rw [h] at hx; cases hx
  | some v => rw [h] at hx; exact key _ (get_mem h) x hx

private theorem known {l : Lunar} (h : l.Proper) : ∃ jq gz, l.getJieQi = .ok jq ∧ l.getDayInGanZhi = .ok gz := by
  obtain ⟨y, yl, ye, m, me, d, de, ti, N⟩ := h.numbers
  rcases C62_name h.table.len .all with ⟨i, s, -, -, -, -, h5⟩ | ⟨h1, h2⟩
  · exact ⟨_, _, h5, Lunar.pair_eq N.dg N.dz⟩
  · exact ⟨_, _, h2, Lunar.pair_eq N.dg N.dz⟩

/-- **C68** a festival of a solar term is in the list exactly on the days of that term: the birthday of 元始天尊 on 冬至, that of
灵宝天尊 on 夏至, and on each of the eight 节 its own. -/
theorem C68_sun (t : Tao) (h : t.lunar.Proper) (term name : PyStr) (hp : (term, name) ∈ sunFestivals) :
    ∃ fs, t.getFestivals = .ok fs ∧ ((∃ x ∈ fs, x.name = name) ↔ t.lunar.getJieQi = .ok term) := by
  obtain ⟨fs, b, c, hf, -⟩ := C68_festivals t h
  obtain ⟨jq, gz, hj, hg⟩ := known h
  have u : ∀ p ∈ sunFestivals, ∀ q ∈ sunFestivals, p.2 = q.2 → p.1 = q.1 := by decide +kernel
  have v : ∀ p ∈ sunFestivals, ∀ q ∈ pillarFestivals, p.2 ≠ q.2 := by decide +kernel
  refine ⟨fs, hf, ?_, ?_⟩
  · rintro ⟨x, hx, rfl⟩
    rcases (members hj hg hf x).1 hx with h1 | ⟨h1, -⟩ | ⟨h1, -⟩
    · exact absurd (List.mem_map_of_mem (f := Prod.snd) hp) (table_names h1).1
    · rw [hj]; exact congrArg Except.ok (u _ h1 _ hp rfl)
    · exact (v (term, x.name) hp (gz, x.name) h1 rfl).elim
  · intro e
    rw [hj] at e
    cases e
    exact ⟨⟨name, []⟩, (members hj hg hf _).2 (.inr (.inl ⟨hp, rfl⟩)), rfl⟩

/-- **C68** each of the eight 会 is in the list exactly on the days of its pillar. -/
theorem C68_pillar (t : Tao) (h : t.lunar.Proper) (pillar name : PyStr) (hp : (pillar, name) ∈ pillarFestivals) :
    ∃ fs, t.getFestivals = .ok fs ∧ ((∃ x ∈ fs, x.name = name) ↔ t.lunar.getDayInGanZhi = .ok pillar) := by
  obtain ⟨fs, b, c, hf, -⟩ := C68_festivals t h
  obtain ⟨jq, gz, hj, hg⟩ := known h
  have u : ∀ p ∈ pillarFestivals, ∀ q ∈ pillarFestivals, p.2 = q.2 → p.1 = q.1 := by decide +kernel
  have v : ∀ p ∈ sunFestivals, ∀ q ∈ pillarFestivals, p.2 ≠ q.2 := by decide +kernel
  refine ⟨fs, hf, ?_, ?_⟩
  · rintro ⟨x, hx, rfl⟩
    rcases (members hj hg hf x).1 hx with h1 | ⟨h1, -⟩ | ⟨h1, -⟩
    · exact absurd (List.mem_map_of_mem (f := Prod.snd) hp) (table_names h1).2
    · exact (v (jq, x.name) h1 (pillar, x.name) hp rfl).elim
    · rw [hg]; exact congrArg Except.ok (u _ h1 _ hp rfl)
  · intro e
    rw [hg] at e
    cases e
    exact ⟨⟨name, []⟩, (members hj hg hf _).2 (.inr (.inr ⟨hp, rfl⟩)), rfl⟩

/-- **C68** the other festivals come back every year: two dates of the same lunar month and day have the same ones. -/
theorem C68_yearly (t u : Tao) (ht : t.lunar.Proper) (hu : u.lunar.Proper) (hm : t.getMonth = u.getMonth) (hd : t.getDay = u.getDay) :
    ∃ fs gs, t.getFestivals = .ok fs ∧ u.getFestivals = .ok gs ∧ ∀ x : TaoFestival, x.name ∉ sunFestivals.map Prod.snd →
      x.name ∉ pillarFestivals.map Prod.snd → (x ∈ fs ↔ x ∈ gs) := by
  obtain ⟨fs, b, c, hf, -⟩ := C68_festivals t ht
  obtain ⟨gs, b', c', hf', -⟩ := C68_festivals u hu
  obtain ⟨jq, gz, hj, hg⟩ := known ht
  obtain ⟨jq', gz', hj', hg'⟩ := known hu
  refine ⟨fs, gs, hf, hf', fun x h1 h2 => ?_⟩
  rw [members hj hg hf, members hj' hg' hf', hm, hd]
  have a : ∀ k, (k, x.name) ∉ sunFestivals := fun k hk => h1 (List.mem_map_of_mem (f := Prod.snd) hk)
  have b : ∀ k, (k, x.name) ∉ pillarFestivals := fun k hk => h2 (List.mem_map_of_mem (f := Prod.snd) hk)
  constructor
  · rintro (h | ⟨h, -⟩ | ⟨h, -⟩)
    · exact .inl h
    · exact absurd h (a _)
    · exact absurd h (b _)
  · rintro (h | ⟨h, -⟩ | ⟨h, -⟩)
    · exact .inl h
    · exact absurd h (a _)
    · exact absurd h (b _)

/-- 2024-02-04 is the day of 立春: it has the festival of 立春 and not the birthday of 元始天尊, and no 会 (its pillar is 戊戌) -/
example : sample.Proper ∧ (['立', '春'], "东北方度仙上圣天尊同梵炁始青天君下降".toList) ∈ sunFestivals ∧ (['丙', '午'], ['天', '会']) ∈ pillarFestivals ∧
    (∃ fs, (Tao.mk sample).getFestivals = .ok fs ∧ "东北方度仙上圣天尊同梵炁始青天君下降".toList ∈ fs.map TaoFestival.name ∧
      "元始天尊圣诞".toList ∉ fs.map TaoFestival.name ∧ "天会".toList ∉ fs.map TaoFestival.name) := by
  refine ⟨sample_proper, by decide +kernel, by decide +kernel, _, rfl, ?_⟩
  decide +kernel

/-- the first day of the first month has 天腊之辰 in every year -/
example : ∃ fs, (Tao.mk { sample with month := 1, day := 1 }).getFestivals = .ok fs ∧ ∃ x ∈ fs, x.name = "天腊之辰".toList ∧
    x.name ∉ sunFestivals.map Prod.snd ∧ x.name ∉ pillarFestivals.map Prod.snd := by
  refine ⟨_, rfl, ?_⟩
  decide +kernel

end
