import Verif.Model.FotoTao
import Verif.Proof.Keys
import Verif.Proof.LunarDay
import Verif.Props.EightChar
import Verif.Props.LunarDate
import Verif.Props.Terms

/-! # C53, C66, C67, C68: the Buddhist and the Taoist calendar -/

section
open Spec

/-! ## C53 -/

private theorem bind_ok {α β : Type} {x : Except PyErr α} {f : α → Except PyErr β} {b : β} (h : (x >>= f) = .ok b) :
    ∃ a, x = .ok a ∧ f a = .ok b := by
  cases x with
  | error e => cases h
  | ok a => exact ⟨a, rfl, h⟩

/-- what the constructor of `Lunar` stores -/
private theorem fields {A : Astro} {y m d h mi s : ℤ} {l : Lunar} (e : Lunar.fromYmdHms A y m d h mi s = .ok l) :
    l.year = y ∧ l.month = m ∧ l.day = d := by
  unfold Lunar.fromYmdHms at e
  dsimp only at e
  split at e
  · cases e
  · by_cases c1 : d < 1
    · rw [if_pos c1] at e; cases e
    · rw [if_neg c1] at e
      split at e
      · cases e
      · obtain ⟨a, -, e⟩ := bind_ok e
        obtain ⟨b, -, e⟩ := bind_ok e
        obtain ⟨c, -, e⟩ := bind_ok e
        unfold Lunar.compute at e
        obtain ⟨p, -, e⟩ := bind_ok e
        obtain ⟨q, -, e⟩ := bind_ok e
        cases e
        exact ⟨rfl, rfl, rfl⟩

/-- **C53** `Tao.fromYmdHms`: whatever date is accepted reads back as given. -/
theorem C53_tao (A : Astro) (y m d h mi s : ℤ) (t : Tao) (e : Tao.fromYmdHms A y m d h mi s = .ok t) :
    t.getYear = y ∧ t.getMonth = m ∧ t.getDay = d := by
  unfold Tao.fromYmdHms at e
  cases hl : Lunar.fromYmdHms A (y + Tao.BIRTH_YEAR) m d h mi s with
  | error x => rw [hl] at e; cases e
  | ok l =>
    rw [hl] at e
    cases e
    obtain ⟨f1, f2, f3⟩ := fields hl
    refine ⟨?_, f2, f3⟩
    show l.year - Tao.BIRTH_YEAR = y
    rw [f1]; ring

/-- **C53** `Foto.fromYmdHms`: month and day read back as given.  The year does too if the day lies in the
solar year that has the number of the lunar year or in the next one. -/
theorem C53_foto (A : Astro) (y m d h mi s : ℤ) (f : Foto) (e : Foto.fromYmdHms A y m d h mi s = .ok f) :
    f.getMonth = m ∧ f.getDay = d ∧
    (f.lunar.solar.year = f.lunar.year ∨ f.lunar.solar.year = f.lunar.year + 1 → f.getYear = y) ∧
    (f.lunar.solar.year = f.lunar.year - 1 → f.getYear = y - 2) := by
  unfold Foto.fromYmdHms at e
  cases hl : Lunar.fromYmdHms A (y + Foto.DEAD_YEAR - 1) m d h mi s with
  | error x => rw [hl] at e; cases e
  | ok l =>
    rw [hl] at e
    cases e
    obtain ⟨f1, f2, f3⟩ := fields hl
    refine ⟨f2, f3, ?_, ?_⟩
    · intro hy
      unfold Foto.getYear
      dsimp only at hy ⊢
      rw [f1] at hy ⊢
      unfold Foto.DEAD_YEAR at *
      split_ifs <;> omega
    · intro hy
      unfold Foto.getYear
      dsimp only at hy ⊢
      rw [f1] at hy ⊢
      unfold Foto.DEAD_YEAR at *
      split_ifs <;> omega

/-- **C53** the number of the Buddhist year is that of the lunar year plus 544 and that of the Taoist year is
that of the lunar year plus 2697, for dates made from solar dates too. -/
theorem C53_year (l : Lunar) (h : l.Proper) : (Foto.mk l).getYear = l.year + 544 ∧ (Tao.mk l).getYear = l.year + 2697 := by
  have hn := h.near
  refine ⟨?_, ?_⟩
  · unfold Foto.getYear Foto.DEAD_YEAR
    dsimp only
    split_ifs <;> omega
  · unfold Tao.getYear Tao.BIRTH_YEAR
    dsimp only
    omega

/-- the sample almanac: the last day of the year 2024, which lies in the solar year 2025, as the Buddhist
date 2568-12-29 and the Taoist date 4721-12-29 -/
example : ∃ f t, Foto.fromYmdHms Sample.astro 2568 12 29 12 0 0 = .ok f ∧ f.lunar.solar.year = 2025 ∧ f.getYear = 2568 ∧
    Tao.fromYmdHms Sample.astro 4721 12 29 12 0 0 = .ok t ∧ t.getYear = 4721 := by
  obtain ⟨l, e, q0, -, -, -, -, q, -⟩ := Sample.almanac.fromYmdHms_ok (k := 38) (d := 29) (h := 12) (mi := 0) (s := 0) (x := ⟨2025, 1, 28⟩)
    (by decide +kernel) (by decide +kernel) (by decide) (by decide +kernel) (by decide)
    ((isDay_iff (by decide)).mpr (by decide +kernel)) (by decide) (by decide) (by decide)
  have k : Sample.almanac.key 38 = (2024, 12) := by decide +kernel
  rw [k] at e q0
  have e1 : Foto.fromYmdHms Sample.astro 2568 12 29 12 0 0 = .ok ⟨l⟩ := by
    unfold Foto.fromYmdHms
    rw [show (2568 : ℤ) + Foto.DEAD_YEAR - 1 = 2024 by decide, e]; rfl
  have e2 : Tao.fromYmdHms Sample.astro 4721 12 29 12 0 0 = .ok ⟨l⟩ := by
    unfold Tao.fromYmdHms
    rw [show (4721 : ℤ) + Tao.BIRTH_YEAR = 2024 by decide, e]; rfl
  have hs : l.solar.year = 2025 := by rw [q]
  have hy : l.year = 2024 := congrArg Prod.fst q0
  exact ⟨⟨l⟩, ⟨l⟩, e1, hs, (C53_foto _ _ _ _ _ _ _ _ e1).2.2.1 (.inr (by show l.solar.year = l.year + 1; omega)), e2,
    (C53_tao _ _ _ _ _ _ _ _ e2).1⟩

example : (Foto.mk sample).getYear = 2567 ∧ (Tao.mk sample).getYear = 4720 := by
  have := C53_year sample sample_proper
  have h : sample.year = 2023 := by decide +kernel
  omega

/-! ## C66 -/

/-- **C66** the six days of fasting are the 8th, 14th, 15th, 23rd and the last two of the month, for the months
of 29 or 30 days that the calendar has. -/
theorem C66_six {A : Astro} {lo hi : ℤ} (H : Almanac A lo hi) (l : Lunar) (k : ℤ) (hk : H.key k = (l.year, l.month))
    (h1 : lo ≤ l.year) (h2 : l.year ≤ hi) (hd : l.day ≤ H.first (k + 1) - H.first k)
    (h30 : H.first (k + 1) - H.first k = 29 ∨ H.first (k + 1) - H.first k = 30) :
    (Foto.mk l).isDayZhaiSix A = true ↔
      l.day ∈ ([8, 14, 15, 23] : List ℤ) ∨ l.day = H.first (k + 1) - H.first k - 1 ∨ l.day = H.first (k + 1) - H.first k := by
  have k1 : (H.key k).1 = l.year := by rw [hk]
  obtain ⟨m, e, -, c, -⟩ := H.getMonth_some (k := k) (by omega) (by omega)
  rw [hk] at e
  unfold Foto.isDayZhaiSix Foto.getDay Foto.getMonth LunarMonth.fromYm
  dsimp only at e ⊢
  rw [e]
  dsimp only
  simp only [List.mem_cons, List.not_mem_nil, or_false]
  split_ifs with a b
  · simp only [Bool.or_eq_true, decide_eq_true_eq] at a
    simp only [true_iff]
    omega
  · simp only [Bool.or_eq_true, decide_eq_true_eq] at a b
    simp only [decide_eq_true_eq]
    omega
  · simp only [Bool.or_eq_true, decide_eq_true_eq] at a
    simp only [Bool.false_eq_true, false_iff]
    omega

/-- **C66** the ten days of fasting are a fixed list; all days of the six and both of 朔望 (1st, 15th) are among them. -/
theorem C66_ten {A : Astro} (f : Foto) :
    (f.isDayZhaiTen = true ↔ f.getDay ∈ ([1, 8, 14, 15, 18, 23, 24, 28, 29, 30] : List ℤ)) ∧
    (f.isDayZhaiShuoWang = true ↔ f.getDay = 1 ∨ f.getDay = 15) ∧
    (f.isDayZhaiSix A = true → f.isDayZhaiTen = true) ∧ (f.isDayZhaiShuoWang = true → f.isDayZhaiTen = true) ∧
    (f.isMonthZhai = true ↔ f.getMonth ∈ ([1, 5, 9] : List ℤ)) := by
  have t : f.isDayZhaiTen = true ↔ f.getDay ∈ ([1, 8, 14, 15, 18, 23, 24, 28, 29, 30] : List ℤ) := by
    unfold Foto.isDayZhaiTen
    simp only [Bool.or_eq_true, decide_eq_true_eq, List.mem_cons, List.not_mem_nil, or_false]
    omega
  have w : f.isDayZhaiShuoWang = true ↔ f.getDay = 1 ∨ f.getDay = 15 := by
    unfold Foto.isDayZhaiShuoWang
    simp only [Bool.or_eq_true, decide_eq_true_eq]
    omega
  refine ⟨t, w, ?_, ?_, ?_⟩
  · intro h
    rw [t]
    unfold Foto.isDayZhaiSix at h
    dsimp only at h
    simp only [List.mem_cons, List.not_mem_nil, or_false]
    split_ifs at h with a b
    · simp only [Bool.or_eq_true, decide_eq_true_eq] at a
      omega
    · omega
  · intro h
    rw [w] at h
    rw [t]
    simp only [List.mem_cons, List.not_mem_nil, or_false]
    omega
  · unfold Foto.isMonthZhai
    simp only [Bool.or_eq_true, decide_eq_true_eq, List.mem_cons, List.not_mem_nil, or_false]
    omega

private theorem foto_good : Keys.Good FotoUtil.FESTIVAL := by decide +kernel

/-- **C66** the thirteen days of 杨公忌: the 13th of the first month and from there two days earlier in each month, with
a second day in the seventh month; leap months have the days of the months they repeat. -/
theorem C66_yang_gong (f : Foto) : f.isDayYangGong = true ↔
    1 ≤ f.getDay ∧ f.getDay ≤ 30 ∧ 1 ≤ |f.getMonth| ∧ |f.getMonth| ≤ 12 ∧
      (f.getDay + 2 * |f.getMonth| = 15 ∨ f.getDay + 2 * |f.getMonth| = 43) := by
  unfold Foto.isDayYangGong Foto.getFestivals
  generalize |f.getMonth| = m
  generalize f.getDay = d
  constructor
  · intro h
    cases hg : pyDictGet FotoUtil.FESTIVAL (Lunar.md m d) with
    | none => rw [hg] at h; simp at h
    | some v =>
      obtain ⟨p, hp, e1, e2⟩ := Keys.mem_of_dict foto_good hg
      rw [hg] at h
      have key : ∀ p ∈ FotoUtil.FESTIVAL, (p.2.any (fun x => ['杨', '公', '忌'] = x.name)) = true →
          1 ≤ (Keys.parse p.1).2 ∧ (Keys.parse p.1).2 ≤ 30 ∧ 1 ≤ (Keys.parse p.1).1 ∧ (Keys.parse p.1).1 ≤ 12 ∧
          ((Keys.parse p.1).2 + 2 * (Keys.parse p.1).1 = 15 ∨ (Keys.parse p.1).2 + 2 * (Keys.parse p.1).1 = 43) := by decide +kernel
      have := key p hp (by rw [e2]; simpa using h)
      rw [e1] at this
      exact this
  · rintro ⟨h1, h2, h3, h4, h5⟩
    have key : ∀ i : Fin 12, ∀ j : Fin 30, ((j : ℕ) : ℤ) + 1 + 2 * (((i : ℕ) : ℤ) + 1) = 15 ∨ ((j : ℕ) : ℤ) + 1 + 2 * (((i : ℕ) : ℤ) + 1) = 43 →
        (((pyDictGet FotoUtil.FESTIVAL (Lunar.md (((i : ℕ) : ℤ) + 1) (((j : ℕ) : ℤ) + 1))).getD []).any (fun x => ['杨', '公', '忌'] = x.name)) = true := by
      decide +kernel
    have := key ⟨(m - 1).toNat, by omega⟩ ⟨(d - 1).toNat, by omega⟩
    simp only [show (((m - 1).toNat : ℕ) : ℤ) = m - 1 by omega, show (((d - 1).toNat : ℕ) : ℤ) = d - 1 by omega,
      show m - 1 + 1 = m by ring, show d - 1 + 1 = d by ring] at this
    exact this h5

private theorem any_md (T : List PyStr) (hT : ∀ s ∈ T, Lunar.md (Keys.parse s).1 (Keys.parse s).2 = s) (m d : ℤ) :
    T.any (fun x => Lunar.md m d = x) = true ↔ (m, d) ∈ T.map Keys.parse := by
  simp only [List.any_eq_true, decide_eq_true_eq, List.mem_map]
  constructor
  · rintro ⟨x, hx, e⟩
    exact ⟨x, hx, (Keys.md_eq_key (hT x hx) m d).1 e.symm⟩
  · rintro ⟨x, hx, e⟩
    exact ⟨x, hx, ((Keys.md_eq_key (hT x hx) m d).2 e).symm⟩

/-- **C66** the days of fasting for 观音 are a fixed list of month and day, never in a leap month. -/
theorem C66_guan_yin (f : Foto) : f.isDayZhaiGuanYin = true ↔ (f.getMonth, f.getDay) ∈
    ([(1, 8), (2, 7), (2, 9), (2, 19), (3, 3), (3, 6), (3, 13), (4, 22), (5, 3), (5, 17), (6, 16), (6, 18), (6, 19), (6, 23),
      (7, 13), (8, 16), (9, 19), (9, 23), (10, 2), (11, 19), (11, 24), (12, 25)] : List (ℤ × ℤ)) := by
  unfold Foto.isDayZhaiGuanYin
  rw [any_md _ (by decide +kernel)]
  have : FotoUtil.DAY_ZHAI_GUAN_YIN.map Keys.parse =
    [(1, 8), (2, 7), (2, 9), (2, 19), (3, 3), (3, 6), (3, 13), (4, 22), (5, 3), (5, 17), (6, 16), (6, 18), (6, 19), (6, 23),
      (7, 13), (8, 16), (9, 19), (9, 23), (10, 2), (11, 19), (11, 24), (12, 25)] := by decide +kernel
  rw [this]

/-- the 27 mansions of the Buddhist calendar -/
def mansions27 : List Char :=
  ['角', '亢', '氐', '房', '心', '尾', '箕', '斗', '女', '虚', '危', '室', '壁', '奎', '娄', '胃', '昴', '毕', '觜', '参', '井',
   '鬼', '柳', '星', '张', '翼', '轸']

/-- the mansions of the first days of the twelve months -/
def firstMansions : List Char := ['室', '奎', '胃', '毕', '参', '鬼', '张', '角', '氐', '心', '斗', '虚']

/-- **C66** the mansion of a day: the first day of each month has its fixed mansion, in leap months that of the month
repeated, and it advances by one of the 27 each day; its luck, poem, element, animal, palace and beast are known. -/
theorem C66_mansion (f : Foto) (h1 : 1 ≤ |f.getMonth|) (h2 : |f.getMonth| ≤ 12) :
    ∃ j : ℕ, mansions27[j]? = firstMansions[(|f.getMonth| - 1).toNat]? ∧ j < 27 ∧
      f.getXiu = .ok [mansions27.getD ((j + f.getDay - 1) % 27).toNat '?'] ∧
      (∃ s, f.getXiuLuck = .ok s) ∧ (∃ s, f.getXiuSong = .ok s) ∧ (∃ s, f.getZheng = .ok s) ∧ (∃ s, f.getAnimal = .ok s) ∧
      (∃ s, f.getGong = .ok s) ∧ ∃ s, f.getShou = .ok s := by
  have key : ∀ i : Fin 12, ∃ j : Fin 27, mansions27[(j : ℕ)]? = firstMansions[(i : ℕ)]? ∧
      pyIndex FotoUtil.XIU_OFFSET (((i : ℕ) : ℤ) + 1 - 1) = .ok ((j : ℕ) : ℤ) := by decide +kernel
  have tot : ∀ i : Fin 27, pyIndex FotoUtil.XIU_27 ((i : ℕ) : ℤ) = .ok [mansions27.getD i '?'] ∧
      (pyDictGet LunarUtil.XIU_LUCK [mansions27.getD i '?']).isSome ∧ (pyDictGet LunarUtil.XIU_SONG [mansions27.getD i '?']).isSome ∧
      (pyDictGet LunarUtil.ZHENG [mansions27.getD i '?']).isSome ∧ (pyDictGet LunarUtil.ANIMAL [mansions27.getD i '?']).isSome ∧
      ((pyDictGet LunarUtil.GONG [mansions27.getD i '?']).bind (pyDictGet LunarUtil.SHOU)).isSome := by decide +kernel
  have tod : ∀ {β : Type} {T : List (PyStr × β)} {k : PyStr} {v : β}, pyDictGet T k = some v → pyDict T k = .ok v := by
    intro β T k v h
    unfold pyDictGet at h
    unfold pyDict
    obtain ⟨p, hp, rfl⟩ := Option.map_eq_some_iff.1 h
    rw [hp]
  have dict : ∀ {β : Type} {T : List (PyStr × β)} {k : PyStr}, (pyDictGet T k).isSome → ∃ v, pyDictGet T k = some v ∧ pyDict T k = .ok v := by
    intro β T k h
    obtain ⟨v, hv⟩ := Option.isSome_iff_exists.1 h
    exact ⟨v, hv, tod hv⟩
  obtain ⟨j, k1, k2⟩ := key ⟨(|f.getMonth| - 1).toNat, by omega⟩
  dsimp only at k1 k2
  rw [show (((|f.getMonth| - 1).toNat : ℕ) : ℤ) + 1 - 1 = |f.getMonth| - 1 by omega] at k2
  have hj := j.2
  have hx : f.getXiu = .ok [mansions27.getD ((((j : ℕ) : ℤ) + f.getDay - 1) % 27).toNat '?'] := by
    unfold Foto.getXiu FotoUtil.getXiu
    rw [k2]
    show pyIndex FotoUtil.XIU_27 ((((j : ℕ) : ℤ) + f.getDay - 1) % 27) = _
    have := (tot ⟨((((j : ℕ) : ℤ) + f.getDay - 1) % 27).toNat, by omega⟩).1
    dsimp only at this
    rw [show (((((((j : ℕ) : ℤ) + f.getDay - 1) % 27).toNat : ℕ)) : ℤ) = (((j : ℕ) : ℤ) + f.getDay - 1) % 27 by omega] at this
    exact this
  obtain ⟨-, t1, t2, t3, t4, t5⟩ := tot ⟨((((j : ℕ) : ℤ) + f.getDay - 1) % 27).toNat, by omega⟩
  dsimp only at t1 t2 t3 t4 t5
  obtain ⟨v1, -, e1⟩ := dict t1
  obtain ⟨v2, -, e2⟩ := dict t2
  obtain ⟨v3, -, e3⟩ := dict t3
  obtain ⟨v4, -, e4⟩ := dict t4
  obtain ⟨v5, e5⟩ : ∃ v, pyDict LunarUtil.GONG [mansions27.getD ((((j : ℕ) : ℤ) + f.getDay - 1) % 27).toNat '?'] = .ok v ∧
      (pyDictGet LunarUtil.SHOU v).isSome := by
    obtain ⟨a, ha⟩ := Option.isSome_iff_exists.1 t5
    obtain ⟨b, hb, hc⟩ := Option.bind_eq_some_iff.1 ha
    exact ⟨b, tod hb, by rw [hc]; rfl⟩
  obtain ⟨v6, -, e6⟩ := dict e5.2
  have hgong : f.getGong = .ok v5 := by unfold Foto.getGong; rw [hx]; exact e5.1
  refine ⟨j, k1, hj, hx, ⟨v1, ?_⟩, ⟨v2, ?_⟩, ⟨v3, ?_⟩, ⟨v4, ?_⟩, ⟨v5, hgong⟩, ⟨v6, ?_⟩⟩
  · unfold Foto.getXiuLuck; rw [hx]; exact e1
  · unfold Foto.getXiuSong; rw [hx]; exact e2
  · unfold Foto.getZheng; rw [hx]; exact e3
  · unfold Foto.getAnimal; rw [hx]; exact e4
  · unfold Foto.getShou; rw [hgong]; exact e6

/-- the 28th of the last month of 2024, which has 29 days, is a day of fasting; that of 2023, which has 30, is not -/
example : (Foto.mk { sample with year := 2024, month := 12, day := 28 }).isDayZhaiSix Sample.astro = true ∧
    (Foto.mk { sample with day := 28 }).isDayZhaiSix Sample.astro ≠ true := by
  have k1 : Sample.almanac.key 38 = (2024, 12) := by decide +kernel
  have k2 : Sample.almanac.key 26 = (2023, 12) := by decide +kernel
  have f1 : Sample.almanac.first (38 + 1) - Sample.almanac.first 38 = 29 := by decide +kernel
  have f2 : Sample.almanac.first (26 + 1) - Sample.almanac.first 26 = 30 := by decide +kernel
  constructor
  · rw [C66_six Sample.almanac _ 38 k1 (by decide) (by decide) (by rw [f1]; decide) (.inl f1), f1]
    decide
  · rw [Ne, C66_six Sample.almanac _ 26 k2 (by decide +kernel) (by decide +kernel) (by rw [f2]; decide) (.inr f2), f2]
    decide

/-- the 7th of the leap fourth month is a day of 杨公忌, with mansion 井; the 8th of the first month is one of 观音 -/
example : (Foto.mk { sample with month := -4, day := 7 }).isDayYangGong = true ∧
    (Foto.mk { sample with month := -4, day := 7 }).getXiu = .ok ['星'] ∧
    (Foto.mk { sample with month := 1, day := 8 }).isDayZhaiGuanYin = true ∧
    (Foto.mk { sample with month := -1, day := 8 }).isDayZhaiGuanYin ≠ true := by
  refine ⟨(C66_yang_gong _).2 (by decide +kernel), by decide +kernel, (C66_guan_yin _).2 (by decide +kernel), ?_⟩
  rw [Ne, C66_guan_yin]
  decide +kernel

/-! ## C67 -/

/-- the observances of every month, and their days, but for the 16th -/
private def monthly : List (ℤ × PyStr) :=
  [(30, ['月', '晦']), (30, ['司', '命', '奏', '事']), (30, ['四', '天', '王', '巡', '行']), (1, ['月', '朔']), (3, ['斗', '降']),
   (6, ['雷', '斋', '日']), (8, ['四', '天', '王', '巡', '行']),
   (14, ['四', '天', '王', '巡', '行']), (15, ['月', '望']), (15, ['四', '天', '王', '巡', '行']), (23, ['四', '天', '王', '巡', '行']), (25, ['月', '晦']),
   (27, ['斗', '降']), (28, ['人', '神', '在', '阴']), (29, ['四', '天', '王', '巡', '行'])]

/-- **C67** (full statement: an observance that a day of some month marks with `isEveryMonth` is listed on that
day of every month).  It holds except for the 6th of the eleventh and the 30th of the twelfth month and for the 16th. -/
theorem C67_every_month_partial (f g : Foto) (x : FotoFestival) (hx : x ∈ f.getFestivals) (he : x.everyMonth = true)
    (hd : g.getDay = f.getDay) (h1 : 1 ≤ |g.getMonth|) (h2 : |g.getMonth| ≤ 12)
    (h3 : ¬ (|g.getMonth| = 11 ∧ g.getDay = 6)) (h4 : ¬ (|g.getMonth| = 12 ∧ g.getDay = 30))
    (h5 : g.getDay ≠ 16) :
    ∃ z ∈ g.getFestivals, z.name = x.name := by
  have key1 : ∀ p ∈ FotoUtil.FESTIVAL, ∀ x ∈ p.2, x.everyMonth = true → (Keys.parse p.1).2 = 16 ∨ ((Keys.parse p.1).2, x.name) ∈ monthly := by
    decide +kernel
  have key2 : ∀ q ∈ monthly, ∀ i : Fin 12, ¬ ((i : ℕ) = 10 ∧ q.1 = 6) → ¬ ((i : ℕ) = 11 ∧ q.1 = 30) →
      (((pyDictGet FotoUtil.FESTIVAL (Lunar.md (((i : ℕ) : ℤ) + 1) q.1)).getD []).any (fun z => z.name = q.2)) = true := by
    decide +kernel
  unfold Foto.getFestivals at hx ⊢
  cases hg : pyDictGet FotoUtil.FESTIVAL (Lunar.md |f.getMonth| f.getDay) with
  | none => rw [hg] at hx; cases hx
  | some v =>
    rw [hg] at hx
    obtain ⟨p, hp, e1, e2⟩ := Keys.mem_of_dict foto_good hg
    have ed : (Keys.parse p.1).2 = g.getDay := by rw [e1, hd]
    have hq := (key1 p hp x (by rw [e2]; exact hx) he).resolve_left (by rw [ed]; exact h5)
    have := key2 _ hq ⟨(|g.getMonth| - 1).toNat, by omega⟩
    simp only [show (((|g.getMonth| - 1).toNat : ℕ) : ℤ) = |g.getMonth| - 1 by omega, show |g.getMonth| - 1 + 1 = |g.getMonth| by ring, ed] at this
    have := this (by omega) (by omega)
    simp only [List.any_eq_true, decide_eq_true_eq] at this
    exact this

/-- **C67** on those days it fails: 雷斋日 of the 6th, in every month but the eleventh, ... -/
theorem C67_violated_thunder (f : Foto) (hd : f.getDay = 6) (h1 : 1 ≤ |f.getMonth|) (h2 : |f.getMonth| ≤ 12) :
    (∃ x ∈ f.getFestivals, x.name = ['雷', '斋', '日'] ∧ x.everyMonth = true) ↔ |f.getMonth| ≠ 11 := by
  have key : ∀ i : Fin 12, (∃ x ∈ (pyDictGet FotoUtil.FESTIVAL (Lunar.md (((i : ℕ) : ℤ) + 1) 6)).getD [],
      x.name = ['雷', '斋', '日'] ∧ x.everyMonth = true) ↔ (i : ℕ) ≠ 10 := by decide +kernel
  have := key ⟨(|f.getMonth| - 1).toNat, by omega⟩
  simp only [show (((|f.getMonth| - 1).toNat : ℕ) : ℤ) = |f.getMonth| - 1 by omega, show |f.getMonth| - 1 + 1 = |f.getMonth| by ring] at this
  unfold Foto.getFestivals
  rw [hd, this]
  omega

/-- **C67** ... and 月晦 (the last day) of the 30th, in every month but the twelfth, have the mark, ... -/
theorem C67_violated_last (f : Foto) (hd : f.getDay = 30) (h1 : 1 ≤ |f.getMonth|) (h2 : |f.getMonth| ≤ 12) :
    (∃ x ∈ f.getFestivals, x.name = ['月', '晦'] ∧ x.everyMonth = true) ↔ |f.getMonth| ≠ 12 := by
  have key : ∀ i : Fin 12, (∃ x ∈ (pyDictGet FotoUtil.FESTIVAL (Lunar.md (((i : ℕ) : ℤ) + 1) 30)).getD [],
      x.name = ['月', '晦'] ∧ x.everyMonth = true) ↔ (i : ℕ) ≠ 11 := by decide +kernel
  have := key ⟨(|f.getMonth| - 1).toNat, by omega⟩
  simp only [show (((|f.getMonth| - 1).toNat : ℕ) : ℤ) = |f.getMonth| - 1 by omega, show |f.getMonth| - 1 + 1 = |f.getMonth| by ring] at this
  unfold Foto.getFestivals
  rw [hd, this]
  omega

/-- **C67** ... while 四天王巡行 of the 16th has the mark in the tenth month and is listed in no other. -/
theorem C67_violated_sixteenth (f : Foto) (hd : f.getDay = 16) (h1 : 1 ≤ |f.getMonth|) (h2 : |f.getMonth| ≤ 12) :
    ((∃ x ∈ f.getFestivals, x.name = ['四', '天', '王', '巡', '行'] ∧ x.everyMonth = true) ↔ |f.getMonth| = 10) ∧
    ((∃ x ∈ f.getFestivals, x.name = ['四', '天', '王', '巡', '行']) ↔ |f.getMonth| = 10) := by
  have key : ∀ i : Fin 12, ((∃ x ∈ (pyDictGet FotoUtil.FESTIVAL (Lunar.md (((i : ℕ) : ℤ) + 1) 16)).getD [],
      x.name = ['四', '天', '王', '巡', '行'] ∧ x.everyMonth = true) ↔ (i : ℕ) = 9) ∧
      ((∃ x ∈ (pyDictGet FotoUtil.FESTIVAL (Lunar.md (((i : ℕ) : ℤ) + 1) 16)).getD [], x.name = ['四', '天', '王', '巡', '行']) ↔ (i : ℕ) = 9) := by
    decide +kernel
  have := key ⟨(|f.getMonth| - 1).toNat, by omega⟩
  simp only [show (((|f.getMonth| - 1).toNat : ℕ) : ℤ) = |f.getMonth| - 1 by omega, show |f.getMonth| - 1 + 1 = |f.getMonth| by ring] at this
  unfold Foto.getFestivals
  rw [hd, this.1, this.2]
  omega

/-- the 1st of the first and of the ninth month: 月朔 (new moon) -/
example : ∃ x ∈ (Foto.mk { sample with month := 1, day := 1 }).getFestivals, x.name = ['月', '朔'] ∧ x.everyMonth = true ∧
    ∃ z ∈ (Foto.mk { sample with month := 9, day := 1 }).getFestivals, z.name = x.name := by decide +kernel

/-! ## C68 -/

private theorem tao_in (T : List PyStr) (L : List (ℤ × ℤ)) (hT : (∀ s ∈ T, Lunar.md (Keys.parse s).1 (Keys.parse s).2 = s) ∧ T.map Keys.parse = L)
    (t : Tao) : t.isDayIn T = true ↔ (t.getMonth, t.getDay) ∈ L := by
  unfold Tao.isDayIn
  rw [any_md _ hT.1, hT.2]

/-- **C68** 三会日, 三元日, 五腊日 are fixed lists of month and day, never in a leap month. -/
theorem C68_fixed (t : Tao) :
    (t.isDaySanHui = true ↔ (t.getMonth, t.getDay) ∈ ([(1, 7), (7, 7), (10, 15)] : List (ℤ × ℤ))) ∧
    (t.isDaySanYuan = true ↔ (t.getMonth, t.getDay) ∈ ([(1, 15), (7, 15), (10, 15)] : List (ℤ × ℤ))) ∧
    (t.isDayWuLa = true ↔ (t.getMonth, t.getDay) ∈ ([(1, 1), (5, 5), (7, 7), (10, 1), (12, 8)] : List (ℤ × ℤ))) :=
  ⟨tao_in _ _ (by decide +kernel) t, tao_in _ _ (by decide +kernel) t, tao_in _ _ (by decide +kernel) t⟩

private theorem lift60 {P : List Char → ℤ → Prop} (h : ∀ i : Fin 60, P (ganZhi (i : ℕ)) ((i : ℕ) : ℤ)) (n : ℤ) :
    P (ganZhi n) (n % 60) := by
  have := h ⟨(n % 60).toNat, by omega⟩
  simp only [show (((n % 60).toNat : ℕ) : ℤ) = n % 60 by omega] at this
  rwa [show ganZhi (n % 60) = ganZhi n from Lunar.ganZhi_eq_iff.2 (by omega)] at this

/-- **C68** 八会日: the days 丙午, 壬午, 壬子, 庚午, 庚申, 辛酉, 甲辰, 甲戌 of the cycle of sixty; and 明戊日: the days
whose stem is 戊. -/
theorem C68_by_day (t : Tao) (h : t.lunar.Proper) (n : ℤ) (hn : t.lunar.getDayInGanZhi = .ok (ganZhi n)) :
    t.isDayBaHui = .ok (decide (n % 60 ∈ ([42, 18, 48, 6, 56, 57, 40, 10] : List ℤ))) ∧
    t.isDayMingWu = .ok (decide (n % 10 = 4)) := by
  constructor
  · unfold Tao.isDayBaHui
    rw [hn]
    exact lift60 (P := fun s i => (.ok (pyDictGet TaoUtil.BA_HUI s).isSome : Except PyErr Bool) =
      .ok (decide (i ∈ ([42, 18, 48, 6, 56, 57, 40, 10] : List ℤ)))) (by decide +kernel) n
  · unfold Tao.isDayMingWu Lunar.getDayGan
    rw [(h.day hn).1, Lunar.gan_num]
    exact EightChar.lift10 (P := fun i s => (.ok (decide (['戊'] = [s])) : Except PyErr Bool) = .ok (decide (i = 4))) (by decide +kernel) n

/-- the branches of the days 暗戊 of the twelve months -/
def anWu : List Char := ['未', '戌', '辰', '寅', '午', '子', '酉', '申', '巳', '亥', '卯', '丑']

/-- **C68** 暗戊日: the days with the branch that belongs to the lunar month (leap or not); 戊日 is either kind. -/
theorem C68_an_wu (t : Tao) (h : t.lunar.Proper) (n : ℤ) (hn : t.lunar.getDayInGanZhi = .ok (ganZhi n))
    (h1 : 1 ≤ |t.getMonth|) (h2 : |t.getMonth| ≤ 12) :
    t.isDayAnWu = .ok (decide (branch n = anWu.getD (|t.getMonth| - 1).toNat '?')) ∧
    t.isDayWu = .ok (decide (n % 10 = 4 ∨ branch n = anWu.getD (|t.getMonth| - 1).toNat '?')) := by
  have key : ∀ i : Fin 12, pyIndex TaoUtil.AN_WU ((i : ℕ) : ℤ) = .ok [anWu.getD i '?'] := by decide +kernel
  have := key ⟨(|t.getMonth| - 1).toNat, by omega⟩
  simp only [show (((|t.getMonth| - 1).toNat : ℕ) : ℤ) = |t.getMonth| - 1 by omega] at this
  have e : t.isDayAnWu = .ok (decide (branch n = anWu.getD (|t.getMonth| - 1).toNat '?')) := by
    unfold Tao.isDayAnWu Lunar.getDayZhi
    rw [(h.day hn).2, Lunar.zhi_num, this]
    simp [bind, Except.bind, pure, Except.pure]
  refine ⟨e, ?_⟩
  unfold Tao.isDayWu
  rw [(C68_by_day t h n hn).2, e]
  by_cases c : n % 10 = 4 <;> simp [bind, Except.bind, pure, Except.pure, c]

/-- **C68** 天赦日: 戊寅 in the three months of spring, 甲午 in those of summer, 戊申 in those of autumn, 甲子 in those
of winter, the months being those of the pillars. -/
theorem C68_tian_she (t : Tao) (h : t.lunar.Proper) (n m : ℤ) (hn : t.lunar.getDayInGanZhi = .ok (ganZhi n))
    (hm : t.lunar.getMonthInGanZhi = .ok (ganZhi m)) :
    t.isDayTianShe = .ok (decide (n % 60 = ([14, 30, 44, 0] : List ℤ).getD ((m - 2) % 12 / 3).toNat 99)) := by
  unfold Tao.isDayTianShe Lunar.getMonthZhi
  rw [(h.month hm).2, Lunar.zhi_num, hn]
  have day : ∀ g : ℤ, ganZhi n = ganZhi g ↔ n % 60 = g % 60 := fun g => Lunar.ganZhi_eq_iff
  have comm : ∀ {a b : List Char}, a = b ↔ b = a := eq_comm
  have d1 : (['戊', '寅'] = ganZhi n) = (n % 60 = 14) := by
    rw [show (['戊', '寅'] : List Char) = ganZhi 14 by decide +kernel]
    exact propext ((comm.trans (day 14)))
  have d2 : (['甲', '午'] = ganZhi n) = (n % 60 = 30) := by
    rw [show (['甲', '午'] : List Char) = ganZhi 30 by decide +kernel]
    exact propext ((comm.trans (day 30)))
  have d3 : (['戊', '申'] = ganZhi n) = (n % 60 = 44) := by
    rw [show (['戊', '申'] : List Char) = ganZhi 44 by decide +kernel]
    exact propext ((comm.trans (day 44)))
  have d4 : (['甲', '子'] = ganZhi n) = (n % 60 = 0) := by
    rw [show (['甲', '子'] : List Char) = ganZhi 0 by decide +kernel]
    exact propext ((comm.trans (day 0)))
  simp only [bind, Except.bind, pure, Except.pure, d1, d2, d3, d4]
  rw [show (m - 2) % 12 = (m % 12 - 2) % 12 by omega]
  refine EightChar.lift12 (P := fun i s => (.ok (if (pyFind [s] ['寅', '卯', '辰']).isSome then decide (n % 60 = 14)
    else if (pyFind [s] ['巳', '午', '未']).isSome then decide (n % 60 = 30)
    else if (pyFind [s] ['申', '酉', '戌']).isSome then decide (n % 60 = 44)
    else if (pyFind [s] ['亥', '子', '丑']).isSome then decide (n % 60 = 0)
    else false : Bool) : Except PyErr Bool) = .ok (decide (n % 60 = ([14, 30, 44, 0] : List ℤ).getD ((i - 2) % 12 / 3).toNat 99))) ?_ m
  intro i
  match i with
  | 0 => rfl
  | 1 => rfl
  | 2 => rfl
  | 3 => rfl
  | 4 => rfl
  | 5 => rfl
  | 6 => rfl
  | 7 => rfl
  | 8 => rfl
  | 9 => rfl
  | 10 => rfl
  | 11 => rfl

/-- **C68** 八节日: the days of the first of the terms 立春, 春分, 立夏, 夏至, 立秋, 秋分, 立冬, 冬至 (every third entry of
the table from the second). -/
theorem C68_ba_jie (t : Tao) (h : t.lunar.jieQi.length = 31) :
    (∃ (i : ℕ) (s : Solar), t.lunar.jieQi[i]? = some s ∧ s.date = t.lunar.solar.date ∧
      (∀ (j : ℕ) (u : Solar), t.lunar.jieQi[j]? = some u → u.date = t.lunar.solar.date → i ≤ j) ∧
      t.isDayBaJie = .ok (decide (i % 3 = 1))) ∨
    ((∀ (i : ℕ) (s : Solar), t.lunar.jieQi[i]? = some s → s.date ≠ t.lunar.solar.date) ∧ t.isDayBaJie = .ok false) := by
  rcases C62_name h .all with ⟨i, s, -, h2, h3, h4, h5⟩ | ⟨h1, h2⟩
  · left
    refine ⟨i, s, h2, h3, fun j u => h4 j u trivial, ?_⟩
    unfold Tao.isDayBaJie
    rw [show t.lunar.getJieQi = .ok (termName i) from h5]
    have hi : i < 31 := by
      have := (List.getElem?_eq_some_iff.1 h2).1
      omega
    have key : ∀ i : Fin 31, (pyDictGet TaoUtil.BA_JIE (termName i)).isSome = decide ((i : ℕ) % 3 = 1) := by decide +kernel
    exact congrArg Except.ok (key ⟨i, hi⟩)
  · right
    refine ⟨fun i s => h1 i s trivial, ?_⟩
    unfold Tao.isDayBaJie
    rw [show t.lunar.getJieQi = .ok [] from h2]
    decide +kernel

/-- **C68** the list of festivals can be asked for on every date, and says so when the day is one of 八会 or 八节. -/
theorem C68_festivals (t : Tao) (h : t.lunar.Proper) : ∃ fs b c, t.getFestivals = .ok fs ∧ t.isDayBaHui = .ok b ∧ t.isDayBaJie = .ok c ∧
    (b = true → ∃ f ∈ fs, f.name ∈ TaoUtil.BA_HUI.map Prod.snd) ∧ (c = true → ∃ f ∈ fs, f.name ∈ TaoUtil.BA_JIE.map Prod.snd) := by
  obtain ⟨y, yl, ye, m, me, d, de, ti, N⟩ := h.numbers
  have hd : t.lunar.getDayInGanZhi = .ok (ganZhi d) := Lunar.pair_eq N.dg N.dz
  have ⟨jq, hj⟩ : ∃ jq, t.lunar.getJieQi = .ok jq := by
    rcases C62_name h.table.len .all with ⟨i, s, -, -, -, -, h5⟩ | ⟨h1, h2⟩
    · exact ⟨_, h5⟩
    · exact ⟨_, h2⟩
  have mem : ∀ {T : List (PyStr × PyStr)} {k : PyStr}, (pyDictGet T k).isSome = true →
      ∃ f ∈ (pyDictGet T k).toList.map (fun s => (⟨s, []⟩ : TaoFestival)), f.name ∈ T.map Prod.snd := by
    intro T k hs
    obtain ⟨v, hv⟩ := Option.isSome_iff_exists.1 hs
    refine ⟨⟨v, []⟩, by rw [hv]; simp, ?_⟩
    unfold pyDictGet at hv
    obtain ⟨p, hp, rfl⟩ := Option.map_eq_some_iff.1 hv
    exact List.mem_map_of_mem (List.mem_of_find?_eq_some hp)
  unfold Tao.getFestivals Tao.isDayBaHui Tao.isDayBaJie
  rw [hj, hd]
  refine ⟨_, _, _, rfl, rfl, rfl, ?_, ?_⟩
  · intro hb
    obtain ⟨f, h1, h2⟩ := mem hb
    exact ⟨f, List.mem_append_right _ h1, h2⟩
  · intro hb
    obtain ⟨f, h1, h2⟩ := mem hb
    exact ⟨f, List.mem_append_left _ (List.mem_append_right _ h1), h2⟩

/-- 2024-02-04, a day 戊戌 (34) with 立春: 八节, 戊, not 八会 and not 天赦 (not 戊寅) -/
example : sample.Proper ∧ (Tao.mk sample).isDayBaJie = .ok true ∧ (Tao.mk sample).isDayWu = .ok true ∧
    (Tao.mk sample).isDayBaHui = .ok false ∧ (Tao.mk sample).isDayTianShe = .ok false ∧
    (Tao.mk { sample with month := 1, day := 7 }).isDaySanHui = true := by
  refine ⟨sample_proper, ?_⟩
  decide +kernel

end
