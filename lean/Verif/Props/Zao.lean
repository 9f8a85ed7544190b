import Verif.Model.Zao
import Verif.Props.LunarDate
import Verif.Props.Pillars

/-! # C55: the sayings about the first days of the lunar year -/

section
open Spec LunarUtil LunarYear

/-- the numerals one to twelve -/
def numeral12 (n : ℤ) : PyStr :=
  [['一'], ['二'], ['三'], ['四'], ['五'], ['六'], ['七'], ['八'], ['九'], ['十'], ['十', '一'], ['十', '二']].getD (n - 1).toNat []

/-- the `n`-th day from the day with Julian day number `f` (itself the first) is the first one whose
branch is `c` (that days go through the branches by day number is C31) -/
def FirstBranch (f : ℤ) (c : Char) (n : ℤ) : Prop :=
  1 ≤ n ∧ n ≤ 12 ∧ branch (f + n - 1 - 11) = c ∧ ∀ j, 1 ≤ j → j < n → branch (f + j - 1 - 11) ≠ c

/-- the same for the stem -/
def FirstStem (f : ℤ) (c : Char) (n : ℤ) : Prop :=
  1 ≤ n ∧ n ≤ 10 ∧ stem (f + n - 1 - 11) = c ∧ ∀ j, 1 ≤ j → j < n → stem (f + j - 1 - 11) ≠ c

variable {A : Astro} {lo hi : ℤ}

private theorem branch_iff {a b : ℤ} : branch a = branch b ↔ a % 12 = b % 12 := by
  constructor
  · intro h
    unfold branch at h
    have k2 : ∀ i j : Fin 12, branches.getD i '?' = branches.getD j '?' → i = j := by decide
    have h2 := k2 ⟨(a % 12).toNat, by omega⟩ ⟨(b % 12).toNat, by omega⟩ h
    simp only [Fin.mk.injEq] at h2
    omega
  · intro h; unfold branch; rw [h]

private theorem stem_iff {a b : ℤ} : stem a = stem b ↔ a % 10 = b % 10 := by
  constructor
  · intro h
    unfold stem at h
    have k2 : ∀ i j : Fin 10, stems.getD i '?' = stems.getD j '?' → i = j := by decide
    have h2 := k2 ⟨(a % 10).toNat, by omega⟩ ⟨(b % 10).toNat, by omega⟩ h
    simp only [Fin.mk.injEq] at h2
    omega
  · intro h; unfold stem; rw [h]

private theorem number_eq {n : ℤ} (h1 : 1 ≤ n) (h2 : n ≤ 12) : pyIndex NUMBER n = .ok (numeral12 n) := by
  have key : ∀ i : Fin 12, pyIndex NUMBER (((i : ℕ) : ℤ) + 1) = .ok (numeral12 (((i : ℕ) : ℤ) + 1)) := by decide +kernel
  have := key ⟨(n - 1).toNat, by omega⟩
  simpa only [show (((n - 1).toNat : ℕ) : ℤ) + 1 = n by omega] using this

private theorem firstDay_eq (H : Almanac A lo hi) {Y k : ℤ} (h1 : lo ≤ Y) (h2 : Y ≤ hi) (hk : H.key k = (Y, 1)) {x : Date}
    (hx : x.Valid) (hd : IsDay (H.first k) x) (x1 : lo < x.y) (x2 : x.y < hi) :
    ∃ l, (make A Y).firstDay A = .ok l ∧ l.dayGanIndex = (H.first k - 11) % 10 ∧ l.dayZhiIndex = (H.first k - 11) % 12 := by
  have e1 : (H.key k).1 = Y := by rw [hk]
  have e2 : (H.key k).2 = 1 := by rw [hk]
  obtain ⟨M, hM, hf, -, -⟩ := H.getMonth_some (k := k) (by omega) (by omega)
  rw [e1, e2] at hM
  have hnn := H.nonneg Y h1 h2
  have hmono := H.mono.monotone (H.home k (by omega) (by omega)).1
  rw [e1] at hmono
  have h9 := H.year_range x1.le x2.le
  have hv : (⟨x.y, x.m, x.d, 12, 0, 0⟩ : Solar).Valid := ⟨hx, by show ClockOk 12 0 0; decide⟩
  obtain ⟨l, el, sl, ml, -⟩ := C38_round_trip H _ hv x1 x2
  have f := (Lunar.made_fields ml (by rw [sl]; show -4715 ≤ x.y; omega) (by rw [sl]; exact h9.2)).2.2.1
  have hj : JD.jdn l.solar.date = H.first k := by
    rw [sl]; exact ((isDay_iff hx).1 hd).symm
  rw [hj] at f
  refine ⟨l, ?_, f.1, f.2.1⟩
  unfold firstDay
  rw [hM]
  dsimp only
  rw [hf, fromJulianDay_int hx hd (by omega) h9.2]
  exact el

private theorem zhi_eq (H : Almanac A lo hi) {Y k : ℤ} (h1 : lo ≤ Y) (h2 : Y ≤ hi) (hk : H.key k = (Y, 1)) {x : Date}
    (hx : x.Valid) (hd : IsDay (H.first k) x) (x1 : lo < x.y) (x2 : x.y < hi) (i : ℤ) (i0 : 0 ≤ i) (i1 : i < 12) (name : PyStr) :
    ∃ n, FirstBranch (H.first k) (branch i) n ∧ (make A Y).getZaoByZhi A i name = .ok (pyReplaceOnce '几' (numeral12 n) name) := by
  obtain ⟨l, e, -, z⟩ := firstDay_eq H h1 h2 hk hx hd x1 x2
  refine ⟨(if i - l.dayZhiIndex < 0 then i - l.dayZhiIndex + 12 else i - l.dayZhiIndex) + 1, ?_, ?_⟩
  · unfold FirstBranch
    simp only [ne_eq, branch_iff]
    rw [z]
    split_ifs <;> refine ⟨by omega, by omega, by omega, fun j _ _ => by omega⟩
  · unfold getZaoByZhi
    rw [e]
    simp only [bind, Except.bind]
    rw [number_eq (by split_ifs <;> omega) (by split_ifs <;> omega)]
    rfl

private theorem gan_eq (H : Almanac A lo hi) {Y k : ℤ} (h1 : lo ≤ Y) (h2 : Y ≤ hi) (hk : H.key k = (Y, 1)) {x : Date}
    (hx : x.Valid) (hd : IsDay (H.first k) x) (x1 : lo < x.y) (x2 : x.y < hi) (i : ℤ) (i0 : 0 ≤ i) (i1 : i < 10) (name : PyStr) :
    ∃ n, FirstStem (H.first k) (stem i) n ∧ (make A Y).getZaoByGan A i name = .ok (pyReplaceOnce '几' (numeral12 n) name) := by
  obtain ⟨l, e, z, -⟩ := firstDay_eq H h1 h2 hk hx hd x1 x2
  refine ⟨(if i - l.dayGanIndex < 0 then i - l.dayGanIndex + 10 else i - l.dayGanIndex) + 1, ?_, ?_⟩
  · unfold FirstStem
    simp only [ne_eq, stem_iff]
    rw [z]
    split_ifs <;> refine ⟨by omega, by omega, by omega, fun j _ _ => by omega⟩
  · unfold getZaoByGan
    rw [e]
    simp only [bind, Except.bind]
    rw [number_eq (by split_ifs <;> omega) (by split_ifs <;> omega)]
    rfl

/-- the number of the first day of a kind is determined -/
theorem C55_unique (f : ℤ) (c : Char) (n m : ℤ) :
    (FirstBranch f c n → FirstBranch f c m → n = m) ∧ (FirstStem f c n → FirstStem f c m → n = m) := by
  constructor <;> rintro ⟨a1, a2, a3, a4⟩ ⟨b1, b2, b3, b4⟩ <;> (rcases lt_trichotomy n m with h | h | h)
  · exact absurd a3 (b4 _ a1 h)
  · exact h
  · exact absurd b3 (a4 _ b1 h)
  · exact absurd a3 (b4 _ a1 h)
  · exact h
  · exact absurd b3 (a4 _ b1 h)

/-- **C55** the sayings by branches: in year `Y`, whose first month begins on the day `x` with Julian day
number `H.first k`, each names the number of the first day of the month with its branch. -/
theorem C55_branches (H : Almanac A lo hi) (Y k : ℤ) (h1 : lo ≤ Y) (h2 : Y ≤ hi) (hk : H.key k = (Y, 1)) (x : Date)
    (hx : x.Valid) (hd : IsDay (H.first k) x) (x1 : lo < x.y) (x2 : x.y < hi) :
    ∀ p ∈ [(getTouLiang, '子', "", "鼠偷粮"), (getCaoZi, '子', "草子", "分"), (getGengTian, '丑', "", "牛耕田"),
      (getHuaShou, '卯', "花收", "分"), (getZhiShui, '辰', "", "龙治水"), (getTuoGu, '午', "", "马驮谷"),
      (getQiangMi, '酉', "", "鸡抢米"), (getKanCan, '酉', "", "姑看蚕"), (getGongZhu, '亥', "", "屠共猪")],
    ∃ n, FirstBranch (H.first k) p.2.1 n ∧
      p.1 A (make A Y) = .ok (p.2.2.1.toList ++ numeral12 n ++ p.2.2.2.toList) := by
  have Z := zhi_eq H h1 h2 hk hx hd x1 x2
  intro p hp
  simp only [List.mem_cons, List.not_mem_nil, or_false] at hp
  rcases hp with rfl | rfl | rfl | rfl | rfl | rfl | rfl | rfl | rfl
  · exact Z 0 (by decide) (by decide) ['几', '鼠', '偷', '粮']
  · exact Z 0 (by decide) (by decide) ['草', '子', '几', '分']
  · exact Z 1 (by decide) (by decide) ['几', '牛', '耕', '田']
  · exact Z 3 (by decide) (by decide) ['花', '收', '几', '分']
  · exact Z 4 (by decide) (by decide) ['几', '龙', '治', '水']
  · exact Z 6 (by decide) (by decide) ['几', '马', '驮', '谷']
  · exact Z 9 (by decide) (by decide) ['几', '鸡', '抢', '米']
  · exact Z 9 (by decide) (by decide) ['几', '姑', '看', '蚕']
  · exact Z 11 (by decide) (by decide) ['几', '屠', '共', '猪']

/-- **C55** the sayings by stems. -/
theorem C55_stems (H : Almanac A lo hi) (Y k : ℤ) (h1 : lo ≤ Y) (h2 : Y ≤ hi) (hk : H.key k = (Y, 1)) (x : Date)
    (hx : x.Valid) (hd : IsDay (H.first k) x) (x1 : lo < x.y) (x2 : x.y < hi) :
    ∀ p ∈ [(getJiaTian, '甲', "甲田", "分"), (getFenBing, '丙', "", "人分饼"), (getDeJin, '辛', "", "日得金")],
    ∃ n, FirstStem (H.first k) p.2.1 n ∧
      p.1 A (make A Y) = .ok (p.2.2.1.toList ++ numeral12 n ++ p.2.2.2.toList) := by
  have Z := gan_eq H h1 h2 hk hx hd x1 x2
  intro p hp
  simp only [List.mem_cons, List.not_mem_nil, or_false] at hp
  rcases hp with rfl | rfl | rfl
  · exact Z 0 (by decide) (by decide) ['甲', '田', '几', '分']
  · exact Z 2 (by decide) (by decide) ['几', '人', '分', '饼']
  · exact Z 7 (by decide) (by decide) ['几', '日', '得', '金']

private theorem once_two {n : ℤ} (h1 : 1 ≤ n) (h2 : n ≤ 12) (s : PyStr) (c d : Char) (hc : c ≠ '几') :
    pyReplaceOnce '几' s (pyReplaceOnce '几' (numeral12 n) ['几', c, '几', d]) = numeral12 n ++ [c] ++ s ++ [d] := by
  have key : ∀ i : Fin 12, '几' ∉ numeral12 (((i : ℕ) : ℤ) + 1) := by decide
  have hk := key ⟨(n - 1).toNat, by omega⟩
  simp only [show (((n - 1).toNat : ℕ) : ℤ) + 1 = n by omega] at hk
  have go : ∀ u v : PyStr, '几' ∉ u → pyReplaceOnce '几' s (u ++ v) = u ++ pyReplaceOnce '几' s v := by
    intro u v hu
    induction u with
    | nil => rfl
    | cons a u ih =>
      simp only [List.mem_cons, not_or] at hu
      show pyReplaceOnce '几' s (a :: (u ++ v)) = a :: (u ++ _)
      rw [pyReplaceOnce, if_neg (Ne.symm hu.1), ih hu.2]
  rw [show pyReplaceOnce '几' (numeral12 n) ['几', c, '几', d] = numeral12 n ++ [c, '几', d] from rfl, go _ _ hk]
  rw [pyReplaceOnce, if_neg hc]
  simp [pyReplaceOnce]

/-- **C55** the two sayings with two numbers: the first for the branch 寅, the second for the stem 丙 or
丁. -/
theorem C55_double (H : Almanac A lo hi) (Y k : ℤ) (h1 : lo ≤ Y) (h2 : Y ≤ hi) (hk : H.key k = (Y, 1)) (x : Date)
    (hx : x.Valid) (hd : IsDay (H.first k) x) (x1 : lo < x.y) (x2 : x.y < hi) :
    ∃ n a b, FirstBranch (H.first k) '寅' n ∧ FirstStem (H.first k) '丙' a ∧ FirstStem (H.first k) '丁' b ∧
      (make A Y).getRenBing A = .ok (numeral12 n ++ ['人'] ++ numeral12 a ++ ['丙']) ∧
      (make A Y).getRenChu A = .ok (numeral12 n ++ ['人'] ++ numeral12 b ++ ['锄']) := by
  obtain ⟨n, hn, e1⟩ := zhi_eq H h1 h2 hk hx hd x1 x2 2 (by decide) (by decide) ['几', '人', '几', '丙']
  obtain ⟨n', hn', e2⟩ := zhi_eq H h1 h2 hk hx hd x1 x2 2 (by decide) (by decide) ['几', '人', '几', '锄']
  obtain rfl := (C55_unique _ _ _ _).1 hn hn'
  obtain ⟨a, ha, e3⟩ := gan_eq H h1 h2 hk hx hd x1 x2 2 (by decide) (by decide) (pyReplaceOnce '几' (numeral12 n) ['几', '人', '几', '丙'])
  obtain ⟨b, hb, e4⟩ := gan_eq H h1 h2 hk hx hd x1 x2 3 (by decide) (by decide) (pyReplaceOnce '几' (numeral12 n) ['几', '人', '几', '锄'])
  refine ⟨n, a, b, hn, ha, hb, ?_, ?_⟩
  · unfold getRenBing
    rw [e1]
    simp only [bind, Except.bind]
    rw [e3, once_two hn.1 hn.2.1 _ _ _ (by decide)]
  · unfold getRenChu
    rw [e2]
    simp only [bind, Except.bind]
    rw [e4, once_two hn.1 hn.2.1 _ _ _ (by decide)]

/-- 2024: the first month begins on 2024-02-10, a 甲辰 day -/
example : (make Sample.astro 2024).getZhiShui Sample.astro = .ok "一龙治水".toList ∧
    (make Sample.astro 2024).getRenBing Sample.astro = .ok "十一人三丙".toList := by
  have e : Sample.almanac.first 27 = 2460351 := by decide +kernel
  have hd : IsDay (Sample.almanac.first 27) ⟨2024, 2, 10⟩ := (isDay_iff (by decide)).2 (by rw [e]; decide)
  have hk : Sample.almanac.key 27 = (2024, 1) := by decide +kernel
  constructor
  · obtain ⟨n, hn, e'⟩ := C55_branches Sample.almanac 2024 27 (by decide) (by decide) hk ⟨2024, 2, 10⟩ (by decide) hd (by decide) (by decide)
      (getZhiShui, '辰', "", "龙治水") (by simp)
    obtain rfl := (C55_unique _ _ n 1).1 hn ⟨by decide, by decide, by rw [e]; decide, fun j _ _ => by omega⟩
    exact e'
  · obtain ⟨n, a, b, hn, ha, -, e', -⟩ := C55_double Sample.almanac 2024 27 (by decide) (by decide) hk ⟨2024, 2, 10⟩ (by decide) hd (by decide) (by decide)
    have hb : ∀ j ∈ List.range 10, branch (2460351 + ((j : ℤ) + 1) - 1 - 11) ≠ '寅' := by decide
    have hs : ∀ j ∈ List.range 2, stem (2460351 + ((j : ℤ) + 1) - 1 - 11) ≠ '丙' := by decide
    obtain rfl := (C55_unique _ _ n 11).1 hn ⟨by decide, by decide, by rw [e]; decide, fun j _ _ => by
      rw [e]; have := hb (j - 1).toNat (by simp; omega); rwa [show (((j - 1).toNat : ℕ) : ℤ) + 1 = j by omega] at this⟩
    obtain rfl := (C55_unique _ _ a 3).2 ha ⟨by decide, by decide, by rw [e]; decide, fun j _ _ => by
      rw [e]; have := hs (j - 1).toNat (by simp; omega); rwa [show (((j - 1).toNat : ℕ) : ℤ) + 1 = j by omega] at this⟩
    exact e'

end
