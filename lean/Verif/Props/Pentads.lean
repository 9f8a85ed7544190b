import Verif.Proof.Ephem.Gaps
import Verif.Proof.Ephem.MonthPillar
import Verif.Props.TermDates

/-! # C113: the seventy-two pentads in order -/

section
open Spec ShouXing Lunar LunarUtil

variable {M : Libm}

/-- the seventy-two pentads from the beginning of spring on -/
def pentads72 : List String :=
  ["东风解冻", "蛰虫始振", "鱼陟负冰", "獭祭鱼", "候雁北", "草木萌动", "桃始华", "仓庚鸣", "鹰化为鸠", "玄鸟至", "雷乃发声", "始电",
   "桐始华", "田鼠化为鴽", "虹始见", "萍始生", "鸣鸠拂奇羽", "戴胜降于桑", "蝼蝈鸣", "蚯蚓出", "王瓜生", "苦菜秀", "靡草死", "麦秋至",
   "螳螂生", "鵙始鸣", "反舌无声", "鹿角解", "蜩始鸣", "半夏生", "温风至", "蟋蟀居壁", "鹰始挚", "腐草为萤", "土润溽暑", "大雨行时",
   "凉风至", "白露降", "寒蝉鸣", "鹰乃祭鸟", "天地始肃", "禾乃登", "鸿雁来", "玄鸟归", "群鸟养羞", "雷始收声", "蛰虫坯户", "水始涸",
   "鸿雁来宾", "雀入大水为蛤", "菊有黄花", "豺乃祭兽", "草木黄落", "蛰虫咸俯", "水始冰", "地始冻", "雉入大水为蜃", "虹藏不见", "天气上升地气下降", "闭塞而成冬",
   "鹖鴠不鸣", "虎始交", "荔挺出", "蚯蚓结", "麋角解", "水泉动", "雁北乡", "鹊始巢", "雉始雊", "鸡始乳", "征鸟厉疾", "水泽腹坚"]

/-- the terms from the beginning of spring on -/
def springTerms : List String :=
  ["立春", "雨水", "惊蛰", "春分", "清明", "谷雨", "立夏", "小满", "芒种", "夏至", "小暑", "大暑",
   "立秋", "处暑", "白露", "秋分", "寒露", "霜降", "立冬", "小雪", "大雪", "冬至", "小寒", "大寒"]

private theorem find {f : ℤ → ℤ} {n a : ℤ} : ∀ k : ℕ, f a ≤ n → n < f (a + k) → ∃ m, a ≤ m ∧ m < a + k ∧ f m ≤ n ∧ n < f (m + 1)
  | 0, h1, h2 => by simp at h2; omega
  | k + 1, h1, h2 => by
    by_cases c : n < f (a + k)
    · obtain ⟨m, x, y, z⟩ := find k h1 c
      exact ⟨m, x, by push_cast; omega, z⟩
    · refine ⟨a + k, by omega, by push_cast; omega, not_lt.1 c, ?_⟩
      rw [Nat.cast_add, Nat.cast_one, ← add_assoc] at h2
      exact h2

private theorem names (i : ℤ) (q : ℤ) (q0 : 0 ≤ q) (q2 : q ≤ 2) :
    WU_HOU.getD ((3 * (i + 23) + q) % 72).toNat [] = (pentads72.getD ((3 * (i - 4) + q) % 72).toNat "").toList := by
  have key : ∀ j : Fin 72, WU_HOU.getD (((j : ℕ) + 9) % 72) [] = (pentads72.getD j "").toList := by decide +kernel
  have := key ⟨((3 * (i - 4) + q) % 72).toNat, by omega⟩
  rw [← this]
  congr 1
  dsimp only
  omega

private theorem term_names (i : ℤ) (i0 : 0 ≤ i) : termName i.toNat = (springTerms.getD ((i - 4) % 24).toNat "").toList := by
  have key : ∀ j : Fin 24, terms24.getD (((j : ℕ) + 3) % 24) [] = (springTerms.getD j "").toList := by decide +kernel
  have := key ⟨((i - 4) % 24).toNat, by omega⟩
  rw [← this]
  unfold termName
  congr 1
  dsimp only
  omega

/-- the civil day of the term number `m` -/
noncomputable def tDay (hM : M.Good) (m : ℤ) : ℤ := JD.jdn (Ephem.moment (Ephem.full hM) m).date

/-- two terms in a row are 14 to 17 days apart -/
theorem term_days_gap (hM : M.Good) {m : ℤ} (h1 : 24 * (1584 - 2000) + 17 ≤ m) (h2 : m + 1 ≤ 24 * (6890 - 2000) + 47) :
    tDay hM m + 14 ≤ tDay hM (m + 1) ∧ tDay hM (m + 1) ≤ tDay hM m + 17 := by
  have v := Ephem.one_v hM (n := m) (by omega) (by omega)
  have g := Ephem.moment_days hM h1 (by omega : m ≤ m + 1) h2 v.1 v.2
  unfold tDay
  generalize JD.jdn (Ephem.moment (Ephem.full hM) (m + 1)).date = x at *
  generalize JD.jdn (Ephem.moment (Ephem.full hM) m).date = y at *
  have a : ((13 : ℤ) : ℚ) < ((x - y : ℤ) : ℚ) := by push_cast at g ⊢; linarith [g.1]
  have b : ((x - y : ℤ) : ℚ) < ((18 : ℤ) : ℚ) := by push_cast at g ⊢; linarith [g.2]
  have := Int.cast_lt.1 a
  have := Int.cast_lt.1 b
  omega

private theorem inYear (hM : M.Good) {Y : ℤ} (h1 : 1584 ≤ Y) (h2 : Y ≤ 6890) {i : ℕ} (i1 : 2 ≤ i) (i2 : i ≤ 25) :
    (Ephem.moment (Ephem.full hM) (24 * (Y - 2000) + 17 + i)).date.Valid ∧ (Ephem.moment (Ephem.full hM) (24 * (Y - 2000) + 17 + i)).year = Y := by
  obtain ⟨_, -, y, -⟩ := Ephem.possible_date hM h1 h2 i1 i2
  exact ⟨(Ephem.moment_window hM h1 h2 (i := i) (by omega)).1, y⟩

/-- the days of a year are between the winter solstice of the year before and the first term of the year after -/
theorem inside_terms (hM : M.Good) {x : Date} (hx : x.Valid) (h1 : 1585 ≤ x.y) (h2 : x.y ≤ 6889) :
    tDay hM (24 * (x.y - 2000) + 18) ≤ JD.jdn x ∧ JD.jdn x < tDay hM (24 * (x.y - 2000) + 43) := by
  obtain ⟨a, b⟩ := inYear hM (Y := x.y - 1) (by omega) (by omega) (i := 25) (by norm_num) (by norm_num)
  obtain ⟨c, d⟩ := inYear hM (Y := x.y + 1) (by omega) (by omega) (i := 2) (by norm_num) (by norm_num)
  rw [show 24 * (x.y - 1 - 2000) + 17 + ((25 : ℕ) : ℤ) = 24 * (x.y - 2000) + 18 by push_cast; ring] at a b
  rw [show 24 * (x.y + 1 - 2000) + 17 + ((2 : ℕ) : ℤ) = 24 * (x.y - 2000) + 43 by push_cast; ring] at c d
  unfold tDay
  constructor
  · refine ((JD.jdn_lt_iff a hx).2 (.inl ?_)).le
    change (Ephem.moment (Ephem.full hM) (24 * (x.y - 2000) + 18)).year < x.y
    omega
  · refine (JD.jdn_lt_iff hx c).2 (.inl ?_)
    change x.y < (Ephem.moment (Ephem.full hM) (24 * (x.y - 2000) + 43)).year
    omega

private theorem le_day {a b : Solar} (ha : a.Valid) (hb : b.Valid) : Solar.DayAtOrBefore a b ↔ JD.jdn a.date ≤ JD.jdn b.date := by
  rw [Solar.dayAtOrBefore_iff ha hb, JD.jdn_eq ha.1, JD.jdn_eq hb.1]
  omega

private theorem lt_day {a b : Solar} (ha : a.Valid) (hb : b.Valid) : Solar.DayBefore a b ↔ JD.jdn a.date < JD.jdn b.date := by
  rw [Solar.dayBefore_iff ha hb, JD.jdn_eq ha.1, JD.jdn_eq hb.1]
  omega

private theorem jdn_inj {a b : Date} (ha : a.Valid) (hb : b.Valid) (h : JD.jdn a = JD.jdn b) : a = b := by
  have x := fun h => (JD.jdn_lt_iff ha hb).2 h
  have y := fun h => (JD.jdn_lt_iff hb ha).2 h
  obtain ⟨a1, a2, a3⟩ := a
  obtain ⟨b1, b2, b3⟩ := b
  unfold Cal.DateLt at x y
  dsimp only at x y
  generalize JD.jdn ⟨a1, a2, a3⟩ = p at *
  generalize JD.jdn ⟨b1, b2, b3⟩ = q at *
  clear ha hb
  have : a1 = b1 ∧ a2 = b2 ∧ a3 = b3 := by
    subst h
    simp only [lt_self_iff_false] at x y
    rcases lt_trichotomy a1 b1 with c | c | c
    · exact (x (.inl c)).elim
    · rcases lt_trichotomy a2 b2 with d | d | d
      · exact (x (.inr ⟨c, .inl d⟩)).elim
      · rcases lt_trichotomy a3 b3 with e | e | e
        · exact (x (.inr ⟨c, .inr ⟨d, e⟩⟩)).elim
        · exact ⟨c, d, e⟩
        · exact (y (.inr ⟨c.symm, .inr ⟨d.symm, e⟩⟩)).elim
      · exact (y (.inr ⟨c.symm, .inl d⟩)).elim
    · exact (y (.inl c)).elim
  simp [this]

private theorem first_le {x : Date} (hx : x.Valid) (h : 1585 ≤ x.y) : JD.jdn ⟨1585, 1, 1⟩ ≤ JD.jdn x := by
  by_contra c
  have := (JD.jdn_lt_iff hx (show Date.Valid ⟨1585, 1, 1⟩ by decide)).1 (by omega)
  have := hx.1
  have := hx.2.2.1
  unfold Cal.DateLt at *
  dsimp only at *
  omega

private theorem le_last {x : Date} (hx : x.Valid) (h : x.y ≤ 6889) : JD.jdn x ≤ JD.jdn ⟨6889, 12, 31⟩ := by
  by_contra c
  have := (JD.jdn_lt_iff (show Date.Valid ⟨6889, 12, 31⟩ by decide) hx).1 (by omega)
  have a := hx.2.1
  have b := hx.2.2.2.1
  have c : lastDay x.y x.m ≤ 31 := by unfold lastDay; split_ifs <;> norm_num
  unfold Cal.DateLt at *
  dsimp only at *
  omega

/-- the count of pentads of C113, with the number of the term before each day -/
theorem pentads_count (hM : M.Good) :
    ∃ P m : ℤ → ℤ,
      (∀ n, 2299970 ≤ n → n ≤ 4237581 → (-9942 ≤ m n ∧ m n < 117379) ∧ tDay hM (m n) ≤ n ∧ n < tDay hM (m n + 1) ∧
        P n = 3 * (m n - 21) + min ((n - tDay hM (m n)) / 5) 2) ∧
      (∀ s : Solar, s.Valid → 1584 < s.year → s.year < 6890 → ∀ n, IsDay n s.date → ∀ l, Lunar.fromSolar (astro M) s = .ok l →
        l.getWuHou = .ok (pentads72.getD (P n % 72).toNat "").toList ∧
        l.getHou = .ok ((springTerms.getD (P n / 3 % 24).toNat "").toList ++ ' ' :: (["初候", "二候", "三候"].getD (P n % 3).toNat "").toList) ∧
        (2299970 < n → l.getJieQi = .ok (if P n % 3 = 0 ∧ P (n - 1) ≠ P n then (springTerms.getD (P n / 3 % 24).toNat "").toList else []))) ∧
      (∀ n, 2299970 ≤ n → n < 4237581 → P (n + 1) = P n ∨ P (n + 1) = P n + 1) ∧
      ∀ n, 2299970 < n → n + 7 ≤ 4237581 → P n = P (n - 1) + 1 →
        (P n % 3 ≠ 2 → P (n + 4) = P n ∧ P (n + 5) = P n + 1) ∧ (P n % 3 = 2 → P (n + 3) = P n ∧ P (n + 7) = P n + 1) := by
  have lo := (inside_terms hM (x := ⟨1585, 1, 1⟩) (by decide) (by decide) (by decide)).1
  have hi := (inside_terms hM (x := ⟨6889, 12, 31⟩) (by decide) (by decide) (by decide)).2
  rw [show JD.jdn ⟨1585, 1, 1⟩ = 2299970 from by decide] at lo
  rw [show JD.jdn ⟨6889, 12, 31⟩ = 4237581 from by decide] at hi
  dsimp only at lo hi
  norm_num at lo hi
  have ex : ∀ n, 2299970 ≤ n → n ≤ 4237581 → ∃ m, -9942 ≤ m ∧ m < 117379 ∧ tDay hM m ≤ n ∧ n < tDay hM (m + 1) := by
    intro n a b
    obtain ⟨m, x, y, z⟩ := find (f := tDay hM) (n := n) (a := -9942) 127321 (by omega) (by norm_num; omega)
    exact ⟨m, x, by omega, z⟩
  choose! m m1 m2 m3 m4 using ex
  have mono : ∀ a b, -9943 ≤ a → a < b → b ≤ 117390 → tDay hM a < tDay hM b := fun a b x y z => Ephem.moment_lt hM (by omega) y (by omega)
  have uniq : ∀ x a, 2299970 ≤ x → x ≤ 4237581 → -9943 ≤ a → a ≤ 117380 → tDay hM a ≤ x → x < tDay hM (a + 1) → m x = a := by
    intro x a x1 x2 a1 a2 h1 h2
    have b1 := m1 x x1 x2
    have b2 := m2 x x1 x2
    have b3 := m3 x x1 x2
    have b4 := m4 x x1 x2
    rcases lt_trichotomy (m x) a with c | c | c
    · rcases (show m x + 1 ≤ a by omega).eq_or_lt with e | e
      · rw [e] at b4; omega
      · have := mono _ _ (by omega) e (by omega); omega
    · exact c
    · rcases (show a + 1 ≤ m x by omega).eq_or_lt with e | e
      · rw [e] at h2; omega
      · have := mono _ _ (by omega) e (by omega); omega
  -- the days a little later
  have later : ∀ n k, 2299970 ≤ n → 0 ≤ k → k ≤ 13 → n + k ≤ 4237581 →
      (n + k < tDay hM (m n + 1) → m (n + k) = m n) ∧ (tDay hM (m n + 1) ≤ n + k → m (n + k) = m n + 1) := by
    intro n k h1 k1 k2 h2
    have b1 := m1 n h1 (by omega)
    have b2 := m2 n h1 (by omega)
    have b3 := m3 n h1 (by omega)
    have b4 := m4 n h1 (by omega)
    have g := term_days_gap hM (m := m n + 1) (by omega) (by omega)
    exact ⟨fun h => uniq _ _ (by omega) (by omega) (by omega) (by omega) (by omega) h,
      fun h => uniq _ _ (by omega) (by omega) (by omega) (by omega) h (by omega)⟩
  -- the days of the terms
  have start : ∀ n, 2299970 < n → n ≤ 4237581 → (tDay hM (m n) = n ↔
      (3 * (m n - 21) + min ((n - tDay hM (m n)) / 5) 2) % 3 = 0 ∧
      3 * (m (n - 1) - 21) + min ((n - 1 - tDay hM (m (n - 1))) / 5) 2 ≠ 3 * (m n - 21) + min ((n - tDay hM (m n)) / 5) 2) := by
    intro n h1 h2
    have c3 := m3 (n - 1) (by omega) (by omega)
    have c4 := m4 (n - 1) (by omega) (by omega)
    have b3 := m3 n (by omega) (by omega)
    have step := later (n - 1) 1 (by omega) (by norm_num) (by norm_num) (by omega)
    rw [show n - 1 + 1 = n by ring] at step
    by_cases c : n < tDay hM (m (n - 1) + 1)
    · rw [step.1 c] at b3 ⊢
      generalize tDay hM (m (n - 1)) = A at *
      omega
    · have e : tDay hM (m n) = n := by
        have := step.2 (by omega)
        rw [← this] at c4 c
        omega
      rw [e, step.2 (by omega)]
      omega
  refine ⟨fun n => 3 * (m n - 21) + min ((n - tDay hM (m n)) / 5) 2, m, fun n a b => ⟨⟨m1 n a b, m2 n a b⟩, m3 n a b, m4 n a b, rfl⟩, ?_, ?_, ?_⟩
  · intro s hs h1 h2 n hn l hl
    obtain ⟨f1, Pr, -, -, tab⟩ := Ephem.made hM hs h1 h2 hl
    rw [isDay_iff hs.1] at hn
    have ins := inside_terms hM hs.1 (by change 1585 ≤ s.year; omega) (by change s.year ≤ 6889; omega)
    rw [← hn] at ins
    change tDay hM (24 * (s.year - 2000) + 18) ≤ n ∧ n < tDay hM (24 * (s.year - 2000) + 43) at ins
    have n1 : 2299970 ≤ n := by
      rw [hn, show (2299970 : ℤ) = JD.jdn ⟨1585, 1, 1⟩ from by decide]
      exact first_le hs.1 (by change 1585 ≤ s.year; omega)
    have n2 : n ≤ 4237581 := by
      rw [hn, show (4237581 : ℤ) = JD.jdn ⟨6889, 12, 31⟩ from by decide]
      exact le_last hs.1 (by change s.year ≤ 6889; omega)
    have val : ∀ i : ℕ, i < 31 → (Ephem.moment (Ephem.full hM) (24 * (s.year - 2000) + 17 + i)).Valid :=
      fun i hi => (Ephem.moment_spec (Ephem.full hM) (n := 24 * (s.year - 2000) + 17 + i) (by omega) (by omega)).2.1
    have hls : l.solar.Valid := by rw [f1]; exact hs
    have h4 : 0 ≤ l.solar.year ∧ l.solar.year ≤ 9999 := by rw [f1]; omega
    have one : (1 : ℕ) < 31 := by norm_num
    rcases C45_prev_day Pr.table hls h4 .all with ⟨i, t, -, a2, a3, a4, a5⟩ | ⟨a6, -⟩
    · have i31 : i < 31 := by
        have := (List.getElem?_eq_some_iff.1 a2).1
        have := Pr.table.len
        omega
      have te := tab i i31
      rw [a2] at te
      cases te
      rw [le_day (val i i31) hls, f1, ← hn] at a3
      have below : ∀ j : ℕ, j < 31 → tDay hM (24 * (s.year - 2000) + 17 + j) ≤ n → j ≤ i := by
        intro j hj c
        have b := (a4 j _ trivial (tab j hj) ((le_day (val j hj) hls).2 (by rw [f1, ← hn]; exact c))).1
        rw [le_day (val j hj) (val i i31)] at b
        by_contra d
        have := mono (24 * (s.year - 2000) + 17 + i) (24 * (s.year - 2000) + 17 + j) (by omega) (by omega) (by omega)
        unfold tDay at this
        omega
      have i1 := below 1 one (by push_cast; rw [show 24 * (s.year - 2000) + 17 + 1 = 24 * (s.year - 2000) + 18 by ring]; exact ins.1)
      have i26 : i < 26 := by
        by_contra c
        rcases (show 26 ≤ i by omega).eq_or_lt with e | e
        · subst e
          have : 24 * (s.year - 2000) + 17 + ((26 : ℕ) : ℤ) = 24 * (s.year - 2000) + 43 := by push_cast; ring
          rw [this] at a3
          unfold tDay at ins
          omega
        · have := mono (24 * (s.year - 2000) + 43) (24 * (s.year - 2000) + 17 + i) (by omega) (by omega) (by omega)
          unfold tDay at ins this
          omega
      have up : n < tDay hM (24 * (s.year - 2000) + 17 + i + 1) := by
        by_contra c
        have := below (i + 1) (by omega) (by push_cast; rw [← add_assoc]; omega)
        omega
      have me := uniq n (24 * (s.year - 2000) + 17 + i) n1 n2 (by omega) (by omega) a3 up
      obtain ⟨i', t', b1, b2, b3, b4, b5, b6⟩ := C63_pentad Pr.table hls h4 _ a5 (n - tDay hM (24 * (s.year - 2000) + 17 + i))
        ((Cal.daysAfter_iff (val i i31).1 hls.1 _).2 (by rw [f1, hn]; unfold tDay; rw [JD.jdn_eq hs.1, JD.jdn_eq (val i i31).1]; ring))
      have i31' : i' < 31 := by
        have := (List.getElem?_eq_some_iff.1 b1).1
        have := Pr.table.len
        omega
      -- the term of the day
      have term : l.getJieQi = .ok (if tDay hM (24 * (s.year - 2000) + 17 + i) = n then termName i else []) := by
        rcases C62_name Pr.table.len .all with ⟨j, t, -, c2, c3, -, c5⟩ | ⟨c1, c2⟩
        · have j31 : j < 31 := by
            have := (List.getElem?_eq_some_iff.1 c2).1
            have := Pr.table.len
            omega
          rw [tab j j31] at c2
          cases c2
          have c4 := congrArg JD.jdn c3
          rw [f1, ← hn] at c4
          have := below j j31 (le_of_eq c4)
          have ji : j = i := by
            by_contra c
            have := mono (24 * (s.year - 2000) + 17 + j) (24 * (s.year - 2000) + 17 + i) (by omega) (by omega) (by omega)
            unfold tDay at this
            omega
          subst ji
          rw [if_pos (show tDay hM (24 * (s.year - 2000) + 17 + j) = n from c4)]
          exact c5
        · rw [if_neg]
          · exact c2
          · intro c
            refine c1 i _ trivial (tab i i31) ?_
            rw [f1]
            rw [hn] at c
            exact jdn_inj (val i i31).1 hs.1 c
      rw [tab i' i31'] at b1
      have b2' := congrArg (fun x : Solar => JD.jdn x.date) (b2.trans (Option.some.inj b1).symm)
      have ii : i' = i := by
        rcases lt_trichotomy i' i with c | c | c
        · have := mono (24 * (s.year - 2000) + 17 + i') (24 * (s.year - 2000) + 17 + i) (by omega) (by omega) (by omega)
          unfold tDay at this
          dsimp only at b2'
          omega
        · exact c
        · have := mono (24 * (s.year - 2000) + 17 + i) (24 * (s.year - 2000) + 17 + i') (by omega) (by omega) (by omega)
          unfold tDay at this
          dsimp only at b2'
          omega
      subst ii
      beta_reduce; rw [me]
      have dd := fun big => start n big n2
      rw [me] at dd
      have q0 : 0 ≤ min ((n - tDay hM (24 * (s.year - 2000) + 17 + i')) / 5) 2 := by omega
      have q2 : min ((n - tDay hM (24 * (s.year - 2000) + 17 + i')) / 5) 2 ≤ 2 := by omega
      generalize min ((n - tDay hM (24 * (s.year - 2000) + 17 + i')) / 5) 2 = q at *
      refine ⟨?_, ?_, ?_⟩
      · rw [b6, names i' q q0 q2]
        have e0 : (3 * ((i' : ℤ) - 4) + q) % 72 = (3 * (24 * (s.year - 2000) + 17 + i' - 21) + q) % 72 := by omega
        rw [e0]
      · have tn := term_names i' (by omega)
        rw [Int.toNat_natCast] at tn
        rw [b5, tn]
        have e1 : ((i' : ℤ) - 4) % 24 = (3 * (24 * (s.year - 2000) + 17 + i' - 21) + q) / 3 % 24 := by omega
        have e2 : (3 * (24 * (s.year - 2000) + 17 + (i' : ℤ) - 21) + q) % 3 = q := by omega
        rw [e1, e2]
        have : q = 0 ∨ q = 1 ∨ q = 2 := by omega
        rcases this with rfl | rfl | rfl <;> rfl
      · intro big
        have tn := term_names i' (by omega)
        rw [Int.toNat_natCast] at tn
        have e1 : ((i' : ℤ) - 4) % 24 = (3 * (24 * (s.year - 2000) + 17 + i' - 21) + q) / 3 % 24 := by omega
        rw [term, if_congr (dd big) rfl rfl, tn, e1]
    · have := a6 1 _ trivial (tab 1 one)
      rw [lt_day hls (val 1 one), f1, ← hn] at this
      have e : 24 * (s.year - 2000) + 17 + ((1 : ℕ) : ℤ) = 24 * (s.year - 2000) + 18 := by push_cast; ring
      rw [e] at this
      unfold tDay at ins
      omega
  · intro n h1 h2
    have b3 := m3 n h1 (by omega)
    have b4 := m4 n h1 (by omega)
    have g := term_days_gap hM (m := m n) (by have := m1 n h1 (by omega); omega) (by have := m2 n h1 (by omega); omega)
    obtain ⟨l1, l2⟩ := later n 1 h1 (by norm_num) (by norm_num) (by omega)
    beta_reduce
    by_cases c : n + 1 < tDay hM (m n + 1)
    · rw [l1 c]
      omega
    · rw [l2 (by omega)]
      have : tDay hM (m n + 1) = n + 1 := by omega
      rw [this]
      omega
  · intro n h1 h2 h
    beta_reduce at h ⊢
    have c1 := m1 (n - 1) (by omega) (by omega)
    have c2 := m2 (n - 1) (by omega) (by omega)
    have c3 := m3 (n - 1) (by omega) (by omega)
    have c4 := m4 (n - 1) (by omega) (by omega)
    have b1 := m1 n (by omega) (by omega)
    have b2 := m2 n (by omega) (by omega)
    have b3 := m3 n (by omega) (by omega)
    have b4 := m4 n (by omega) (by omega)
    have g := term_days_gap hM (m := m (n - 1)) (by omega) (by omega)
    have g' := term_days_gap hM (m := m n) (by omega) (by omega)
    have step := later (n - 1) 1 (by omega) (by norm_num) (by norm_num) (by omega)
    rw [show n - 1 + 1 = n by ring] at step
    have l3 := later n 3 (by omega) (by norm_num) (by norm_num) (by omega)
    have l4 := later n 4 (by omega) (by norm_num) (by norm_num) (by omega)
    have l5 := later n 5 (by omega) (by norm_num) (by norm_num) (by omega)
    have l7 := later n 7 (by omega) (by norm_num) (by norm_num) (by omega)
    -- `n` is the first, the sixth or the eleventh day of its term
    have first : n - tDay hM (m n) = 0 ∨ n - tDay hM (m n) = 5 ∨ n - tDay hM (m n) = 10 := by
      by_cases c : n < tDay hM (m (n - 1) + 1)
      · rw [step.1 c] at h ⊢
        omega
      · have e := step.2 (by omega)
        rw [e]
        omega
    clear step h c1 c2 c3 c4 g
    generalize eB : tDay hM (m n + 1) = B at *
    rcases first with f | f | f
    · rw [l4.1 (by omega), l5.1 (by omega)]
      omega
    · rw [l4.1 (by omega), l5.1 (by omega)]
      omega
    · rw [l3.1 (by omega)]
      refine ⟨fun c => by omega, fun _ => ⟨by omega, ?_⟩⟩
      rw [l7.2 (by omega)]
      omega

/-- **C113** the pentads are numbered through all days by a count `P` that grows by one at a time: the first and the second pentad of a
term have five days, the third four to seven.  `getWuHou` and `getHou` of every moment are the names of the pentad of its day. (2299970 and 4237581 are
the numbers of 1 January 1585 and 31 December 6889.) -/
theorem C113_pentads (hM : M.Good) :
    ∃ P : ℤ → ℤ,
      (∀ s : Solar, s.Valid → 1584 < s.year → s.year < 6890 → ∀ n, IsDay n s.date → ∀ l, Lunar.fromSolar (astro M) s = .ok l →
        l.getWuHou = .ok (pentads72.getD (P n % 72).toNat "").toList ∧
        l.getHou = .ok ((springTerms.getD (P n / 3 % 24).toNat "").toList ++ ' ' :: (["初候", "二候", "三候"].getD (P n % 3).toNat "").toList) ∧
        (2299970 < n → l.getJieQi = .ok (if P n % 3 = 0 ∧ P (n - 1) ≠ P n then (springTerms.getD (P n / 3 % 24).toNat "").toList else []))) ∧
      (∀ n, 2299970 ≤ n → n < 4237581 → P (n + 1) = P n ∨ P (n + 1) = P n + 1) ∧
      ∀ n, 2299970 < n → n + 7 ≤ 4237581 → P n = P (n - 1) + 1 →
        (P n % 3 ≠ 2 → P (n + 4) = P n ∧ P (n + 5) = P n + 1) ∧ (P n % 3 = 2 → P (n + 3) = P n ∧ P (n + 7) = P n + 1) := by
  obtain ⟨P, _, _, h⟩ := pentads_count hM
  exact ⟨P, h⟩

/-- noon of 16 and of 17 November 2026: the same pentad of the seventy-two or one and the next -/
example (hM : M.Good) {l l' : Lunar} (h : Lunar.fromSolar (astro M) ⟨2026, 11, 16, 12, 0, 0⟩ = .ok l)
    (h' : Lunar.fromSolar (astro M) ⟨2026, 11, 17, 12, 0, 0⟩ = .ok l') :
    ∃ p : ℤ, l.getWuHou = .ok (pentads72.getD (p % 72).toNat "").toList ∧
      (l'.getWuHou = .ok (pentads72.getD (p % 72).toNat "").toList ∨ l'.getWuHou = .ok (pentads72.getD ((p + 1) % 72).toNat "").toList) := by
  obtain ⟨P, a, b, -⟩ := C113_pentads hM
  have x := a ⟨2026, 11, 16, 12, 0, 0⟩ (by decide) (by decide) (by decide) 2461361 ((isDay_iff (by decide)).2 (by decide)) l h
  have y := a ⟨2026, 11, 17, 12, 0, 0⟩ (by decide) (by decide) (by decide) 2461362 ((isDay_iff (by decide)).2 (by decide)) l' h'
  refine ⟨P 2461361, x.1, ?_⟩
  rcases b 2461361 (by norm_num) (by norm_num) with c | c
  · left; rw [y.1]; congr 5
  · right; rw [y.1, ← c]; rfl

end
