import Verif.Proof.JieQi
import Verif.Props.LunarDate
import Verif.Props.Pillars

/-! # Properties C46, C47: the nine nines of winter and the three decades of summer

`n`, `w₁`, `w₂`, `a`, `b` are Julian day numbers (`Spec/JulianDate.lean`) of the day of the lunar date
and of days of solar terms. -/

section
open Spec Lunar Cal
variable {l : Lunar} {Y : ℤ}

/-- the `k`-th Chinese numeral -/
def numeral9 (k : ℤ) : PyStr := ['一', '二', '三', '四', '五', '六', '七', '八', '九'].getD (k - 1).toNat '?' :: []

private theorem mid_before {x y : Date} (hx : x.Valid) (hy : y.Valid) : (mid x).isBefore (mid y) = true ↔ dn x < dn y := by
  rw [isBefore_iff (mid_valid hx) (mid_valid hy)]
  show 86400 * dn x + _ < 86400 * dn y + _ ↔ _
  simp only [mid]
  omega

private theorem mid_sub {x y : Date} (hx : x.Valid) (hy : y.Valid) : (mid x).subtract (mid y) = .ok (dn x - dn y) :=
  subtract_spec (mid_valid hx) (mid_valid hy)

private theorem fromDate {s : Solar} (h : s.date.Valid) : Solar.fromYmd s.year s.month s.day = .ok (mid s.date) := fromYmd_ok h

private theorem fromMid {x : Date} (h : x.Valid) : Solar.fromYmd (mid x).year (mid x).month (mid x).day = .ok (mid x) := fromYmd_ok h

/-- **C46** `getShuJiu`: on day `j` of nine `k` (both from 1) counted from the day of the winter
solstice, the answer is that; on a day outside all nine nines there is none. -/
theorem C46_nines (T : TermTable Y l.jieQi) (hs : l.solar.Valid) (z1 z2 : Solar) (h1 : l.jieQi[1]? = some z1)
    (h2 : l.jieQi[25]? = some z2) (n w1 w2 : ℤ) (hn : IsDay n l.solar.date) (hw1 : IsDay w1 z1.date) (hw2 : IsDay w2 z2.date)
    (hgap : w1 + 81 ≤ w2) :
    (∀ k j, 1 ≤ k → k ≤ 9 → 1 ≤ j → j ≤ 9 → (n = w1 + 9 * (k - 1) + (j - 1) ∨ n = w2 + 9 * (k - 1) + (j - 1)) →
      l.getShuJiu = .ok (some (numeral9 k ++ ['九'], j))) ∧
    ((n < w1 ∨ w1 + 81 ≤ n ∧ n < w2 ∨ w2 + 81 ≤ n) → l.getShuJiu = .ok none) := by
  have v1 := T.valid _ (List.mem_of_getElem? h1)
  have v2 := T.valid _ (List.mem_of_getElem? h2)
  rw [isDay_iff hs.1, JD.jdn_eq hs.1] at hn
  rw [isDay_iff v1.1, JD.jdn_eq v1.1] at hw1
  rw [isDay_iff v2.1, JD.jdn_eq v2.1] at hw2
  have t1 : term l.jieQi ['冬', '至'] = .ok z1 := term_key T.len (by decide) h1
  have t2 : term l.jieQi ['D', 'O', 'N', 'G', '_', 'Z', 'H', 'I'] = .ok z2 := term_key T.len (by decide) h2
  have body : ∀ z : Solar, z.Valid → (do
      let end_ ← Solar.fromYmd (mid z.date).year (mid z.date).month (mid z.date).day
      let end_ ← end_.next 81
      if (mid l.solar.date).isBefore (mid z.date) || !(mid l.solar.date).isBefore end_ then return none
      else
        let days ← (mid l.solar.date).subtract (mid z.date)
        let name ← pyIndex LunarUtil.NUMBER (days.tdiv 9 + 1)
        return some (name ++ ['九'], days % 9 + 1) : Except PyErr (Option (PyStr × ℤ))) =
      if dn l.solar.date < dn z.date ∨ dn z.date + 81 ≤ dn l.solar.date then .ok none
      else .ok (some (numeral9 ((dn l.solar.date - dn z.date) / 9 + 1) ++ ['九'], (dn l.solar.date - dn z.date) % 9 + 1)) := by
    intro z hz
    rw [fromMid hz.1]
    simp only [bind, Except.bind]
    rw [mid_next' hz.1 81]
    dsimp only
    by_cases c : dn l.solar.date < dn z.date ∨ dn z.date + 81 ≤ dn l.solar.date
    · have : ((mid l.solar.date).isBefore (mid z.date) || !(mid l.solar.date).isBefore (mid (ofDn (dn z.date + 81)))) = true := by
        rw [Bool.or_eq_true, Bool.not_eq_true', ← Bool.not_eq_true, mid_before hs.1 hz.1, mid_before hs.1 (ofDn_valid _), dn_ofDn]
        omega
      rw [if_pos this, if_pos c]
      rfl
    · have : ¬ ((mid l.solar.date).isBefore (mid z.date) || !(mid l.solar.date).isBefore (mid (ofDn (dn z.date + 81)))) = true := by
        rw [Bool.or_eq_true, Bool.not_eq_true', ← Bool.not_eq_true, mid_before hs.1 hz.1, mid_before hs.1 (ofDn_valid _), dn_ofDn]
        omega
      rw [if_neg this, if_neg c, mid_sub hs.1 hz.1]
      dsimp only
      rw [Int.tdiv_eq_ediv_of_nonneg (by omega)]
      have hq : 0 ≤ (dn l.solar.date - dn z.date) / 9 ∧ (dn l.solar.date - dn z.date) / 9 < 9 := by omega
      generalize (dn l.solar.date - dn z.date) / 9 = q at hq ⊢
      have key : ∀ q : Fin 9, pyIndex LunarUtil.NUMBER (((q : ℕ) : ℤ) + 1) = .ok (numeral9 (((q : ℕ) : ℤ) + 1)) := by decide +kernel
      have := key ⟨q.toNat, by omega⟩
      simp only [show ((q.toNat : ℕ) : ℤ) = q by omega] at this
      rw [this]
      rfl
  have main : l.getShuJiu =
      if dn l.solar.date < dn z2.date then
        (if dn l.solar.date < dn z1.date ∨ dn z1.date + 81 ≤ dn l.solar.date then .ok none
        else .ok (some (numeral9 ((dn l.solar.date - dn z1.date) / 9 + 1) ++ ['九'], (dn l.solar.date - dn z1.date) % 9 + 1)))
      else
        (if dn l.solar.date < dn z2.date ∨ dn z2.date + 81 ≤ dn l.solar.date then .ok none
        else .ok (some (numeral9 ((dn l.solar.date - dn z2.date) / 9 + 1) ++ ['九'], (dn l.solar.date - dn z2.date) % 9 + 1))) := by
    unfold getShuJiu
    rw [fromDate hs.1, t2]
    simp only [bind, Except.bind]
    rw [fromDate v2.1]
    dsimp only
    by_cases c : dn l.solar.date < dn z2.date
    · rw [if_pos ((mid_before hs.1 v2.1).2 c), if_pos c, t1]
      dsimp only
      rw [fromDate v1.1]
      exact body z1 v1
    · rw [if_neg (by rw [mid_before hs.1 v2.1]; exact c), if_neg c]
      exact body z2 v2
  rw [main]
  constructor
  · intro k j k1 k9 j1 j9 h
    rcases h with h | h
    · rw [if_pos (by omega), if_neg (by omega), show (dn l.solar.date - dn z1.date) / 9 + 1 = k by omega,
        show (dn l.solar.date - dn z1.date) % 9 + 1 = j by omega]
    · rw [if_neg (by omega), if_neg (by omega), show (dn l.solar.date - dn z2.date) / 9 + 1 = k by omega,
        show (dn l.solar.date - dn z2.date) % 9 + 1 = j by omega]
  · intro h
    by_cases c : dn l.solar.date < dn z2.date
    · rw [if_pos c, if_pos (by omega)]
    · rw [if_neg c, if_pos (by omega)]

/-- at 23:30 on the day of Li Chun 2024 (day 45 from the solstice of 2023): ninth day of the fifth nine -/
example : sample.getShuJiu = .ok (some (['五', '九'], 9)) :=
  (C46_nines (l := sample) terms2024_table (by decide) ⟨2023, 12, 22, 11, 27, 9⟩ ⟨2024, 12, 21, 17, 20, 20⟩ (by decide +kernel) (by decide +kernel)
    2460345 2460301 2460666 ((isDay_iff (by decide)).2 (by decide)) ((isDay_iff (by decide)).2 (by decide))
    ((isDay_iff (by decide)).2 (by decide)) (by decide)).1 5 9 (by decide) (by decide) (by decide) (by decide) (by decide)

/-! ## C47 -/

/-- the day with Julian day number `n` has the stem 庚 (that days go through the ten stems by day
number is C32) -/
def IsGeng (n : ℤ) : Prop := stem (n - 11) = '庚'

private theorem isGeng_iff (n : ℤ) : IsGeng n ↔ (n - 11) % 10 = 6 := by
  unfold IsGeng stem
  have h : 0 ≤ (n - 11) % 10 ∧ (n - 11) % 10 < 10 := by omega
  generalize (n - 11) % 10 = m at h ⊢
  have key : ∀ m : Fin 10, (stems.getD (((m : ℕ) : ℤ)).toNat '?' = '庚') ↔ ((m : ℕ) : ℤ) = 6 := by decide
  have := key ⟨m.toNat, by omega⟩
  simpa only [show ((m.toNat : ℕ) : ℤ) = m by omega] using this

/-- **C47** `getFu`: let `g` be the first 庚 day on or after the summer solstice (day `a`) and `m` the
first one on or after Li Qiu (day `b`).  The first decade begins with the third 庚 day `g + 20`, the
middle one with the fourth `g + 30` and lasts until `m`, the last one is the ten days from `m`; before,
between `m + 10` and the end of the year there is none. -/
theorem C47_decades {A : Astro} {lo hi : ℤ} (H : Almanac A lo hi) (T : TermTable Y l.jieQi) (hs : l.solar.Valid)
    (xz lq : Solar) (h1 : l.jieQi[13]? = some xz) (h2 : l.jieQi[16]? = some lq) (y1 : lo < xz.year) (y2 : xz.year < hi)
    (n a b g m : ℤ) (hn : IsDay n l.solar.date) (ha : IsDay a xz.date) (hb : IsDay b lq.date)
    (hab : a + 40 ≤ b ∧ b ≤ a + 50) (hg : IsGeng g ∧ a ≤ g ∧ g < a + 10) (hm : IsGeng m ∧ b ≤ m ∧ m < b + 10) :
    (n < g + 20 → l.getFu A = .ok none) ∧
    (g + 20 ≤ n → n < g + 30 → l.getFu A = .ok (some (['初', '伏'], n - (g + 20) + 1))) ∧
    (g + 30 ≤ n → n < m → l.getFu A = .ok (some (['中', '伏'], n - (g + 30) + 1))) ∧
    (m ≤ n → n < m + 10 → l.getFu A = .ok (some (['末', '伏'], n - m + 1))) ∧
    (m + 10 ≤ n → l.getFu A = .ok none) := by
  have v1 := T.valid _ (List.mem_of_getElem? h1)
  have v2 := T.valid _ (List.mem_of_getElem? h2)
  obtain ⟨xl, ex, sx, mx, -⟩ := C38_round_trip H xz v1 y1 y2
  have f9 := T.four _ (List.mem_of_getElem? h1)
  have hx : xl.dayGanIndex = (JD.jdn xz.date - 11) % 10 := by
    have := (made_fields mx (by rw [sx]; omega) (by rw [sx]; omega)).2.2.1.1
    rw [this, sx]
  rw [isDay_iff hs.1, JD.jdn_eq hs.1] at hn
  rw [isDay_iff v1.1] at ha
  rw [← ha] at hx
  rw [JD.jdn_eq v1.1] at ha
  rw [isDay_iff v2.1, JD.jdn_eq v2.1] at hb
  rw [isGeng_iff] at hg hm
  have t1 : term l.jieQi ['夏', '至'] = .ok xz := term_key T.len (by decide) h1
  have t2 : term l.jieQi ['立', '秋'] = .ok lq := term_key T.len (by decide) h2
  obtain ⟨hg1, hg2, hg3⟩ := hg
  obtain ⟨hm1, hm2, hm3⟩ := hm
  have hadd : (if 6 - xl.dayGanIndex < 0 then 6 - xl.dayGanIndex + 10 else 6 - xl.dayGanIndex) + 20 = g - a + 20 := by
    rw [hx]; split_ifs <;> omega
  have e3 : dn xz.date + (g - a + 20) = g + 20 - 1721057 := by omega
  have main : l.getFu A =
      if n < g + 20 then .ok none
      else if n - (g + 20) < 10 then .ok (some (['初', '伏'], n - (g + 20) + 1))
      else if n - (g + 30) < 10 then .ok (some (['中', '伏'], n - (g + 30) + 1))
      else if g + 40 < b then
        if n - (g + 40) < 10 then .ok (some (['中', '伏'], n - (g + 40) + 11))
        else if n - (g + 50) < 10 then .ok (some (['末', '伏'], n - (g + 50) + 1)) else .ok none
      else if n - (g + 40) < 10 then .ok (some (['末', '伏'], n - (g + 40) + 1)) else .ok none := by
    have N : ∀ k : ℤ, (mid (ofDn (k - 1721057))).next 10 = .ok (mid (ofDn (k + 10 - 1721057))) := fun k => by
      rw [mid_next' (ofDn_valid _) 10, dn_ofDn]; congr 3; ring
    have S : ∀ k : ℤ, (mid l.solar.date).subtract (mid (ofDn (k - 1721057))) = .ok (n - k) := fun k => by
      rw [mid_sub hs.1 (ofDn_valid _), dn_ofDn]; congr 1; omega
    unfold getFu
    rw [fromDate hs.1, t1, t2]
    simp only [bind, Except.bind]
    rw [fromDate v1.1]
    dsimp only
    rw [ex]
    dsimp only
    rw [hadd, mid_next' v1.1, e3]
    dsimp only
    have B : (mid l.solar.date).isBefore (mid (ofDn (g + 20 - 1721057))) = true ↔ n < g + 20 := by
      rw [mid_before hs.1 (ofDn_valid _), dn_ofDn]; omega
    by_cases c1 : n < g + 20
    · rw [if_pos (B.2 c1), if_pos c1]; rfl
    rw [if_neg (by rw [B]; exact c1), if_neg c1, S]
    dsimp only
    by_cases c2 : n - (g + 20) < 10
    · rw [if_pos c2, if_pos c2]; rfl
    rw [if_neg c2, if_neg c2, N, show g + 20 + 10 = g + 30 by ring]
    dsimp only
    rw [S]
    dsimp only
    by_cases c3 : n - (g + 30) < 10
    · rw [if_pos c3, if_pos c3]; rfl
    rw [if_neg c3, if_neg c3, N, show g + 30 + 10 = g + 40 by ring]
    dsimp only
    rw [S]
    dsimp only
    rw [fromDate v2.1]
    dsimp only
    have B2 : (mid lq.date).isAfter (mid (ofDn (g + 40 - 1721057))) = true ↔ g + 40 < b := by
      rw [isAfter_eq, mid_before (ofDn_valid _) v2.1, dn_ofDn]; omega
    by_cases c4 : g + 40 < b
    · rw [if_pos (B2.2 c4), if_pos c4]
      by_cases c5 : n - (g + 40) < 10
      · rw [if_pos c5, if_pos c5]; rfl
      rw [if_neg c5, if_neg c5, N, show g + 40 + 10 = g + 50 by ring]
      dsimp only
      rw [S]
      dsimp only
      by_cases c6 : n - (g + 50) < 10
      · rw [if_pos c6, if_pos c6]; rfl
      · rw [if_neg c6, if_neg c6]; rfl
    · rw [if_neg (by rw [B2]; exact c4), if_neg c4]
      by_cases c5 : n - (g + 40) < 10
      · rw [if_pos c5, if_pos c5]; rfl
      · rw [if_neg c5, if_neg c5]; rfl
  have hmv : m = if g + 40 < b then g + 50 else g + 40 := by split_ifs <;> omega
  rw [main]
  refine ⟨fun h => ?_, fun h h' => ?_, fun h h' => ?_, fun h h' => ?_, fun h => ?_⟩
  · rw [if_pos h]
  · rw [if_neg (by omega), if_pos (by omega)]
  · rw [if_neg (by omega), if_neg (by omega)]
    by_cases c3 : n - (g + 30) < 10
    · rw [if_pos c3]
    · by_cases c4 : g + 40 < b
      · rw [if_pos c4] at hmv
        rw [if_neg c3, if_pos c4, if_pos (by omega)]
        congr 3; ring
      · rw [if_neg c4] at hmv; omega
  · rw [if_neg (by omega), if_neg (by omega), if_neg (by omega)]
    by_cases c4 : g + 40 < b
    · rw [if_pos c4] at hmv
      rw [if_pos c4, if_neg (by omega), if_pos (by omega), hmv]
    · rw [if_neg c4] at hmv
      rw [if_neg c4, if_pos (by omega), hmv]
  · rw [if_neg (by omega), if_neg (by omega), if_neg (by omega)]
    by_cases c4 : g + 40 < b
    · rw [if_pos c4] at hmv
      rw [if_pos c4, if_neg (by omega), if_neg (by omega)]
    · rw [if_neg c4] at hmv
      rw [if_neg c4, if_neg (by omega)]

/-- 2024: solstice 06-21, third 庚 day 07-15; Li Qiu 08-07, next 庚 day 08-14, so the middle decade has
20 days (08-13 is its last) -/
example : ({ sample with solar := ⟨2024, 8, 13, 10, 0, 0⟩ } : Lunar).getFu Sample.astro = .ok (some (['中', '伏'], 20)) ∧
    ({ sample with solar := ⟨2024, 8, 14, 10, 0, 0⟩ } : Lunar).getFu Sample.astro = .ok (some (['末', '伏'], 1)) := by
  constructor
  · exact (C47_decades (l := { sample with solar := ⟨2024, 8, 13, 10, 0, 0⟩ }) Sample.almanac terms2024_table (by decide)
      ⟨2024, 6, 21, 4, 50, 46⟩ ⟨2024, 8, 7, 8, 9, 1⟩ (by decide +kernel) (by decide +kernel) (by decide) (by decide)
      2460536 2460483 2460530 2460487 2460537 ((isDay_iff (by decide)).2 (by decide)) ((isDay_iff (by decide)).2 (by decide))
      ((isDay_iff (by decide)).2 (by decide)) (by decide) ⟨by unfold IsGeng; decide, by decide, by decide⟩
      ⟨by unfold IsGeng; decide, by decide, by decide⟩).2.2.1 (by decide) (by decide)
  · exact (C47_decades (l := { sample with solar := ⟨2024, 8, 14, 10, 0, 0⟩ }) Sample.almanac terms2024_table (by decide)
      ⟨2024, 6, 21, 4, 50, 46⟩ ⟨2024, 8, 7, 8, 9, 1⟩ (by decide +kernel) (by decide +kernel) (by decide) (by decide)
      2460537 2460483 2460530 2460487 2460537 ((isDay_iff (by decide)).2 (by decide)) ((isDay_iff (by decide)).2 (by decide))
      ((isDay_iff (by decide)).2 (by decide)) (by decide) ⟨by unfold IsGeng; decide, by decide, by decide⟩
      ⟨by unfold IsGeng; decide, by decide, by decide⟩).2.2.2.1 (by decide) (by decide)

end
