import Verif.Model.FotoTao
import Verif.Proof.Keys
import Verif.Props.Pillars
import Verif.Spec.Words

/-! # C70: lunar dates in words -/

section
open Spec LunarUtil

/-- the numeral put for a character of `str(year)` -/
private def readDigit (c : Char) : Char := if c = '-' then '十' else numeral (c.toNat - 48)

private def signs : List Char := ['-', '0', '1', '2', '3', '4', '5', '6', '7', '8', '9']

private theorem digit_mem {c : Char} (h : c.isDigit = true) : c ∈ signs := by
  have hc : 48 ≤ c.toNat ∧ c.toNat ≤ 57 := by
    simp only [Char.isDigit, Bool.and_eq_true, decide_eq_true_eq, ge_iff_le] at h
    exact ⟨by simpa using UInt32.le_iff_toNat_le.1 h.1, by simpa using UInt32.le_iff_toNat_le.1 h.2⟩
  have e : c = Char.ofNat c.toNat := (Char.ofNat_toNat c).symm
  have key : ∀ i ∈ List.range 10, Char.ofNat (i + 48) ∈ signs := by decide
  have := key (c.toNat - 48) (by rw [List.mem_range]; omega)
  rwa [show c.toNat - 48 + 48 = c.toNat by omega, ← e] at this

private theorem strInt_mem {y : ℤ} {c : Char} (h : c ∈ pyStrInt y) : c ∈ signs := by
  have d : ∀ n, c ∈ Nat.toDigits 10 n → c ∈ signs := fun n hn =>
    digit_mem (Nat.isDigit_of_mem_toDigits (by decide) (by decide) hn)
  rcases lt_or_ge y 0 with hy | hy
  · rw [Keys.strInt_neg hy, List.mem_cons] at h
    rcases h with h | h
    · rw [h]; decide
    · exact d _ h
  · rw [Keys.strInt_nonneg hy] at h
    exact d _ h

private theorem read_ok : ∀ c ∈ signs, pyIndex NUMBER ((c.toNat : ℤ) - 48) = .ok [readDigit c] := by decide +kernel
private theorem read_inj : ∀ c ∈ signs, ∀ e ∈ signs, readDigit c = readDigit e → c = e := by decide +kernel
private theorem read_year : ∀ c ∈ signs, readDigit c ≠ '年' := by decide +kernel

private theorem mapM_read (L : List Char) (h : ∀ c ∈ L, c ∈ signs) :
    L.mapM (fun c => pyIndex NUMBER ((c.toNat : ℤ) - 48)) = .ok (L.map (fun c => [readDigit c])) := by
  induction L with
  | nil => rfl
  | cons c L ih =>
    rw [List.mapM_cons, read_ok c (h c (by simp)), ih (fun x hx => h x (by simp [hx]))]
    rfl

private theorem yearDigits_ok (y : ℤ) : Lunar.yearDigits y = .ok ((pyStrInt y).map readDigit) := by
  unfold Lunar.yearDigits
  rw [mapM_read _ (fun c => strInt_mem)]
  show Except.ok _ = _
  congr 1
  induction pyStrInt y with
  | nil => rfl
  | cons c L ih => simp [ih]

private theorem map_read_inj {L M : List Char} (hL : ∀ c ∈ L, c ∈ signs) (hM : ∀ c ∈ M, c ∈ signs) (h : L.map readDigit = M.map readDigit) :
    L = M := by
  induction L generalizing M with
  | nil => cases M with
    | nil => rfl
    | cons => simp at h
  | cons c L ih => cases M with
    | nil => simp at h
    | cons e M =>
      simp only [List.map_cons, List.cons.injEq] at h
      rw [read_inj c (hL c (by simp)) e (hM e (by simp)) h.1, ih (fun x hx => hL x (by simp [hx])) (fun x hx => hM x (by simp [hx])) h.2]

private theorem year_sep {x y s t : List Char} (hx : '年' ∉ x) (hy : '年' ∉ y) (h : x ++ '年' :: s = y ++ '年' :: t) : x = y ∧ s = t := by
  induction x generalizing y with
  | nil =>
    cases y with
    | nil => simpa using h
    | cons c y => simp only [List.nil_append, List.cons_append, List.cons.injEq] at h; exact absurd h.1 (by simp at hy; tauto)
  | cons c x ih =>
    cases y with
    | nil => simp only [List.nil_append, List.cons_append, List.cons.injEq] at h; exact absurd h.1.symm (by simp at hx; tauto)
    | cons e y =>
      simp only [List.cons_append, List.cons.injEq] at h
      simp only [List.mem_cons, not_or] at hx hy
      obtain ⟨h1, h2⟩ := ih hx.2 hy.2 h.2
      exact ⟨by rw [h.1, h1], h2⟩

/-- a month and a day that can be said -/
private def Said (l : Lunar) : Prop := (1 ≤ |l.month| ∧ |l.month| ≤ 12) ∧ 1 ≤ l.day ∧ l.day ≤ 30

private theorem month_ok {l : Lunar} (h : Said l) : l.getMonthInChinese = .ok (monthWords l.month) := by
  unfold Lunar.getMonthInChinese monthWords
  have := h.1
  generalize |l.month| = m at *
  have key : ∀ i ∈ List.range 12, pyIndex MONTH ((i : ℤ) + 1) = .ok [if (i : ℤ) + 1 = 1 then '正' else if (i : ℤ) + 1 = 11 then '冬' else
      if (i : ℤ) + 1 = 12 then '腊' else numeral ((i : ℤ) + 1).toNat] := by decide +kernel
  have k := key (m - 1).toNat (by rw [List.mem_range]; omega)
  rw [show ((m - 1).toNat : ℤ) + 1 = m by omega] at k
  rw [k]
  rfl

private theorem day_ok {l : Lunar} (h : Said l) : l.getDayInChinese = .ok (dayWords l.day) := by
  unfold Lunar.getDayInChinese
  have := h.2
  generalize l.day = d at *
  have key : ∀ i ∈ List.range 30, pyIndex DAY ((i : ℤ) + 1) = .ok (dayWords ((i : ℤ) + 1)) := by decide +kernel
  have k := key (d - 1).toNat (by rw [List.mem_range]; omega)
  rwa [show ((d - 1).toNat : ℤ) + 1 = d by omega] at k

private theorem rest_inj {m m' d d' : ℤ} (h : (1 ≤ |m| ∧ |m| ≤ 12) ∧ 1 ≤ d ∧ d ≤ 30) (h' : (1 ≤ |m'| ∧ |m'| ≤ 12) ∧ 1 ≤ d' ∧ d' ≤ 30)
    (e : monthWords m ++ ['月'] ++ dayWords d = monthWords m' ++ ['月'] ++ dayWords d') : m = m' ∧ d = d' := by
  have months : ∀ i ∈ List.range 25, ∀ j ∈ List.range 25, (i : ℤ) ≠ 12 → (j : ℤ) ≠ 12 → monthWords ((i : ℤ) - 12) = monthWords ((j : ℤ) - 12) → i = j := by
    decide +kernel
  have days : ∀ i ∈ List.range 30, ∀ j ∈ List.range 30, dayWords ((i : ℤ) + 1) = dayWords ((j : ℤ) + 1) → i = j := by decide +kernel
  have len : ∀ x : ℤ, (dayWords x).length = 2 := fun x => by unfold dayWords; split_ifs <;> rfl
  have b := abs_le.1 h.1.2
  have b' := abs_le.1 h'.1.2
  have n : m ≠ 0 := by rintro rfl; simp at h
  have n' : m' ≠ 0 := by rintro rfl; simp at h'
  obtain ⟨e1, e2⟩ := List.append_inj' e (by rw [len, len])
  have e3 := List.append_inj' e1 rfl
  have k1 := months (m + 12).toNat (by rw [List.mem_range]; omega) (m' + 12).toNat (by rw [List.mem_range]; omega) (by omega) (by omega)
    (by rw [show ((m + 12).toNat : ℤ) - 12 = m by omega, show ((m' + 12).toNat : ℤ) - 12 = m' by omega]; exact e3.1)
  have k2 := days (d - 1).toNat (by rw [List.mem_range]; omega) (d' - 1).toNat (by rw [List.mem_range]; omega)
    (by rw [show ((d - 1).toNat : ℤ) + 1 = d by omega, show ((d' - 1).toNat : ℤ) + 1 = d' by omega]; exact e2)
  omega

/-- the common form of the three `toString` -/
private def words (y : ℤ) (l : Lunar) : Except PyErr PyStr := do
  return (← Lunar.yearDigits y) ++ ['年'] ++ (← l.getMonthInChinese) ++ ['月'] ++ (← l.getDayInChinese)

private theorem words_ok {y : ℤ} {l : Lunar} (h : Said l) :
    words y l = .ok ((pyStrInt y).map readDigit ++ ['年'] ++ monthWords l.month ++ ['月'] ++ dayWords l.day) := by
  unfold words
  rw [yearDigits_ok, month_ok h, day_ok h]
  rfl

private theorem words_inj {y y' : ℤ} {l l' : Lunar} (h : Said l) (h' : Said l') (e : words y l = words y' l') :
    y = y' ∧ l.month = l'.month ∧ l.day = l'.day := by
  rw [words_ok h, words_ok h'] at e
  simp only [Except.ok.injEq, List.append_assoc] at e
  have nm : ∀ z : ℤ, '年' ∉ (pyStrInt z).map readDigit := by
    intro z hz
    obtain ⟨c, hc, ec⟩ := List.mem_map.1 hz
    exact read_year c (strInt_mem hc) ec
  obtain ⟨e1, e2⟩ := year_sep (nm y) (nm y') e
  refine ⟨Keys.strInt_inj (map_read_inj (fun c => strInt_mem) (fun c => strInt_mem) e1), rest_inj h h' ?_⟩
  simpa [List.append_assoc] using e2

private theorem words_nonneg {y : ℤ} {l : Lunar} (hy : 0 ≤ y) (h : Said l) : words y l = .ok (dateWords y.toNat l.month l.day) := by
  rw [words_ok h, Keys.strInt_nonneg hy]
  unfold dateWords yearWords
  rw [show y.natAbs = y.toNat by omega]
  congr 5
  apply List.map_congr_left
  intro c hc
  unfold readDigit
  rw [if_neg (fun e => Keys.dash_not_mem _ (e ▸ hc))]

/-- **C70** `toString` of a lunar date says the digits of the year, the month with its name and the day -/
theorem C70_words (l : Lunar) (hy : 0 ≤ l.year) (hm : 1 ≤ |l.month| ∧ |l.month| ≤ 12) (hd : 1 ≤ l.day ∧ l.day ≤ 30) :
    l.toString = .ok (dateWords l.year.toNat l.month l.day) :=
  words_nonneg hy ⟨hm, hd⟩

/-- **C70** the parts of the words: the digits of a year, the month, the day -/
theorem C70_parts (l : Lunar) (y : ℤ) (hy : 0 ≤ y) (hm : 1 ≤ |l.month| ∧ |l.month| ≤ 12) (hd : 1 ≤ l.day ∧ l.day ≤ 30) :
    Lunar.yearDigits y = .ok (yearWords y.toNat) ∧ l.getMonthInChinese = .ok (monthWords l.month) ∧ l.getDayInChinese = .ok (dayWords l.day) := by
  refine ⟨?_, month_ok ⟨hm, hd⟩, day_ok ⟨hm, hd⟩⟩
  rw [yearDigits_ok, Keys.strInt_nonneg hy]
  unfold yearWords
  rw [show y.natAbs = y.toNat by omega]
  congr 1
  apply List.map_congr_left
  intro c hc
  unfold readDigit
  rw [if_neg (fun e => Keys.dash_not_mem _ (e ▸ hc))]

/-- **C70** different lunar dates have different strings; this holds for all years, also negative ones -/
theorem C70_injective (l l' : Lunar) (hm : 1 ≤ |l.month| ∧ |l.month| ≤ 12) (hd : 1 ≤ l.day ∧ l.day ≤ 30)
    (hm' : 1 ≤ |l'.month| ∧ |l'.month| ≤ 12) (hd' : 1 ≤ l'.day ∧ l'.day ≤ 30) (e : l.toString = l'.toString) :
    l.year = l'.year ∧ l.month = l'.month ∧ l.day = l'.day :=
  words_inj (y := l.year) (y' := l'.year) ⟨hm, hd⟩ ⟨hm', hd'⟩ e

/-- **C70** the same for dates of the Buddhist and Taoist calendars, with their years -/
theorem C70_foto_tao (l l' : Lunar) (hm : 1 ≤ |l.month| ∧ |l.month| ≤ 12) (hd : 1 ≤ l.day ∧ l.day ≤ 30)
    (hm' : 1 ≤ |l'.month| ∧ |l'.month| ≤ 12) (hd' : 1 ≤ l'.day ∧ l'.day ≤ 30) :
    (0 ≤ (Foto.mk l).getYear → (Foto.mk l).toString = .ok (dateWords (Foto.mk l).getYear.toNat l.month l.day)) ∧
    (0 ≤ (Tao.mk l).getYear → (Tao.mk l).toString = .ok (dateWords (Tao.mk l).getYear.toNat l.month l.day)) ∧
    ((Foto.mk l).toString = (Foto.mk l').toString → (Foto.mk l).getYear = (Foto.mk l').getYear ∧ l.month = l'.month ∧ l.day = l'.day) ∧
    ((Tao.mk l).toString = (Tao.mk l').toString → (Tao.mk l).getYear = (Tao.mk l').getYear ∧ l.month = l'.month ∧ l.day = l'.day) :=
  ⟨fun hy => words_nonneg hy ⟨hm, hd⟩, fun hy => words_nonneg hy ⟨hm, hd⟩,
    fun e => words_inj (y := (Foto.mk l).getYear) (y' := (Foto.mk l').getYear) ⟨hm, hd⟩ ⟨hm', hd'⟩ e,
    fun e => words_inj (y := (Tao.mk l).getYear) (y' := (Tao.mk l').getYear) ⟨hm, hd⟩ ⟨hm', hd'⟩ e⟩

/-- 二〇二三年腊月廿五; the same day of a leap month; year -20 -/
example : sample.toString = .ok "二〇二三年腊月廿五".toList ∧ dateWords 2023 12 25 = "二〇二三年腊月廿五".toList ∧
    { sample with month := -12 }.toString = .ok "二〇二三年闰腊月廿五".toList ∧ { sample with year := -20 }.toString = .ok "十二〇年腊月廿五".toList ∧
    (Foto.mk sample).toString = .ok "二五六七年腊月廿五".toList := by
  refine ⟨by decide +kernel, by decide +kernel, by decide +kernel, by decide +kernel, ?_⟩
  have := (C70_foto_tao sample sample (by decide +kernel) (by decide) (by decide +kernel) (by decide)).1
  have e : (Foto.mk sample).getYear = 2567 := by decide +kernel
  rw [e] at this
  rw [this (by decide)]
  decide +kernel

end
