import Verif.Props.SolarParts
import Verif.Proof.Texts
import Verif.Spec.SolarFest

/-! # C94: festivals and full text of a solar date -/

open Spec SolarUtil

section

private theorem fixed_eq : FESTIVAL = fixedFestivals.map (fun p => (Lunar.md p.1.1 p.1.2, p.2)) := by decide +kernel
private theorem week_eq : WEEK_FESTIVAL = weekdayFestivals.map (fun p => (Solar.mkw p.1.1 p.1.2.1 p.1.2.2, p.2)) := by decide +kernel
private theorem keys_eq : Solar.weekFestivalKeys = weekdayFestivals.map Prod.fst := by decide +kernel

private theorem md_get (m d : ℤ) (f : PyStr) : f ∈ (pyDictGet FESTIVAL (Lunar.md m d)).toList ↔ ((m, d), f) ∈ fixedFestivals := by
  rw [Option.mem_toList, fixed_eq]
  exact Txt.dict_keys (fun k : ℤ × ℤ => Lunar.md k.1 k.2) (fun a b h => Prod.ext (Keys.md_inj h).1 (Keys.md_inj h).2)
    fixedFestivals (by decide +kernel) (m, d) f

private theorem mkw_get (m k w : ℤ) (f : PyStr) :
    f ∈ (pyDictGet WEEK_FESTIVAL (Solar.mkw m k w)).toList ↔ ((m, k, w), f) ∈ weekdayFestivals := by
  rw [Option.mem_toList, week_eq]
  exact Txt.dict_keys (fun k : ℤ × ℤ × ℤ => Solar.mkw k.1 k.2.1 k.2.2) (fun a b h => Txt.mkw_inj h)
    weekdayFestivals (by decide +kernel) (m, k, w) f

/-- the festivals on weekdays reported by name are those of the keys -/
private theorem week_names (s : Solar) (f : PyStr) :
    (f ∈ (pyDictGet WEEK_FESTIVAL (Solar.mkw s.month (pyCeilDiv s.day 7) s.getWeek)).toList ∨
      f ∈ (if s.day + 7 > getDaysOfMonth s.year s.month then (pyDictGet WEEK_FESTIVAL (Solar.mkw s.month 0 s.getWeek)).toList else [])) ↔
      ∃ m k w, (m, k, w) ∈ s.weekFestivals ∧ ((m, k, w), f) ∈ weekdayFestivals := by
  have hk : ∀ x f, (x, f) ∈ weekdayFestivals → x ∈ Solar.weekFestivalKeys := by
    intro x f h
    rw [keys_eq]
    exact List.mem_map.2 ⟨_, h, rfl⟩
  rw [mkw_get]
  have e2 : f ∈ (if s.day + 7 > getDaysOfMonth s.year s.month then (pyDictGet WEEK_FESTIVAL (Solar.mkw s.month 0 s.getWeek)).toList else []) ↔
      s.day + 7 > getDaysOfMonth s.year s.month ∧ ((s.month, 0, s.getWeek), f) ∈ weekdayFestivals := by
    split_ifs with c
    · rw [mkw_get]; simp [c]
    · simp [c]
  rw [e2]
  unfold Solar.weekFestivals
  simp only [List.mem_append]
  constructor
  · rintro (h | ⟨c, h⟩)
    · exact ⟨_, _, _, Or.inl (by rw [if_pos (hk _ _ h)]; simp), h⟩
    · exact ⟨_, _, _, Or.inr (by rw [if_pos c, if_pos (hk _ _ h)]; simp), h⟩
  · rintro ⟨m, k, w, h | h, hf⟩
    · left
      split_ifs at h
      · rw [List.mem_singleton] at h; rwa [h] at hf
      · cases h
    · right
      split_ifs at h with c1 c2
      · rw [List.mem_singleton] at h; rw [h] at hf; exact ⟨c1, hf⟩
      · cases h
      · cases h

/-- **C94** `getFestivals` reports a name exactly on the dates of that festival: its day of the year, or the k-th or last weekday of
its month -/
theorem C94_festivals (s : Solar) (hs : s.Valid) (h0 : -4712 ≤ s.year) (h1 : s.year ≤ 9999) (f : PyStr) :
    f ∈ s.getFestivals ↔ ((s.month, s.day), f) ∈ fixedFestivals ∨
      ∃ m k w, ((m, k, w), f) ∈ weekdayFestivals ∧ OnWeekday m k w s.date := by
  unfold Solar.getFestivals
  simp only [List.mem_append, or_assoc]
  rw [md_get, week_names]
  refine or_congr_right ?_
  constructor
  · rintro ⟨m, k, w, h, hf⟩
    rw [C22_week_festivals s hs h0 h1] at h
    exact ⟨m, k, w, hf, h.2.1, h.2.2.1, h.2.2.2⟩
  · rintro ⟨m, k, w, hf, h⟩
    refine ⟨m, k, w, ?_, hf⟩
    rw [C22_week_festivals s hs h0 h1, keys_eq]
    exact ⟨List.mem_map.2 ⟨_, hf, rfl⟩, h.1, h.2.1, h.2.2⟩

/-- Mother's Day 2024 is May 12, and National Day is October 1, also in 1582 -/
example : (⟨2024, 5, 12, 0, 0, 0⟩ : Solar).getFestivals = [['母', '亲', '节']] ∧
    (⟨1582, 10, 1, 0, 0, 0⟩ : Solar).getFestivals = [['国', '庆', '节'], ['世', '界', '住', '房', '日']] := by decide +kernel

private theorem other_good : Keys.Good OTHER_FESTIVAL := by decide +kernel

/-- **C94** every entry of the table of further festivals has a day of the year that exists in every year (but for the ten days left
out in 1582), and is reported on that day and, entry for entry, on no other -/
theorem C94_other : ∀ p ∈ OTHER_FESTIVAL, ∃ m d : ℤ, p.2 ≠ [] ∧
    (∀ y, y ≠ 1582 → (⟨y, m, d⟩ : Date).Valid) ∧
    (∀ s : Solar, s.getOtherFestivals = p.2 → s.month = m ∧ s.day = d) ∧
    (∀ s : Solar, s.month = m ∧ s.day = d → s.getOtherFestivals = p.2) := by
  intro p hp
  have key : ∀ p ∈ OTHER_FESTIVAL, p.2 ≠ [] ∧ 1 ≤ (Keys.parse p.1).1 ∧ (Keys.parse p.1).1 ≤ 12 ∧ 1 ≤ (Keys.parse p.1).2 ∧
      (Keys.parse p.1).2 ≤ 28 + (if (Keys.parse p.1).1 = 2 then 0 else if (Keys.parse p.1).1 ∈ [4, 6, 9, 11] then 2 else 3) ∧
      (OTHER_FESTIVAL.find? (fun q => Keys.parse q.1 = Keys.parse p.1)) = some p ∧
      ∀ q ∈ OTHER_FESTIVAL, q.2 = p.2 → Keys.parse q.1 = Keys.parse p.1 := by decide +kernel
  obtain ⟨h1, m1, m2, d1, d2, h2, h3⟩ := key p hp
  refine ⟨(Keys.parse p.1).1, (Keys.parse p.1).2, h1, ?_, ?_, ?_⟩
  · intro y hy
    refine ⟨m1, m2, d1, ?_, fun h => hy h.1⟩
    simp only [lastDay]
    generalize (Keys.parse p.1).1 = m at *
    generalize (Keys.parse p.1).2 = d at *
    simp only [List.mem_cons, List.not_mem_nil, or_false] at d2
    split_ifs at d2 ⊢ <;> omega
  · intro s e
    unfold Solar.getOtherFestivals at e
    cases hg : pyDictGet OTHER_FESTIVAL (Lunar.md s.month s.day) with
    | none => rw [hg] at e; exact absurd e.symm h1
    | some v =>
      rw [hg] at e
      obtain ⟨q, hq, e1, e2⟩ := Keys.mem_of_dict other_good hg
      have := h3 q hq (by rw [e2]; exact e)
      rw [e1] at this
      exact ⟨congrArg Prod.fst this, congrArg Prod.snd this⟩
  · rintro s ⟨e1, e2⟩
    unfold Solar.getOtherFestivals
    rw [Keys.dict_md other_good, e1, e2]
    have : (OTHER_FESTIVAL.find? (fun q => Keys.parse q.1 = ((Keys.parse p.1).1, (Keys.parse p.1).2))) = some p := h2
    rw [this]
    rfl

/-- Earth Day and the last entry of the year -/
example : (⟨2024, 4, 22, 0, 0, 0⟩ : Solar).getOtherFestivals = [['世', '界', '地', '球', '日'], ['列', '宁', '诞', '辰', '纪', '念', '日']] := by
  decide +kernel

private theorem brackets_eq (l : List PyStr) : (l.map (fun f => [' ', '('] ++ f ++ [')'])).flatten = brackets l := by
  induction l with
  | nil => rfl
  | cons f l ih => rw [List.map_cons, List.flatten_cons, ih]; simp [brackets]

theorem xingZuo_eq (s : Solar) (hs : s.Valid) : s.getXingZuo = .ok (signOn s.month s.day) := by
  have hb := Str.valid_field_bounds hs
  have h1 := hb.1; have h2 := hb.2.1; have h3 := hb.2.2.1; have h4 := hb.2.2.2
  obtain ⟨y, m, d, _, _, _⟩ := s
  simp only at h1 h2 h3 h4
  show pyIndex XING_ZUO (Solar.xingZuoIndex ⟨0, m, d, 0, 0, 0⟩) = .ok (signOn m d)
  have key : ∀ m : Fin 12, ∀ d : Fin 31, pyIndex XING_ZUO (Solar.xingZuoIndex ⟨0, (m : ℕ) + 1, (d : ℕ) + 1, 0, 0, 0⟩) =
      .ok (signOn ((m : ℕ) + 1) ((d : ℕ) + 1)) := by decide +kernel
  have := key ⟨(m - 1).toNat, by omega⟩ ⟨(d - 1).toNat, by omega⟩
  rw [show (((m - 1).toNat : ℕ) : ℤ) + 1 = m by omega, show (((d - 1).toNat : ℕ) : ℤ) + 1 = d by omega] at this
  exact this

/-- **C94** `toFullString` never fails for a valid date; it consists of the moment, the remark on leap years, the weekday, the
festivals in brackets and the sign of the zodiac -/
theorem C94_text (s : Solar) (hs : s.Valid) (h0 : -4712 ≤ s.year) (h1 : s.year ≤ 9999) :
    ∃ w : ℤ, IsWeekday w s.date ∧ s.toFullString = .ok (s.toYmdHms ++ (if Leap s.year then [' ', '闰', '年'] else []) ++
      [' ', '星', '期', weekdayName w] ++ brackets (s.getFestivals ++ s.getOtherFestivals) ++ ' ' :: (signOn s.month s.day ++ ['座'])) := by
  have hw := Cal.getWeek_dn hs h0 h1
  refine ⟨s.getWeek, (Cal.isWeekday_iff hs.1).2 hw, ?_⟩
  have ew : s.getWeekInChinese = .ok [weekdayName s.getWeek] := by
    unfold Solar.getWeekInChinese
    have h7 : 0 ≤ s.getWeek ∧ s.getWeek < 7 := by rw [hw]; omega
    have key : ∀ i : Fin 7, pyIndex WEEK ((i : ℕ) : ℤ) = .ok [weekdayName ((i : ℕ) : ℤ)] := by decide
    have := key ⟨s.getWeek.toNat, by omega⟩
    rwa [show ((s.getWeek.toNat : ℕ) : ℤ) = s.getWeek by omega] at this
  have el : s.isLeapYear = decide (Leap s.year) := by
    unfold Solar.isLeapYear
    rw [Bool.eq_iff_iff, Cal.isLeapYear_iff, decide_eq_true_eq]
  have hbr : ∀ a b : List PyStr, brackets (a ++ b) = brackets a ++ brackets b := by
    intro a b
    induction a with
    | nil => rfl
    | cons f a ih => simp [brackets, ih]
  unfold Solar.toFullString
  rw [ew, xingZuo_eq s hs, brackets_eq, brackets_eq, el, hbr]
  simp only [bind, Except.bind, pure, Except.pure, decide_eq_true_eq]
  split_ifs <;> simp

/-- **C94** the full text tells any two moments apart -/
theorem C94_distinct (s t : Solar) (hs : s.Valid) (ht : t.Valid) (hs0 : -4712 ≤ s.year) (hs1 : s.year ≤ 9999)
    (ht0 : -4712 ≤ t.year) (ht1 : t.year ≤ 9999) (h : s.toFullString = t.toFullString) : s = t := by
  obtain ⟨w, -, e⟩ := C94_text s hs hs0 hs1
  obtain ⟨w', -, e'⟩ := C94_text t ht ht0 ht1
  rw [e, e', Except.ok.injEq] at h
  unfold Solar.toYmdHms Solar.toYmd at h
  have front : ∀ (u : Solar) (w : ℤ) (X : List Char),
      (if Leap u.year then [' ', '闰', '年'] else []) ++ [' ', '星', '期', weekdayName w] ++ X =
        ' ' :: ((if Leap u.year then ['闰', '年', ' ', '星', '期', weekdayName w] else ['星', '期', weekdayName w]) ++ X) := by
    intro u w X
    split_ifs <;> simp
  simp only [List.append_assoc] at h
  simp only [← List.append_assoc (if Leap _ then _ else _)] at h
  rw [front, front] at h
  simp only [List.cons_append] at h
  obtain ⟨a1, h⟩ := Txt.fmt_sep (by decide) h
  obtain ⟨a2, h⟩ := Txt.fmt_sep (by decide) h
  obtain ⟨a3, h⟩ := Txt.fmt_sep (by decide) h
  obtain ⟨a4, h⟩ := Txt.fmt_sep (by decide) h
  obtain ⟨a5, h⟩ := Txt.fmt_sep (by decide) h
  obtain ⟨a6, h⟩ := Txt.fmt_sep (by decide) h
  obtain ⟨_, _, _, _, _, _⟩ := s
  obtain ⟨_, _, _, _, _, _⟩ := t
  simp only at a1 a2 a3 a4 a5 a6
  subst a1 a2 a3 a4 a5 a6
  rfl

/-- the text of a leap day with festivals -/
example : (⟨2024, 10, 31, 12, 5, 9⟩ : Solar).toFullString = .ok
    ['2', '0', '2', '4', '-', '1', '0', '-', '3', '1', ' ', '1', '2', ':', '0', '5', ':', '0', '9', ' ', '闰', '年', ' ', '星', '期', '四', ' ', '(', '万', '圣', '节', '前', '夜', ')', ' ', '天', '蝎', '座'] := by
  decide +kernel

end
