import Verif.Props.BuiltIn
import Verif.Proof.Texts
import Verif.Model.JieQi

/-! # C102: the texts of holidays, of the days of the Nines and of the dog days, of lunar years tell them apart -/

section
open Spec HolidayUtil Hol HData

/-- **C102** two holidays with the same text are the same, whatever the table, as long as days and names contain no space and the names do
not end like the working day mark -/
theorem C102_holidays (h k : Holiday) (h1 : ' ' ∉ h.day) (h2 : ' ' ∉ h.name) (h3 : h.name.getLast? ≠ some '休')
    (k1 : ' ' ∉ k.day) (k2 : ' ' ∉ k.name) (k3 : k.name.getLast? ≠ some '休') : h.toString = k.toString ↔ h = k := by
  refine ⟨fun e => ?_, fun e => by rw [e]⟩
  unfold Holiday.toString at e
  have e : h.day ++ ' ' :: ((h.name ++ (if h.work then ['调', '休'] else [])) ++ ' ' :: h.target) =
      k.day ++ ' ' :: ((k.name ++ (if k.work then ['调', '休'] else [])) ++ ' ' :: k.target) := by
    simpa only [List.append_assoc, List.cons_append, List.nil_append] using e
  obtain ⟨e1, e2⟩ := Txt.sep_inj h1 k1 e
  have no : ∀ (n : PyStr) (w : Bool), ' ' ∉ n → ' ' ∉ n ++ (if w then ['调', '休'] else []) := by
    intro n w hn hc
    rcases List.mem_append.1 hc with c | c
    · exact hn c
    · cases w <;> simp at c
  obtain ⟨e3, e4⟩ := Txt.sep_inj (no _ _ h2) (no _ _ k2) e2
  have last : ∀ n : PyStr, (n ++ ['调', '休']).getLast? = some '休' := fun n => by simp
  obtain ⟨hd, hn, hw, ht⟩ := h
  obtain ⟨kd, kn, kw, kt⟩ := k
  simp only at e1 e3 e4 h3 k3
  subst e1 e4
  cases hw <;> cases kw
  · simpa using e3
  · simp only [Bool.false_eq_true, if_false, if_true, List.append_nil] at e3
    exact absurd (by rw [e3]; exact last _) h3
  · simp only [Bool.false_eq_true, if_false, if_true, List.append_nil] at e3
    exact absurd (by rw [← e3]; exact last _) k3
  · simpa using e3

private theorem digit_ne (n : ℤ) : digitCh n ≠ ' ' ∧ digitCh n ≠ '-' := by
  have : ∀ k : ℕ, k < 10 → Char.ofNat (48 + k) ≠ ' ' ∧ Char.ofNat (48 + k) ≠ '-' := by decide
  exact this _ (by omega)

private theorem day_inj {a b : Date} (ha : a.Valid) (hb : b.Valid) (a0 : 1000 ≤ a.y) (a1 : a.y ≤ 9999) (b0 : 1000 ≤ b.y) (b1 : b.y ≤ 9999)
    (h : dashed (ymd8 a.y a.m a.d) = dashed (ymd8 b.y b.m b.d)) : a = b := by
  refine Work.ymd8_inj ha hb a0 a1 b0 b1 ?_
  rw [← replace_dashed (s := ymd8 a.y a.m a.d), h, replace_dashed]
  all_goals
    unfold ymd8
    simp [(digit_ne _).2.symm]

/-- **C102** with the built-in data the text tells the day -/
theorem C102_holiday_of_day (x y : Date) (h k : Holiday) (hx : OnDay x h) (hy : OnDay y k) : h.toString = k.toString ↔ x = y := by
  constructor
  · intro e
    obtain ⟨-, -, a1, -⟩ := C101_data x h hx
    obtain ⟨-, -, b1, -⟩ := C101_data y k hy
    have no : ∀ z : Date, ' ' ∉ dashed (ymd8 z.y z.m z.d) := by
      intro z
      unfold dashed ymd8
      simp [(digit_ne _).1.symm]
    have e : h.day ++ ' ' :: ((h.name ++ (if h.work then ['调', '休'] else [])) ++ ' ' :: h.target) =
        k.day ++ ' ' :: ((k.name ++ (if k.work then ['调', '休'] else [])) ++ ' ' :: k.target) := by
      unfold Holiday.toString at e
      simpa only [List.append_assoc, List.cons_append, List.nil_append] using e
    have := (Txt.sep_inj (by rw [a1]; exact no x) (by rw [b1]; exact no y) e).1
    rw [a1, b1] at this
    exact day_inj hx.1 hy.1 hx.2.1 hx.2.2.1 hy.2.1 hy.2.2.1 this
  · rintro rfl
    have := hx.2.2.2.symm.trans hy.2.2.2
    simp only [Except.ok.injEq, Option.some.injEq] at this
    rw [this]

private theorem nth_inj {p q : PyStr × ℤ} (hp : '第' ∉ p.1) (hq : '第' ∉ q.1) (h : nthDayText p = nthDayText q) : p = q := by
  unfold nthDayText at h
  simp only [List.append_assoc, List.singleton_append] at h
  obtain ⟨e1, e2⟩ := Txt.sep_inj hp hq h
  obtain ⟨e3, -⟩ := Txt.str_sep (c := '天') (by decide) e2
  exact Prod.ext e1 e3

private theorem bind_ok {α β : Type} {a : Except PyErr α} {f : α → Except PyErr β} {b : β} (h : a >>= f = .ok b) : ∃ x, a = .ok x ∧ f x = .ok b := by
  cases a with
  | error e => exact absurd h (by intro c; cases c)
  | ok x => exact ⟨x, rfl, h⟩

private theorem index_mem {α : Type} {L : List α} {i : ℤ} {x : α} (h : pyIndex L i = .ok x) : x ∈ L := by
  unfold pyIndex at h
  dsimp only at h
  split_ifs at h <;> split at h
  all_goals first
    | (rename_i e; cases h; exact List.mem_of_getElem? e)
    | cases h

private theorem nine_name {l : Lunar} {p : PyStr × ℤ} (h : l.getShuJiu = .ok (some p)) : ∃ n ∈ LunarUtil.NUMBER, p.1 = n ++ ['九'] := by
  unfold Lunar.getShuJiu at h
  obtain ⟨c, -, h⟩ := bind_ok h
  obtain ⟨_, -, h⟩ := bind_ok h
  obtain ⟨_, -, h⟩ := bind_ok h
  have tail : ∀ start : Solar, (do
      let end_ ← Solar.fromYmd start.year start.month start.day
      let end_ ← end_.next 81
      if c.isBefore start || !c.isBefore end_ then return none
      else
        let days ← c.subtract start
        let name ← pyIndex LunarUtil.NUMBER (days.tdiv 9 + 1)
        return some (name ++ ['九'], days % 9 + 1)) = Except.ok (ε := PyErr) (some p) → ∃ n ∈ LunarUtil.NUMBER, p.1 = n ++ ['九'] := by
    intro start h
    obtain ⟨_, -, h⟩ := bind_ok h
    obtain ⟨_, -, h⟩ := bind_ok h
    split_ifs at h
    · cases h
    · obtain ⟨d, -, h⟩ := bind_ok h
      obtain ⟨n, e, h⟩ := bind_ok h
      have : some (n ++ ['九'], d % 9 + 1) = some p := Except.ok.inj h
      rw [← Option.some.inj this]
      exact ⟨n, index_mem e, rfl⟩
  dsimp only at h
  split at h
  · obtain ⟨_, -, h⟩ := bind_ok h
    obtain ⟨_, -, h⟩ := bind_ok h
    exact tail _ h
  · exact tail _ h

private theorem number_char : ∀ n ∈ LunarUtil.NUMBER, '第' ∉ n ++ ['九'] := by decide

/-- **C102** the days of the Nines: same text exactly when the same day of the same period of nine -/
theorem C102_nines (l l' : Lunar) (p q : PyStr × ℤ) (hp : l.getShuJiu = .ok (some p)) (hq : l'.getShuJiu = .ok (some q)) :
    nthDayText p = nthDayText q ↔ p = q := by
  refine ⟨fun e => nth_inj ?_ ?_ e, fun e => by rw [e]⟩
  · obtain ⟨n, hn, e⟩ := nine_name hp
    rw [e]
    exact number_char n hn
  · obtain ⟨n, hn, e⟩ := nine_name hq
    rw [e]
    exact number_char n hn

private theorem dog_name {A : Astro} {l : Lunar} {p : PyStr × ℤ} (h : l.getFu A = .ok (some p)) :
    p.1 = ['初', '伏'] ∨ p.1 = ['中', '伏'] ∨ p.1 = ['末', '伏'] := by
  unfold Lunar.getFu at h
  obtain ⟨_, -, h⟩ := bind_ok h
  obtain ⟨_, -, h⟩ := bind_ok h
  obtain ⟨_, -, h⟩ := bind_ok h
  obtain ⟨_, -, h⟩ := bind_ok h
  obtain ⟨_, -, h⟩ := bind_ok h
  dsimp only at h
  obtain ⟨_, -, h⟩ := bind_ok h
  have fin : ∀ {a : PyStr} {b : ℤ} {P : Prop}, (pure (some (a, b)) : Except PyErr (Option (PyStr × ℤ))) = .ok (some p) → (p.1 = a → P) → P := by
    intro a b P h hP
    have := Option.some.inj (Except.ok.inj h)
    exact hP (by rw [← this])
  split_ifs at h
  · cases h
  · obtain ⟨_, -, h⟩ := bind_ok h
    split_ifs at h
    · exact fin h Or.inl
    · obtain ⟨_, -, h⟩ := bind_ok h
      obtain ⟨_, -, h⟩ := bind_ok h
      split_ifs at h
      · exact fin h (fun e => Or.inr (Or.inl e))
      · obtain ⟨_, -, h⟩ := bind_ok h
        obtain ⟨_, -, h⟩ := bind_ok h
        obtain ⟨_, -, h⟩ := bind_ok h
        split_ifs at h
        · exact fin h (fun e => Or.inr (Or.inl e))
        · obtain ⟨_, -, h⟩ := bind_ok h
          obtain ⟨_, -, h⟩ := bind_ok h
          split_ifs at h
          · exact fin h (fun e => Or.inr (Or.inr e))
          · cases h
        · exact fin h (fun e => Or.inr (Or.inr e))
        · cases h

/-- **C102** the dog days: same text exactly when the same day of the same period; and none of them has the text of a day of the Nines -/
theorem C102_dog_days (A : Astro) (l l' : Lunar) (p q : PyStr × ℤ) (hp : l.getFu A = .ok (some p)) (hq : l'.getFu A = .ok (some q)) :
    (nthDayText p = nthDayText q ↔ p = q) ∧ ∀ (l'' : Lunar) (r : PyStr × ℤ), l''.getShuJiu = .ok (some r) → nthDayText p ≠ nthDayText r := by
  have no : ∀ {p : PyStr × ℤ}, (p.1 = ['初', '伏'] ∨ p.1 = ['中', '伏'] ∨ p.1 = ['末', '伏']) → '第' ∉ p.1 := by
    rintro p (e | e | e) <;> rw [e] <;> decide
  refine ⟨⟨fun e => nth_inj (no (dog_name hp)) (no (dog_name hq)) e, fun e => by rw [e]⟩, fun l'' r hr e => ?_⟩
  obtain ⟨n, hn, en⟩ := nine_name hr
  have := congrArg Prod.fst (nth_inj (no (dog_name hp)) (by rw [en]; exact number_char n hn) e)
  rw [en] at this
  have last : (n ++ ['九']).getLast? = some '九' := by simp
  rw [← this] at last
  rcases dog_name hp with c | c | c <;> rw [c] at last <;> exact absurd last (by decide)

/-- **C102** lunar years: same text, short or full, exactly when the same year -/
theorem C102_lunar_years (a b : LunarYear) :
    (a.toString = b.toString ↔ a.year = b.year) ∧ (a.toFullString = b.toFullString ↔ a.year = b.year) := by
  refine ⟨⟨fun e => Keys.strInt_inj e, fun e => by unfold LunarYear.toString; rw [e]⟩,
    ⟨fun e => (Txt.str_sep (c := '年') (by decide) e).1, fun e => by unfold LunarYear.toFullString; rw [e]⟩⟩

/-- cases -/
example : nthDayText (['一', '九'], 3) = "一九第3天".toList ∧ nthDayText (['中', '伏'], 12) = "中伏第12天".toList := by decide

example : Holiday.toString ⟨"2020-01-19".toList, "春节".toList, true, "2020-01-25".toList⟩ = "2020-01-19 春节调休 2020-01-25".toList := by
  decide

end
