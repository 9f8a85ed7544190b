import Verif.Model.LunarDay
import Mathlib.Tactic.Linarith

/-! # Keys `"%d-%d"` of the festival tables -/

namespace Keys

theorem digits_inj {a b : ℕ} (h : Nat.toDigits 10 a = Nat.toDigits 10 b) : a = b := by
  rw [← @Nat.ofDigitChars_ten_toDigits a, ← @Nat.ofDigitChars_ten_toDigits b, h]

theorem dash_not_mem (n : ℕ) : '-' ∉ Nat.toDigits 10 n := by
  intro h
  have := Nat.isDigit_of_mem_toDigits (by decide) (by decide) h
  exact absurd this (by decide)

theorem strInt_nonneg {n : ℤ} (h : 0 ≤ n) : pyStrInt n = Nat.toDigits 10 n.natAbs := by
  unfold pyStrInt fmtD padZero
  rw [if_neg (by omega)]
  simp

theorem strInt_neg {n : ℤ} (h : n < 0) : pyStrInt n = '-' :: Nat.toDigits 10 n.natAbs := by
  unfold pyStrInt fmtD padZero
  rw [if_pos h]
  simp

theorem digits_head (n : ℕ) (t : List Char) : Nat.toDigits 10 n ≠ '-' :: t := by
  intro h
  exact dash_not_mem n (by rw [h]; simp)

theorem strInt_inj {a b : ℤ} (h : pyStrInt a = pyStrInt b) : a = b := by
  rcases lt_or_ge a 0 with ha | ha <;> rcases lt_or_ge b 0 with hb | hb
  · rw [strInt_neg ha, strInt_neg hb, List.cons_inj_right] at h
    have := digits_inj h
    omega
  · rw [strInt_neg ha, strInt_nonneg hb] at h
    exact absurd h.symm (digits_head _ _)
  · rw [strInt_nonneg ha, strInt_neg hb] at h
    exact absurd h (digits_head _ _)
  · rw [strInt_nonneg ha, strInt_nonneg hb] at h
    have := digits_inj h
    omega

/-- two lists without the separator, the separator, two rests -/
theorem sep_inj {x y s t : List Char} (hx : '-' ∉ x) (hy : '-' ∉ y) (h : x ++ '-' :: s = y ++ '-' :: t) : x = y ∧ s = t := by
  induction x generalizing y with
  | nil =>
    cases y with
    | nil => simpa using h
    | cons c y => simp only [List.nil_append, List.cons_append, List.cons.injEq] at h; exact absurd h.1 (by simp at hy; tauto)
  | cons c x ih =>
    cases y with
    | nil => simp only [List.nil_append, List.cons_append, List.cons.injEq] at h; exact absurd h.1.symm (by simp at hx; tauto)
    | cons e y =>
      simp only [List.cons_append, List.cons.injEq] at h
      simp only [List.mem_cons, not_or] at hx hy
      obtain ⟨h1, h2⟩ := ih hx.2 hy.2 h.2
      exact ⟨by rw [h.1, h1], h2⟩

/-- the keys tell the pairs apart -/
theorem md_inj {a b c d : ℤ} (h : Lunar.md a b = Lunar.md c d) : a = c ∧ b = d := by
  unfold Lunar.md at h
  have key : pyStrInt a = pyStrInt c ∧ pyStrInt b = pyStrInt d := by
    rcases lt_or_ge a 0 with ha | ha <;> rcases lt_or_ge c 0 with hc | hc
    · rw [strInt_neg ha, strInt_neg hc, List.cons_append, List.cons_append, List.cons_inj_right] at h
      obtain ⟨h1, h2⟩ := sep_inj (dash_not_mem _) (dash_not_mem _) h
      exact ⟨by rw [strInt_neg ha, strInt_neg hc, h1], h2⟩
    · rw [strInt_neg ha, strInt_nonneg hc, List.cons_append] at h
      cases hd : Nat.toDigits 10 c.natAbs with
      | nil => exact absurd hd Nat.toDigits_ne_nil
      | cons e t =>
        rw [hd, List.cons_append, List.cons.injEq] at h
        exact absurd hd (by rw [← h.1]; exact digits_head _ _)
    · rw [strInt_nonneg ha, strInt_neg hc, List.cons_append] at h
      cases hd : Nat.toDigits 10 a.natAbs with
      | nil => exact absurd hd Nat.toDigits_ne_nil
      | cons e t =>
        rw [hd, List.cons_append, List.cons.injEq] at h
        exact absurd hd (by rw [h.1]; exact digits_head _ _)
    · rw [strInt_nonneg ha, strInt_nonneg hc] at h
      obtain ⟨h1, h2⟩ := sep_inj (dash_not_mem _) (dash_not_mem _) h
      exact ⟨by rw [strInt_nonneg ha, strInt_nonneg hc, h1], h2⟩
  exact ⟨strInt_inj key.1, strInt_inj key.2⟩

/-- month and day of a key -/
def parse (s : PyStr) : ℤ × ℤ :=
  let num (t : PyStr) : ℤ := t.foldl (fun a c => 10 * a + ((c.toNat : ℤ) - 48)) 0
  (num (s.takeWhile (· ≠ '-')), num ((s.dropWhile (· ≠ '-')).drop 1))

/-- all keys of a table are such keys -/
def Good {β : Type} (T : List (PyStr × β)) : Prop := ∀ p ∈ T, Lunar.md (parse p.1).1 (parse p.1).2 = p.1

theorem md_eq_key {s : PyStr} (h : Lunar.md (parse s).1 (parse s).2 = s) (m d : ℤ) : s = Lunar.md m d ↔ parse s = (m, d) := by
  constructor
  · intro e
    rw [e] at h
    obtain ⟨h1, h2⟩ := md_inj h
    rw [e]
    exact Prod.ext h1 h2
  · intro e
    rw [← h, e]

/-- a lookup by key is a lookup by month and day -/
theorem dict_md {β : Type} {T : List (PyStr × β)} (hT : Good T) (m d : ℤ) :
    pyDictGet T (Lunar.md m d) = (T.find? (fun p => parse p.1 = (m, d))).map Prod.snd := by
  unfold pyDictGet
  congr 1
  induction T with
  | nil => rfl
  | cons p T ih =>
    have h1 := md_eq_key (hT p (by simp)) m d
    have h2 := ih (fun q hq => hT q (by simp [hq]))
    rw [List.find?_cons, List.find?_cons, h2]
    by_cases c : parse p.1 = (m, d)
    · rw [show (p.1 == Lunar.md m d) = true by simpa using h1.mpr c, show decide (parse p.1 = (m, d)) = true by simpa using c]
    · rw [show (p.1 == Lunar.md m d) = false by simpa using fun e => c (h1.mp e), show decide (parse p.1 = (m, d)) = false by simpa using c]

theorem mem_of_dict {β : Type} {T : List (PyStr × β)} (hT : Good T) {m d : ℤ} {v : β}
    (h : pyDictGet T (Lunar.md m d) = some v) : ∃ p ∈ T, parse p.1 = (m, d) ∧ p.2 = v := by
  rw [dict_md hT, Option.map_eq_some_iff] at h
  obtain ⟨p, hp, e⟩ := h
  refine ⟨p, List.mem_of_find?_eq_some hp, ?_, e⟩
  simpa using List.find?_some hp

instance {β : Type} (T : List (PyStr × β)) : Decidable (Good T) := by unfold Good; infer_instance

end Keys
