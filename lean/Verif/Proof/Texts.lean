import Verif.Model.Texts
import Verif.Proof.Keys

/-! # Reading texts back: numbers up to a separator, lookups by keys -/

namespace Txt

/-- two lists without the separator, the separator, two rests -/
theorem sep_inj {c : Char} {x y s t : List Char} (hx : c ∉ x) (hy : c ∉ y) (h : x ++ c :: s = y ++ c :: t) : x = y ∧ s = t := by
  induction x generalizing y with
  | nil =>
    cases y with
    | nil => simpa using h
    | cons e y => simp only [List.nil_append, List.cons_append, List.cons.injEq] at h; exact absurd h.1 (by simp at hy; tauto)
  | cons d x ih =>
    cases y with
    | nil => simp only [List.nil_append, List.cons_append, List.cons.injEq] at h; exact absurd h.1.symm (by simp at hx; tauto)
    | cons e y =>
      simp only [List.cons_append, List.cons.injEq] at h
      simp only [List.mem_cons, not_or] at hx hy
      obtain ⟨h1, h2⟩ := ih hx.2 hy.2 h.2
      exact ⟨by rw [h.1, h1], h2⟩

theorem pad_digit {w n : ℕ} {c : Char} (h : c ∈ padZero w (Nat.toDigits 10 n)) : c.isDigit = true := by
  unfold padZero at h
  rw [List.mem_append] at h
  rcases h with h | h
  · rw [List.eq_of_mem_replicate h]; decide
  · exact Nat.isDigit_of_mem_toDigits (by decide) (by decide) h

theorem ofDigits_zeros (k : ℕ) (l : List Char) : Nat.ofDigitChars 10 (List.replicate k '0' ++ l) 0 = Nat.ofDigitChars 10 l 0 := by
  induction k with
  | zero => simp
  | succ k ih => rw [List.replicate_succ, List.cons_append, Nat.ofDigitChars_cons]; simpa using ih

theorem pad_inj {w a b : ℕ} (h : padZero w (Nat.toDigits 10 a) = padZero w (Nat.toDigits 10 b)) : a = b := by
  have := congrArg (fun l => Nat.ofDigitChars 10 l 0) h
  simpa only [padZero, ofDigits_zeros, Nat.ofDigitChars_ten_toDigits] using this

/-- a formatted number followed by something that is no digit can be read back -/
theorem fmt_sep {w : ℕ} {c : Char} (hc : c.isDigit = false) {a b : ℤ} {s t : List Char}
    (h : fmtD w a ++ c :: s = fmtD w b ++ c :: t) : a = b ∧ s = t := by
  have nd : ∀ (w n : ℕ), c ∉ padZero w (Nat.toDigits 10 n) := fun w n hm => by rw [pad_digit hm] at hc; cases hc
  have hd : ∀ (w n : ℕ) (s t : List Char), '-' :: s ≠ padZero w (Nat.toDigits 10 n) ++ c :: t := by
    intro w n s t e
    cases hp : padZero w (Nat.toDigits 10 n) with
    | nil =>
      unfold padZero at hp
      exact absurd (List.append_eq_nil_iff.1 hp).2 Nat.toDigits_ne_nil
    | cons d r =>
      have := pad_digit (w := w) (n := n) (c := d) (by rw [hp]; simp)
      rw [hp, List.cons_append, List.cons.injEq] at e
      rw [← e.1] at this
      revert this; decide
  unfold fmtD at h
  split_ifs at h with h1 h2 h2
  · rw [List.cons_append, List.cons_append, List.cons_inj_right] at h
    obtain ⟨e1, e2⟩ := sep_inj (nd _ _) (nd _ _) h
    exact ⟨by have := pad_inj e1; omega, e2⟩
  · rw [List.cons_append] at h
    exact absurd h (hd _ _ _ _)
  · rw [List.cons_append] at h
    exact absurd h.symm (hd _ _ _ _)
  · obtain ⟨e1, e2⟩ := sep_inj (nd _ _) (nd _ _) h
    exact ⟨by have := pad_inj e1; omega, e2⟩

theorem str_sep {c : Char} (hc : c.isDigit = false) {a b : ℤ} {s t : List Char}
    (h : pyStrInt a ++ c :: s = pyStrInt b ++ c :: t) : a = b ∧ s = t := fmt_sep hc h

theorem fmt_inj {w : ℕ} {a b : ℤ} (h : fmtD w a = fmtD w b) : a = b :=
  (fmt_sep (c := ' ') (by decide) (s := []) (t := []) (by rw [h])).1

theorem mkw_inj {a b c a' b' c' : ℤ} (h : Solar.mkw a b c = Solar.mkw a' b' c') : (a, b, c) = (a', b', c') := by
  unfold Solar.mkw at h
  obtain ⟨e1, h1⟩ := str_sep (by decide) h
  obtain ⟨e2, h2⟩ := str_sep (by decide) h1
  rw [e1, e2, Keys.strInt_inj h2]

/-- lookup in a table all of whose keys are texts of keys of another kind -/
theorem dict_keys {κ β : Type} [DecidableEq κ] (f : κ → PyStr) (hf : ∀ a b, f a = f b → a = b) (L : List (κ × β))
    (hL : (L.map Prod.fst).Nodup) (k : κ) (v : β) :
    pyDictGet (L.map (fun p => (f p.1, p.2))) (f k) = some v ↔ (k, v) ∈ L := by
  unfold pyDictGet
  rw [Option.map_eq_some_iff]
  induction L with
  | nil => simp
  | cons p L ih =>
    rw [List.map_cons, List.nodup_cons] at hL
    rw [List.map_cons, List.find?_cons]
    by_cases c : p.1 = k
    · rw [show ((f p.1, p.2).1 == f k) = true by simp [c]]
      constructor
      · rintro ⟨q, hq, rfl⟩
        simp only [Option.some.injEq] at hq
        rw [← hq, ← c]; simp
      · intro h
        rcases List.mem_cons.1 h with e | e
        · exact ⟨_, rfl, by rw [← e]⟩
        · exact absurd (List.mem_map.2 ⟨_, e, rfl⟩) (by rw [← c] ; exact hL.1)
    · rw [show ((f p.1, p.2).1 == f k) = false by simpa using fun e => c (hf _ _ e)]
      simp only
      rw [ih hL.2, List.mem_cons]
      constructor
      · exact Or.inr
      · rintro (e | e)
        · exact absurd (by rw [← e]) c
        · exact e

end Txt
