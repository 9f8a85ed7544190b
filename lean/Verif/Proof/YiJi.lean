import Verif.Model.YiJi
import Verif.Proof.Holiday

/-! # Searching a packed text -/

namespace YiJi
open LunarUtil

/-- keys and bodies put together -/
def text (R : List (PyStr × PyStr)) : PyStr := (R.map fun r => r.1 ++ '=' :: r.2).flatten

/-- keys of length `k`; the separator nowhere else -/
def Good (k : ℕ) (R : List (PyStr × PyStr)) : Prop := ∀ r ∈ R, r.1.length = k ∧ '=' ∉ r.1 ∧ '=' ∉ r.2

theorem text_cons (r : PyStr × PyStr) (R : List (PyStr × PyStr)) : text (r :: R) = r.1 ++ '=' :: (r.2 ++ text R) := by
  simp [text]

theorem Good.tail {k : ℕ} {r : PyStr × PyStr} {R : List (PyStr × PyStr)} (h : Good k (r :: R)) : Good k R :=
  fun q hq => h q (by simp [hq])

/-- skip a stretch in which no match starts -/
theorem find_skip {key a s : PyStr} (h : ∀ j < a.length, ¬ key <+: (a ++ s).drop j) :
    pyFind key (a ++ s) = (pyFind key s).map (· + a.length) := by
  induction a with
  | nil => simp
  | cons c a ih =>
    rw [List.cons_append, pyFind]
    have h0 := h 0 (by simp)
    rw [if_neg (by rw [List.isPrefixOf_iff_prefix]; simpa using h0), ih]
    · cases pyFind key s with
      | none => rfl
      | some i => simp only [Option.map_some, List.length_cons, Option.some.injEq]; omega
    · intro j hj
      have := h (j + 1) (by simpa using hj)
      simpa using this

theorem find_here {key s : PyStr} (h : key <+: s) : pyFind key s = some 0 := by
  cases s with
  | nil => rw [List.prefix_nil] at h; subst h; rfl
  | cons c s => rw [pyFind, if_pos (by rw [List.isPrefixOf_iff_prefix]; exact h)]

theorem find_none {key s : PyStr} {c : Char} (hc : c ∈ key) (hs : c ∉ s) : pyFind key s = none := by
  cases h : pyFind key s with
  | none => rfl
  | some i =>
    exfalso
    have := (Hol.pyFind_some h).1
    exact hs (List.mem_of_mem_drop (this.subset hc))

theorem find_sep {c : Char} {a s : PyStr} (h : c ∉ a) : pyFind [c] (a ++ c :: s) = some a.length := by
  rw [find_skip, find_here (by simp)]
  · simp
  · intro j hj hp
    have : (a ++ c :: s).drop j = a.drop j ++ c :: s := List.drop_append_of_le_length hj.le
    rw [this, List.drop_eq_getElem_cons hj] at hp
    simp only [List.cons_append, List.cons_prefix_cons, List.nil_prefix, and_true] at hp
    exact h (hp ▸ List.getElem_mem hj)

/-- a match of `K=` that starts no later than the first separator is the first key -/
theorem match_pos {K pre K' t : PyStr} {j : ℕ} (hl : K'.length = K.length) (hK : '=' ∉ K) (hp : '=' ∉ pre) (hK' : '=' ∉ K')
    (hj : j ≤ pre.length + K.length) (h : K ++ ['='] <+: (pre ++ (K' ++ '=' :: t)).drop j) : j = pre.length ∧ K = K' := by
  obtain ⟨u, hu⟩ := h
  have get : ∀ i ≤ K.length, (pre ++ (K' ++ '=' :: t))[j + i]? = (K ++ ['='])[i]? := by
    intro i hi
    rw [← List.getElem?_drop, ← hu, List.getElem?_append_left (by simp; omega)]
  have atP : (pre ++ (K' ++ '=' :: t))[pre.length + K.length]? = some '=' := by
    rw [List.getElem?_append_right (by omega), List.getElem?_append_right (by omega)]
    simp [hl]
  have before : ∀ q < pre.length + K.length, (pre ++ (K' ++ '=' :: t))[q]? ≠ some '=' := by
    intro q hq e
    by_cases c : q < pre.length
    · rw [List.getElem?_append_left c] at e
      exact hp (List.mem_of_getElem? e)
    · rw [List.getElem?_append_right (by omega), List.getElem?_append_left (by omega)] at e
      exact hK' (List.mem_of_getElem? e)
  have e1 := get K.length le_rfl
  rw [List.getElem?_append_right le_rfl] at e1
  simp only [Nat.sub_self, List.getElem?_cons_zero] at e1
  have j1 : ¬ j + K.length < pre.length + K.length := fun hlt => before _ hlt e1
  have j2 : ¬ pre.length < j := by
    intro hlt
    have := get (pre.length + K.length - j) (by omega)
    rw [show j + (pre.length + K.length - j) = pre.length + K.length by omega, atP,
      List.getElem?_append_left (by omega)] at this
    exact hK (List.mem_of_getElem? this.symm)
  have ej : j = pre.length := by omega
  refine ⟨ej, ?_⟩
  subst ej
  rw [List.drop_left] at hu
  simp only [List.append_assoc] at hu
  exact (List.append_inj hu hl.symm).1

/-- `find` of a key with the separator finds the first record with that key -/
theorem find_key {k : ℕ} {K : PyStr} (hl : K.length = k) (hK : '=' ∉ K) :
    ∀ (R : List (PyStr × PyStr)) (pre : PyStr), Good k R → '=' ∉ pre →
    (∃ R1 b R2, R = R1 ++ (K, b) :: R2 ∧ (∀ r ∈ R1, r.1 ≠ K) ∧
      ∃ i, pyFind (K ++ ['=']) (pre ++ text R) = some i ∧ (pre ++ text R).drop (i + (k + 1)) = b ++ text R2) ∨
    ((∀ r ∈ R, r.1 ≠ K) ∧ pyFind (K ++ ['=']) (pre ++ text R) = none)
  | [], pre, _, hp => .inr ⟨by simp, find_none (c := '=') (by simp) (by simpa [text] using hp)⟩
  | (K', b) :: R, pre, hR, hp => by
    obtain ⟨h1, h2, h3⟩ := hR (K', b) (by simp)
    dsimp only at h1 h2 h3
    rw [text_cons]
    dsimp only
    by_cases e : K' = K
    · subst e
      left
      refine ⟨[], b, R, rfl, by simp, pre.length, ?_, ?_⟩
      · rw [find_skip, find_here ⟨b ++ text R, by simp⟩]
        · simp
        · intro j hj hm
          have := (match_pos rfl hK hp hK (by omega) hm).1
          omega
      · rw [← h1, show pre ++ (K' ++ '=' :: (b ++ text R)) = (pre ++ (K' ++ ['='])) ++ (b ++ text R) by simp]
        rw [List.drop_left' (by simp)]
    · have no : ∀ j ≤ pre.length + k, ¬ K ++ ['='] <+: (pre ++ (K' ++ '=' :: (b ++ text R))).drop j := by
        intro j hj hm
        exact e ((match_pos (by omega) hK hp h2 (by omega) hm).2).symm
      have step : pyFind (K ++ ['=']) (pre ++ (K' ++ '=' :: (b ++ text R))) =
          (pyFind (K ++ ['=']) (b ++ text R)).map (· + (pre.length + k + 1)) := by
        have := find_skip (key := K ++ ['=']) (a := pre ++ (K' ++ ['='])) (s := b ++ text R) (by
          intro j hj
          have := no j (by simp at hj; omega)
          simpa using this)
        simpa [h1, Nat.add_assoc] using this
      rcases find_key hl hK R b hR.tail h3 with ⟨R1, b', R2, q1, q2, i, q3, q4⟩ | ⟨q1, q2⟩
      · left
        refine ⟨(K', b) :: R1, b', R2, by rw [q1]; rfl, ?_, i + (pre.length + k + 1), by rw [step, q3]; rfl, ?_⟩
        · intro r hr
          rcases List.mem_cons.1 hr with rfl | hr
          · exact e
          · exact q2 r hr
        · rw [show pre ++ (K' ++ '=' :: (b ++ text R)) = (pre ++ (K' ++ ['='])) ++ (b ++ text R) by simp]
          rw [List.drop_append, List.drop_eq_nil_of_le (by simp; omega), List.nil_append]
          rw [show i + (pre.length + k + 1) + (k + 1) - (pre ++ (K' ++ ['='])).length = i + (k + 1) by simp; omega]
          exact q4
      · right
        refine ⟨?_, by rw [step, q2]; rfl⟩
        intro r hr
        rcases List.mem_cons.1 hr with rfl | hr
        · exact e
        · exact q1 r hr

/-- cutting before the next key leaves the body -/
theorem upToKey_text {k : ℕ} {R : List (PyStr × PyStr)} (hR : Good k R) {b : PyStr} (hb : '=' ∉ b) :
    upToKey (b ++ text R) k = b := by
  unfold upToKey
  cases R with
  | nil =>
    have : pyFind ['='] (b ++ text []) = none := find_none (c := '=') (by simp) (by simpa [text] using hb)
    rw [this]
    simp [text]
  | cons r R =>
    obtain ⟨h1, h2, h3⟩ := hR r (by simp)
    have : pyFind ['='] (b ++ text (r :: R)) = some (b.length + k) := by
      rw [text_cons, show b ++ (r.1 ++ '=' :: (r.2 ++ text R)) = (b ++ r.1) ++ '=' :: (r.2 ++ text R) by simp]
      rw [find_sep (by simp [hb, h2])]
      simp [h1]
    unfold pyFindI
    rw [this]
    simp only [Option.isSome_some, if_true, pySlice]
    rw [if_neg (by omega), if_neg (by omega)]
    rw [show ((b.length + k : ℕ) : ℤ) - (k : ℤ) - 0 = (b.length : ℕ) by push_cast; ring]
    simp

/-- the months of a record of the day table include a month -/
def hasMonth (b month : PyStr) : Bool := (pairs (pySlice b 0 (pyFindI [':'] b))).any (· == month)

/-- the search of the day table finds the first record with the day and the month -/
theorem dayRecord_eq {day month : PyStr} (hl : day.length = 2) (hd : '=' ∉ day) (n : ℕ) :
    ∀ (R : List (PyStr × PyStr)) (pre : PyStr), R.length ≤ n → Good 2 R → '=' ∉ pre →
    dayRecord day month (pre ++ text R) = (R.find? (fun r => r.1 = day ∧ hasMonth r.2 month)).map Prod.snd := by
  induction n with
  | zero =>
    intro R pre hn hR hp
    obtain rfl : R = [] := List.eq_nil_of_length_eq_zero (by omega)
    rw [dayRecord]
    split
    · simp
    · rename_i i h
      have : pyFind (day ++ ['=']) (pre ++ text []) = none := find_none (c := '=') (by simp) (by simpa [text] using hp)
      rw [this] at h
      cases h
  | succ n ih =>
    intro R pre hn hR hp
    rw [dayRecord]
    rcases find_key hl hd R pre hR hp with ⟨R1, b, R2, e, h1, i, h2, h3⟩ | ⟨h1, h2⟩
    · have hskip : ∀ q, R.find? q = (R1.find? q).or (((day, b) :: R2).find? q) := fun q => by rw [e, List.find?_append]
      have hnone : R1.find? (fun r => decide (r.1 = day ∧ hasMonth r.2 month = true)) = none := by
        rw [List.find?_eq_none]
        intro r hr
        simp [h1 r hr]
      have g2 : Good 2 ((day, b) :: R2) := fun r hr => hR r (by rw [e]; exact List.mem_append_right _ hr)
      have hb := (g2 (day, b) (by simp)).2.2
      have e2 : R.length = R1.length + (R2.length + 1) := by rw [e]; simp
      split
      · rename_i h; rw [h2] at h; cases h
      · rename_i i' h
        rw [h2] at h
        cases h
        have up : upToKey (b ++ text R2) 2 = b := upToKey_text g2.tail hb
        dsimp only
        rw [h3, up, hskip, hnone, Option.none_or, List.find?_cons]
        dsimp only
        rw [show ((pairs (pySlice b 0 (pyFindI [':'] b))).any fun x => x == month) = hasMonth b month from rfl]
        by_cases c : hasMonth b month = true
        · rw [if_pos c]
          simp [c]
        · rw [if_neg c, ih R2 b (by omega) g2.tail hb]
          simp [c]
    · split
      · rw [List.find?_eq_none.2]
        · rfl
        · intro r hr
          simp [h1 r hr]
      · rename_i i' h
        rw [h2] at h
        cases h

/-- the search of the other two tables -/
theorem record_eq {k : ℕ} {K : PyStr} (hl : K.length = k) (hK : '=' ∉ K) {R : List (PyStr × PyStr)} (hR : Good k R) :
    (pyFind (K ++ ['=']) (text R)).map (fun i => upToKey ((text R).drop (i + (k + 1))) k) =
      (R.find? (fun r => r.1 = K)).map Prod.snd := by
  rcases find_key hl hK R [] hR (by simp) with ⟨R1, b, R2, e, h1, i, h2, h3⟩ | ⟨h1, h2⟩
  · rw [List.nil_append] at h2 h3
    have hnone : R1.find? (fun r => decide (r.1 = K)) = none := by
      rw [List.find?_eq_none]
      intro r hr
      simp [h1 r hr]
    have g2 : Good k ((K, b) :: R2) := fun r hr => hR r (by rw [e]; exact List.mem_append_right _ hr)
    have hb := (g2 (K, b) (by simp)).2.2
    rw [h2, Option.map_some, h3, upToKey_text g2.tail hb, e, List.find?_append, hnone]
    simp
  · rw [List.nil_append] at h2
    rw [h2, List.find?_eq_none.2]
    · rfl
    · intro r hr
      simp [h1 r hr]

end YiJi
