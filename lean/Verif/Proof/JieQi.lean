import Verif.Model.JieQi
import Verif.Spec.Terms
import Verif.Proof.Pillars

/-! # Searches in the table of terms -/

namespace Lunar
open Spec LunarUtil Solar

/-- the keys of the table -/
theorem keys_len : JIE_QI_IN_USE.length = 31 := by decide +kernel

theorem term_key {jq : List Solar} (h : jq.length = 31) {i : ℕ} {key : PyStr} {s : Solar}
    (hk : JIE_QI_IN_USE[i]? = some key) (hs : jq[i]? = some s) : term jq key = .ok s := by
  have hi : i < 31 := by
    have := (List.getElem?_eq_some_iff.1 hk).1
    rwa [keys_len] at this
  have : JIE_QI_IN_USE.findIdx? (fun x => x == key) = some i := by
    have all : ∀ i : Fin 31, ∀ k ∈ JIE_QI_IN_USE[(i : ℕ)]?, JIE_QI_IN_USE.findIdx? (fun x => x == k) = some (i : ℕ) := by
      decide +kernel
    exact all ⟨i, hi⟩ key hk
  unfold term
  rw [this]
  have h0 : ¬ ((i : ℤ) < 0) := by omega
  simp only [pyIndex, if_neg h0]
  rw [show ((i : ℕ) : ℤ).toNat = i from rfl, hs]

theorem convert_key {i : ℕ} {key : PyStr} (hk : JIE_QI_IN_USE[i]? = some key) : convertJieQi key = termName i := by
  have hi : i < 31 := by
    have := (List.getElem?_eq_some_iff.1 hk).1
    rwa [keys_len] at this
  have all : ∀ i : Fin 31, ∀ k ∈ JIE_QI_IN_USE[(i : ℕ)]?, convertJieQi k = termName i := by decide +kernel
  exact all ⟨i, hi⟩ key hk

theorem make_term {i : ℕ} (hi : i < 31) (s : Solar) :
    JieQi.make (termName i) s = ⟨termName i, i % 2 = 0, i % 2 = 1, s⟩ := by
  have all : ∀ i : Fin 31, JIE_QI.findIdx? (fun x => termName i == x) = some (((i : ℕ) + 23) % 24) := by decide +kernel
  unfold JieQi.make
  rw [all ⟨i, hi⟩]
  dsimp only
  split_ifs with c
  · have h1 : i % 2 = 1 := by omega
    simp [h1]
  · have h1 : i % 2 = 0 := by omega
    simp [h1]

/-- the names given to the search for a kind -/
def kindNames : TermKind → List PyStr
  | .all => []
  | .jie => jieNames
  | .qi => qiNames

theorem filter_iff (k : TermKind) {i : ℕ} (hi : i < 31) :
    (kindNames k ≠ [] ∧ termName i ∉ kindNames k) ↔ ¬ k.has i := by
  have all : ∀ i : Fin 31, (jieNames ≠ [] ∧ termName i ∉ jieNames ↔ ¬ TermKind.jie.has i) ∧
    (qiNames ≠ [] ∧ termName i ∉ qiNames ↔ ¬ TermKind.qi.has i) := by decide +kernel
  cases k with
  | all => simp [kindNames, TermKind.has]
  | jie => exact (all ⟨i, hi⟩).1
  | qi => exact (all ⟨i, hi⟩).2

/-- best found among the entries below `i`, forward -/
def FwdBest (k : TermKind) (f : Solar → ℤ) (c : ℤ) (jq : List Solar) (i : ℕ) : Option (PyStr × Solar) → Prop
  | none => ∀ j < i, k.has j → ∀ s, jq[j]? = some s → f s ≤ c
  | some (n, s) => ∃ j < i, k.has j ∧ jq[j]? = some s ∧ n = termName j ∧ c < f s ∧
      ∀ j' < i, k.has j' → ∀ s', jq[j']? = some s' → c < f s' → j ≤ j'

/-- best found among the entries below `i`, backward -/
def BwdBest (k : TermKind) (f : Solar → ℤ) (c : ℤ) (jq : List Solar) (i : ℕ) : Option (PyStr × Solar) → Prop
  | none => ∀ j < i, k.has j → ∀ s, jq[j]? = some s → c < f s
  | some (n, s) => ∃ j < i, k.has j ∧ jq[j]? = some s ∧ n = termName j ∧ f s ≤ c ∧
      ∀ j' < i, k.has j' → ∀ s', jq[j']? = some s' → f s' ≤ c → f s' ≤ f s ∧ (f s' = f s → j ≤ j')

section
variable {k : TermKind} {f : Solar → ℤ} {jq : List Solar} {cur : Solar} {w : Bool}

theorem fwd_step (hlt : ∀ a ∈ jq, ∀ b ∈ jq, strLt (fmtOf w a) (fmtOf w b) = decide (f a < f b))
    (hle : ∀ a ∈ jq, strLe (fmtOf w a) (fmtOf w cur) = decide (f a ≤ f cur))
    (mono : ∀ i j : ℕ, i ≤ j → ∀ a b, jq[i]? = some a → jq[j]? = some b → f a ≤ f b)
    {i : ℕ} {s : Solar} (hs : jq[i]? = some s) (hk : k.has i) {near : Option (PyStr × Solar)}
    (h : FwdBest k f (f cur) jq i near) :
    FwdBest k f (f cur) jq (i + 1) (nearStep true w (fmtOf w cur) (termName i) s near) := by
  have ms := List.mem_of_getElem? hs
  unfold nearStep
  simp only [if_true, hle s ms]
  by_cases c : f s ≤ f cur
  · rw [if_pos (by simpa using c)]
    match near, h with
    | none, h =>
      intro j hj hkj s' hs'
      rcases Nat.lt_or_ge j i with q | q
      · exact h j q hkj s' hs'
      · obtain rfl : j = i := by omega
        rw [hs] at hs'; cases hs'; exact c
    | some (n, x), ⟨j, h1, h2, h3, h4, h5, h6⟩ =>
      refine ⟨j, by omega, h2, h3, h4, h5, fun j' hj' hkj' s' hs' hc => ?_⟩
      rcases Nat.lt_or_ge j' i with q | q
      · exact h6 j' q hkj' s' hs' hc
      · omega
  · rw [if_neg (by simpa using c)]
    match near, h with
    | none, h =>
      refine ⟨i, by omega, hk, hs, rfl, by omega, fun j' hj' hkj' s' hs' hc => ?_⟩
      by_contra q
      have := h j' (by omega) hkj' s' hs'
      omega
    | some (n, x), ⟨j, h1, h2, h3, h4, h5, h6⟩ =>
      have mx := List.mem_of_getElem? h3
      have := mono j i (by omega) x s h3 hs
      dsimp only
      rw [hlt s ms x mx, if_neg (by simpa using this)]
      refine ⟨j, by omega, h2, h3, h4, h5, fun j' hj' hkj' s' hs' hc => ?_⟩
      rcases Nat.lt_or_ge j' i with q | q
      · exact h6 j' q hkj' s' hs' hc
      · omega

theorem bwd_step (hlt : ∀ a ∈ jq, ∀ b ∈ jq, strLt (fmtOf w a) (fmtOf w b) = decide (f a < f b))
    (hle : ∀ a ∈ jq, strLt (fmtOf w cur) (fmtOf w a) = decide (f cur < f a))
    (mono : ∀ i j : ℕ, i ≤ j → ∀ a b, jq[i]? = some a → jq[j]? = some b → f a ≤ f b)
    {i : ℕ} {s : Solar} (hs : jq[i]? = some s) (hk : k.has i) {near : Option (PyStr × Solar)}
    (h : BwdBest k f (f cur) jq i near) :
    BwdBest k f (f cur) jq (i + 1) (nearStep false w (fmtOf w cur) (termName i) s near) := by
  have ms := List.mem_of_getElem? hs
  unfold nearStep
  simp only [Bool.false_eq_true, if_false, hle s ms]
  by_cases c : f cur < f s
  · rw [if_pos (by simpa using c)]
    match near, h with
    | none, h =>
      intro j hj hkj s' hs'
      rcases Nat.lt_or_ge j i with q | q
      · exact h j q hkj s' hs'
      · obtain rfl : j = i := by omega
        rw [hs] at hs'; cases hs'; exact c
    | some (n, x), ⟨j, h1, h2, h3, h4, h5, h6⟩ =>
      refine ⟨j, by omega, h2, h3, h4, h5, fun j' hj' hkj' s' hs' hc => ?_⟩
      rcases Nat.lt_or_ge j' i with q | q
      · exact h6 j' q hkj' s' hs' hc
      · obtain rfl : j' = i := by omega
        rw [hs] at hs'; cases hs'; omega
  · rw [if_neg (by simpa using c)]
    match near, h with
    | none, h =>
      refine ⟨i, by omega, hk, hs, rfl, by omega, fun j' hj' hkj' s' hs' hc => ?_⟩
      rcases Nat.lt_or_ge j' i with q | q
      · have := h j' q hkj' s' hs'
        omega
      · obtain rfl : j' = i := by omega
        rw [hs] at hs'; cases hs'; exact ⟨le_refl _, fun _ => le_refl _⟩
    | some (n, x), ⟨j, h1, h2, h3, h4, h5, h6⟩ =>
      have mx := List.mem_of_getElem? h3
      have := mono j i (by omega) x s h3 hs
      dsimp only
      rw [hlt x mx s ms]
      by_cases d : f x < f s
      · rw [if_pos (by simpa using d)]
        refine ⟨i, by omega, hk, hs, rfl, by omega, fun j' hj' hkj' s' hs' hc => ?_⟩
        rcases Nat.lt_or_ge j' i with q | q
        · have := h6 j' q hkj' s' hs' hc
          exact ⟨by omega, fun _ => by omega⟩
        · obtain rfl : j' = i := by omega
          rw [hs] at hs'; cases hs'; exact ⟨le_refl _, fun _ => le_refl _⟩
      · rw [if_neg (by simpa using d)]
        refine ⟨j, by omega, h2, h3, h4, h5, fun j' hj' hkj' s' hs' hc => ?_⟩
        rcases Nat.lt_or_ge j' i with q | q
        · exact h6 j' q hkj' s' hs' hc
        · obtain rfl : j' = i := by omega
          rw [hs] at hs'; cases hs'; exact ⟨by omega, fun _ => by omega⟩

/-- the loop keeps an invariant that `nearStep` keeps -/
theorem nearLoop_inv {fwd : Bool} {today : PyStr} (hlen : jq.length = 31) (k : TermKind)
    (P : ℕ → Option (PyStr × Solar) → Prop)
    (skip : ∀ i near, i < 31 → ¬ k.has i → P i near → P (i + 1) near)
    (step : ∀ i near s, jq[i]? = some s → k.has i → P i near → P (i + 1) (nearStep fwd w today (termName i) s near)) :
    ∀ n i near, i + n = 31 → P i near →
      ∃ r, nearLoop fwd w (kindNames k) today jq (JIE_QI_IN_USE.drop i) near = .ok r ∧ P 31 r := by
  intro n
  induction n with
  | zero =>
    intro i near hi h
    obtain rfl : i = 31 := by omega
    exact ⟨near, by rw [List.drop_of_length_le (by rw [keys_len])]; rfl, h⟩
  | succ n ih =>
    intro i near hi h
    have hlt : i < JIE_QI_IN_USE.length := by rw [keys_len]; omega
    have hj : i < jq.length := by omega
    rw [List.drop_eq_getElem_cons hlt]
    have hk := List.getElem?_eq_getElem hlt
    have hs := List.getElem?_eq_getElem hj
    unfold nearLoop
    dsimp only
    rw [convert_key hk]
    by_cases c : k.has i
    · rw [if_neg (by rw [filter_iff k (by omega)]; simpa using c), term_key hlen hk hs]
      simp only [bind, Except.bind]
      exact ih (i + 1) _ (by omega) (step i near _ hs c h)
    · rw [if_pos ((filter_iff k (by omega)).2 c)]
      exact ih (i + 1) _ (by omega) (skip i near (by omega) c h)

end

theorem near_fwd {jq : List Solar} {cur : Solar} {w : Bool} (f : Solar → ℤ) (k : TermKind) (hlen : jq.length = 31)
    (hlt : ∀ a ∈ jq, ∀ b ∈ jq, strLt (fmtOf w a) (fmtOf w b) = decide (f a < f b))
    (hle : ∀ a ∈ jq, strLe (fmtOf w a) (fmtOf w cur) = decide (f a ≤ f cur))
    (mono : ∀ i j : ℕ, i ≤ j → ∀ a b, jq[i]? = some a → jq[j]? = some b → f a ≤ f b) :
    ∃ r, nearLoop true w (kindNames k) (fmtOf w cur) jq JIE_QI_IN_USE none = .ok r ∧ FwdBest k f (f cur) jq 31 r := by
  refine nearLoop_inv hlen k (FwdBest k f (f cur) jq) ?_ (fun i near s hs hk h => fwd_step hlt hle mono hs hk h) 31 0 none rfl
    (fun j hj => by omega)
  intro i near _ hk h
  match near, h with
  | none, h =>
    intro j hj hkj s hs
    by_cases e : j = i
    · exact absurd (e ▸ hkj) hk
    · exact h j (by omega) hkj s hs
  | some (n, x), ⟨j, h1, h2, h3, h4, h5, h6⟩ =>
    refine ⟨j, by omega, h2, h3, h4, h5, fun j' hj' hkj' s' hs' hc => ?_⟩
    by_cases e : j' = i
    · exact absurd (e ▸ hkj') hk
    · exact h6 j' (by omega) hkj' s' hs' hc

theorem near_bwd {jq : List Solar} {cur : Solar} {w : Bool} (f : Solar → ℤ) (k : TermKind) (hlen : jq.length = 31)
    (hlt : ∀ a ∈ jq, ∀ b ∈ jq, strLt (fmtOf w a) (fmtOf w b) = decide (f a < f b))
    (hle : ∀ a ∈ jq, strLt (fmtOf w cur) (fmtOf w a) = decide (f cur < f a))
    (mono : ∀ i j : ℕ, i ≤ j → ∀ a b, jq[i]? = some a → jq[j]? = some b → f a ≤ f b) :
    ∃ r, nearLoop false w (kindNames k) (fmtOf w cur) jq JIE_QI_IN_USE none = .ok r ∧ BwdBest k f (f cur) jq 31 r := by
  refine nearLoop_inv hlen k (BwdBest k f (f cur) jq) ?_ (fun i near s hs hk h => bwd_step hlt hle mono hs hk h) 31 0 none rfl
    (fun j hj => by omega)
  intro i near _ hk h
  match near, h with
  | none, h =>
    intro j hj hkj s hs
    by_cases e : j = i
    · exact absurd (e ▸ hkj) hk
    · exact h j (by omega) hkj s hs
  | some (n, x), ⟨j, h1, h2, h3, h4, h5, h6⟩ =>
    refine ⟨j, by omega, h2, h3, h4, h5, fun j' hj' hkj' s' hs' hc => ?_⟩
    by_cases e : j' = i
    · exact absurd (e ▸ hkj') hk
    · exact h6 j' (by omega) hkj' s' hs' hc

/-- the result of a forward search by instant (`w = false`, `f = secNo`) or by day (`w = true`, `f = dn`) -/
theorem getNear_fwd {Y : ℤ} {l : Lunar} (T : TermTable Y l.jieQi) (hs : l.solar.Valid) (h4 : Str.Four l.solar)
    (w : Bool) (k : TermKind) :
    ∃ r, getNearJieQi l true (kindNames k) w = .ok (r.map (fun p => JieQi.make p.1 p.2)) ∧
      FwdBest k (fun s => if w then Cal.dn s.date else Cal.secNo s) (if w then Cal.dn l.solar.date else Cal.secNo l.solar) l.jieQi 31 r := by
  have hv := T.valid
  have hf := T.four
  obtain ⟨r, e, h⟩ := near_fwd (w := w) (cur := l.solar) (fun s => if w then Cal.dn s.date else Cal.secNo s) k T.len (by
      intro a ha b hb
      cases w
      · simpa [fmtOf] using Str.hms_lt (hv a ha) (hv b hb) (hf a ha) (hf b hb)
      · simpa [fmtOf] using Str.ymd_lt (hv a ha) (hv b hb) (hf a ha) (hf b hb)) (by
      intro a ha
      cases w
      · simpa [fmtOf] using Str.hms_le (hv a ha) hs (hf a ha) h4
      · simpa [fmtOf] using Str.ymd_le (hv a ha) hs (hf a ha) h4) (by
      intro i j hij a b ha hb
      have := table_le T hij ha hb
      cases w
      · simpa using this.1
      · simpa using this.2)
  refine ⟨r, ?_, h⟩
  unfold getNearJieQi
  rw [e]
  rfl

/-- the result of a backward search -/
theorem getNear_bwd {Y : ℤ} {l : Lunar} (T : TermTable Y l.jieQi) (hs : l.solar.Valid) (h4 : Str.Four l.solar)
    (w : Bool) (k : TermKind) :
    ∃ r, getNearJieQi l false (kindNames k) w = .ok (r.map (fun p => JieQi.make p.1 p.2)) ∧
      BwdBest k (fun s => if w then Cal.dn s.date else Cal.secNo s) (if w then Cal.dn l.solar.date else Cal.secNo l.solar) l.jieQi 31 r := by
  have hv := T.valid
  have hf := T.four
  obtain ⟨r, e, h⟩ := near_bwd (w := w) (cur := l.solar) (fun s => if w then Cal.dn s.date else Cal.secNo s) k T.len (by
      intro a ha b hb
      cases w
      · simpa [fmtOf] using Str.hms_lt (hv a ha) (hv b hb) (hf a ha) (hf b hb)
      · simpa [fmtOf] using Str.ymd_lt (hv a ha) (hv b hb) (hf a ha) (hf b hb)) (by
      intro a ha
      cases w
      · simpa [fmtOf] using Str.hms_lt hs (hv a ha) h4 (hf a ha)
      · simpa [fmtOf] using Str.ymd_lt hs (hv a ha) h4 (hf a ha)) (by
      intro i j hij a b ha hb
      have := table_le T hij ha hb
      cases w
      · simpa using this.1
      · simpa using this.2)
  refine ⟨r, ?_, h⟩
  unfold getNearJieQi
  rw [e]
  rfl

/-- the entries of a kind, in order -/
def kindIdx : TermKind → List ℕ
  | .all => List.range 31
  | .jie => (List.range 16).map (fun i => 2 * i)
  | .qi => (List.range 15).map (fun i => 2 * i + 1)

/-- the keys the searches for the term of the day go through -/
def kindKeys : TermKind → List PyStr
  | .all => JIE_QI_IN_USE
  | .jie => jieKeys
  | .qi => qiKeys

theorem kindKeys_eq (k : TermKind) : kindKeys k = (kindIdx k).map (fun i => JIE_QI_IN_USE.getD i []) := by
  cases k <;> decide +kernel

theorem mem_kindIdx (k : TermKind) (i : ℕ) : i ∈ kindIdx k ↔ i < 31 ∧ k.has i := by
  cases k with
  | all => simp [kindIdx, TermKind.has]
  | jie =>
    simp only [kindIdx, TermKind.has, List.mem_map, List.mem_range]
    constructor
    · rintro ⟨j, h, rfl⟩; omega
    · rintro ⟨a, b⟩; exact ⟨i / 2, by omega, by omega⟩
  | qi =>
    simp only [kindIdx, TermKind.has, List.mem_map, List.mem_range]
    constructor
    · rintro ⟨j, h, rfl⟩; omega
    · rintro ⟨a, b⟩; exact ⟨i / 2, by omega, by omega⟩

theorem kindIdx_sorted (k : TermKind) : (kindIdx k).Pairwise (· < ·) := by
  cases k <;> decide +kernel

theorem sameDay_iff (a b : Solar) : sameDay a b = true ↔ a.date = b.date := by
  unfold sameDay Solar.date
  rw [decide_eq_true_eq, Date.mk.injEq]

theorem findTerm_spec {l : Lunar} (hlen : l.jieQi.length = 31) : ∀ is : List ℕ, (∀ i ∈ is, i < 31) → is.Pairwise (· < ·) →
    ∃ r, findTerm l (is.map (fun i => JIE_QI_IN_USE.getD i [])) = .ok r ∧
      match r with
      | none => ∀ i ∈ is, ∀ s, l.jieQi[i]? = some s → s.date ≠ l.solar.date
      | some (key, s) => ∃ i ∈ is, l.jieQi[i]? = some s ∧ convertJieQi key = termName i ∧ s.date = l.solar.date ∧
          ∀ j ∈ is, ∀ t, l.jieQi[j]? = some t → t.date = l.solar.date → i ≤ j
  | [], _, _ => ⟨none, rfl, by simp⟩
  | i :: is, h, hp => by
    have hi : i < 31 := h i List.mem_cons_self
    have hk := List.getElem?_eq_getElem (l := JIE_QI_IN_USE) (i := i) (by rw [keys_len]; exact hi)
    have hs := List.getElem?_eq_getElem (l := l.jieQi) (i := i) (by omega)
    have ek : JIE_QI_IN_USE.getD i [] = JIE_QI_IN_USE[i]'(by rw [keys_len]; exact hi) := by
      rw [List.getD_eq_getElem?_getD, hk]; rfl
    simp only [List.map_cons, findTerm]
    rw [ek, term_key hlen hk hs]
    simp only [bind, Except.bind]
    rw [List.pairwise_cons] at hp
    by_cases c : (l.jieQi[i]'(by omega)).date = l.solar.date
    · rw [if_pos ((sameDay_iff _ _).2 c)]
      refine ⟨_, rfl, i, List.mem_cons_self, hs, convert_key hk, c, fun j hj t _ _ => ?_⟩
      rcases List.mem_cons.1 hj with e | e
      · omega
      · exact (hp.1 j e).le
    · rw [if_neg (by rw [sameDay_iff]; exact c)]
      obtain ⟨r, e, hr⟩ := findTerm_spec hlen is (fun j hj => h j (List.mem_cons_of_mem _ hj)) hp.2
      refine ⟨r, e, ?_⟩
      match r, hr with
      | none, hr =>
        intro j hj t ht
        rcases List.mem_cons.1 hj with e | e
        · subst e; rw [hs] at ht; cases ht; exact c
        · exact hr j e t ht
      | some (key, s), ⟨j, h1, h2, h3, h4, h5⟩ =>
        refine ⟨j, List.mem_cons_of_mem _ h1, h2, h3, h4, fun j' hj' t ht hd => ?_⟩
        rcases List.mem_cons.1 hj' with e | e
        · subst e; rw [hs] at ht; cases ht; exact absurd hd c
        · exact h5 j' e t ht hd

/-- the term of the day -/
theorem findTerm_kind {l : Lunar} (hlen : l.jieQi.length = 31) (k : TermKind) :
    ∃ r, findTerm l (kindKeys k) = .ok r ∧
      match r with
      | none => ∀ i, k.has i → ∀ s, l.jieQi[i]? = some s → s.date ≠ l.solar.date
      | some (key, s) => ∃ i, k.has i ∧ l.jieQi[i]? = some s ∧ convertJieQi key = termName i ∧ s.date = l.solar.date ∧
          ∀ j, k.has j → ∀ t, l.jieQi[j]? = some t → t.date = l.solar.date → i ≤ j := by
  have lt : ∀ i s, l.jieQi[i]? = some s → i < 31 := fun i s h => by
    have := (List.getElem?_eq_some_iff.1 h).1
    omega
  rw [kindKeys_eq]
  obtain ⟨r, e, h⟩ := findTerm_spec hlen (kindIdx k) (fun i hi => ((mem_kindIdx k i).1 hi).1) (kindIdx_sorted k)
  refine ⟨r, e, ?_⟩
  match r, h with
  | none, h => exact fun i hk s hs => h i ((mem_kindIdx k i).2 ⟨lt i s hs, hk⟩) s hs
  | some (key, s), ⟨i, h1, h2, h3, h4, h5⟩ =>
    exact ⟨i, ((mem_kindIdx k i).1 h1).2, h2, h3, h4, fun j hk t ht => h5 j ((mem_kindIdx k j).2 ⟨lt j t ht, hk⟩) t ht⟩

end Lunar
