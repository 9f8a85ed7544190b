import Verif.Model.Holiday
import Verif.Spec.Holidays
import Verif.Proof.Str
import Mathlib.Data.List.DropRight
import Mathlib.Tactic.Ring

/-! Record-level meaning of the string operations of `HolidayUtil`. -/

namespace Hol
open HolidayUtil Spec

def R18 (recs : List PyStr) : Prop := ∀ r ∈ recs, r.length = 18

theorem R18.cons {r : PyStr} {l : List PyStr} (h : R18 (r :: l)) : r.length = 18 ∧ R18 l :=
  ⟨h r (by simp), fun x hx => h x (by simp [hx])⟩

theorem R18.drop {l : List PyStr} (h : R18 l) (k : ℕ) : R18 (l.drop k) :=
  fun x hx => h x (List.mem_of_mem_drop hx)

theorem R18.take {l : List PyStr} (h : R18 l) (k : ℕ) : R18 (l.take k) :=
  fun x hx => h x (List.mem_of_mem_take hx)

theorem flat_length {l : List PyStr} (h : R18 l) : l.flatten.length = 18 * l.length := by
  induction l with
  | nil => rfl
  | cons r l ih =>
    rw [List.flatten_cons, List.length_append, h.cons.1, ih h.cons.2, List.length_cons]; ring

theorem flat_drop {l : List PyStr} (h : R18 l) (k : ℕ) : l.flatten.drop (18 * k) = (l.drop k).flatten := by
  induction k generalizing l with
  | zero => simp
  | succ k ih =>
    cases l with
    | nil => simp
    | cons r l =>
      rw [List.flatten_cons, List.drop_succ_cons, ← ih h.cons.2, show 18 * (k + 1) = r.length + 18 * k by
        rw [h.cons.1]; ring, ← List.drop_drop, List.drop_left]

theorem flat_take {l : List PyStr} (h : R18 l) (k : ℕ) : l.flatten.take (18 * k) = (l.take k).flatten := by
  induction k generalizing l with
  | zero => simp
  | succ k ih =>
    cases l with
    | nil => simp
    | cons r l =>
      rw [List.flatten_cons, List.take_succ_cons, List.flatten_cons, ← ih h.cons.2,
        show 18 * (k + 1) = r.length + 18 * k by rw [h.cons.1]; ring, List.take_length_add_append]

theorem prefix_rec {key r x : PyStr} (h : key.length ≤ r.length) :
    key <+: r ++ x ↔ key <+: r :=
  ⟨fun hp => List.prefix_of_prefix_length_le hp (List.prefix_append r x) h,
   fun hp => hp.trans (List.prefix_append r x)⟩

theorem prefix_flat {key : PyStr} {l : List PyStr} (hl : R18 l) (hk : key.length ≤ 18) (h0 : key ≠ []) :
    key <+: l.flatten ↔ ∃ r l', l = r :: l' ∧ key <+: r := by
  cases l with
  | nil => simp [List.prefix_nil, h0]
  | cons r l =>
    rw [List.flatten_cons, prefix_rec (by rw [hl.cons.1]; exact hk)]
    constructor
    · intro h; exact ⟨r, l, rfl, h⟩
    · rintro ⟨a, b, e, h⟩; cases e; exact h

theorem pfalse {key r : PyStr} (h : ¬ key <+: r) : key.isPrefixOf r = false := by
  rw [Bool.eq_false_iff, Ne, List.isPrefixOf_iff_prefix]; exact h

theorem sfalse {key r : PyStr} (h : ¬ key <:+ r) : key.isSuffixOf r = false := by
  rw [Bool.eq_false_iff, Ne, List.isSuffixOf_iff_suffix]; exact h

theorem pyFind_some {key s : PyStr} {i : ℕ} (h : pyFind key s = some i) :
    key <+: s.drop i ∧ i ≤ s.length ∧ ∀ j < i, ¬ key <+: s.drop j := by
  induction s generalizing i with
  | nil =>
    unfold pyFind at h
    split_ifs at h with hk
    simp only [Option.some.injEq] at h
    subst h; subst hk; simp
  | cons c t ih =>
    unfold pyFind at h
    split_ifs at h with hp
    · simp only [Option.some.injEq] at h
      subst h
      exact ⟨by simpa using hp, by simp, by simp⟩
    · rw [Option.map_eq_some_iff] at h
      obtain ⟨a, ha, rfl⟩ := h
      obtain ⟨h1, h2, h3⟩ := ih ha
      refine ⟨by simpa using h1, by simp; omega, ?_⟩
      intro j hj
      cases j with
      | zero => simpa using hp
      | succ j => simpa using h3 j (by omega)

theorem pyFind_none {key s : PyStr} (h : pyFind key s = none) (j : ℕ) (h0 : key ≠ []) :
    ¬ key <+: s.drop j := by
  induction s generalizing j with
  | nil => simpa [List.prefix_nil] using h0
  | cons c t ih =>
    unfold pyFind at h
    split_ifs at h with hp
    rw [Option.map_eq_none_iff] at h
    cases j with
    | zero => simpa using hp
    | succ j => simpa using ih h j

theorem dropWhile_skip {α : Type} (p : α → Bool) (l : List α) (k : ℕ) (h : ∀ x ∈ l.take k, p x = true) :
    l.dropWhile p = (l.drop k).dropWhile p := by
  induction k generalizing l with
  | zero => simp
  | succ k ih =>
    cases l with
    | nil => simp
    | cons a l =>
      rw [List.dropWhile_cons_of_pos (h a (by simp)), List.drop_succ_cons]
      exact ih l (fun x hx => h x (by simp [hx]))

theorem skipForward_flat {key : PyStr} (hk : key.length ≤ 18) (h0 : key ≠ []) {l : List PyStr} (hl : R18 l)
    (f : ℕ) (hf : l.length ≤ f) :
    skipForward key f l.flatten = (l.dropWhile (fun r => !key.isPrefixOf r)).flatten := by
  induction f generalizing l with
  | zero =>
    have : l = [] := by simpa using hf
    subst this; rfl
  | succ f ih =>
    unfold skipForward
    cases l with
    | nil => simp
    | cons r l =>
      have hp : key.isPrefixOf (r :: l).flatten = key.isPrefixOf r := by
        rw [Bool.eq_iff_iff, List.isPrefixOf_iff_prefix, List.isPrefixOf_iff_prefix, List.flatten_cons,
          prefix_rec (by rw [hl.cons.1]; exact hk)]
      have hlen := flat_length hl
      rw [hp, List.dropWhile_cons]
      by_cases c : key.isPrefixOf r
      · simp [c]
      · have c' : key.isPrefixOf r = false := by simpa only [Bool.not_eq_true] using c
        have hd : (r :: l).flatten.drop 18 = l.flatten := by
          have := flat_drop hl 1
          simpa using this
        rw [c', if_pos ⟨by simp, by rw [hlen]; simp⟩, hd, ih hl.cons.2 (by simpa using hf)]
        simp

theorem findForward_flat {names : List PyStr} {key : PyStr} (hk : key.length ≤ 18) (h0 : key ≠ [])
    {l : List PyStr} (hl : R18 l) :
    (findForward ⟨names, l.flatten⟩ key).getD []
      = (l.dropWhile (fun r => !key.isPrefixOf r)).flatten := by
  unfold findForward
  dsimp only
  cases hfi : pyFind key l.flatten with
  | none =>
    simp only [Option.getD_none]
    have : l.dropWhile (fun r => !key.isPrefixOf r) = [] := by
      rw [List.dropWhile_eq_nil_iff]
      intro r hr
      obtain ⟨i, hi, rfl⟩ := List.getElem_of_mem hr
      have hn := pyFind_none hfi (18 * i) h0
      rw [flat_drop hl, List.drop_eq_getElem_cons hi, List.flatten_cons,
        prefix_rec (by rw [hl _ (List.getElem_mem hi)]; exact hk)] at hn
      simp [pfalse hn]
    rw [this]; rfl
  | some i =>
    simp only [Option.getD_some]
    obtain ⟨h1, h2, h3⟩ := pyFind_some hfi
    have hlen := flat_length hl
    have hR : (l.flatten.drop i).length = 18 * l.length - i := by rw [List.length_drop, hlen]
    obtain ⟨k, hk1⟩ : ∃ k, i + (18 * l.length - i) % 18 = 18 * k := ⟨(i + (18 * l.length - i) % 18) / 18, by omega⟩
    have hright : (if (l.flatten.drop i).length % 18 > 0 then (l.flatten.drop i).drop ((l.flatten.drop i).length % 18)
        else l.flatten.drop i) = (l.drop k).flatten := by
      rw [hR]
      split_ifs with c
      · rw [List.drop_drop, hk1, flat_drop hl]
      · have : i = 18 * k := by omega
        rw [this, flat_drop hl]
    rw [hright, skipForward_flat hk h0 (hl.drop k) _ (by rw [flat_length (hl.drop k)]; omega)]
    congr 1
    symm
    apply dropWhile_skip
    intro r hr
    obtain ⟨j, hj, rfl⟩ := List.getElem_of_mem hr
    rw [List.length_take] at hj
    have hn := h3 (18 * j) (by omega)
    rw [flat_drop hl, List.drop_eq_getElem_cons (by omega), List.flatten_cons,
        prefix_rec (by rw [hl _ (List.getElem_mem _)]; exact hk)] at hn
    rw [List.getElem_take]
    simp [pfalse hn]

theorem slice_rec {r x : PyStr} (hr : r.length = 18) {a b : ℤ} (ha : 0 ≤ a) (hb : b ≤ 18) (hab : 0 ≤ b) :
    pySlice (r ++ x) a b = pySlice r a b := by
  unfold pySlice
  dsimp only
  rw [if_neg (by omega), if_neg (by omega), if_neg (by omega), if_neg (by omega)]
  rw [List.drop_append, List.take_append]
  have : (b - a).toNat - (r.drop a.toNat).length = 0 := by rw [List.length_drop, hr]; omega
  rw [this]; simp

theorem buildForward_rec {names : List PyStr} {r x : PyStr} (hr : r.length = 18) :
    buildForward names (r ++ x) = buildForward names r := by
  unfold buildForward
  rw [slice_rec hr (by norm_num) (by norm_num) (by norm_num),
    slice_rec hr (by norm_num) (by norm_num) (by norm_num),
    slice_rec hr (by norm_num) (by norm_num) (by norm_num),
    slice_rec hr (by norm_num) (by norm_num) (by norm_num)]

theorem collectForward_flat {names : List PyStr} {key : PyStr} (hk : key.length ≤ 18) (h0 : key ≠ [])
    {l : List PyStr} (hl : R18 l) (f : ℕ) (hf : l.length < f) :
    collectForward names key f l.flatten
      = (l.takeWhile (fun r => key.isPrefixOf r)).mapM (buildForward names) := by
  induction f generalizing l with
  | zero => omega
  | succ f ih =>
    unfold collectForward
    cases l with
    | nil =>
      have : key.isPrefixOf ([] : PyStr) = false := by
        cases key with
        | nil => exact absurd rfl h0
        | cons => rfl
      simp [this]; rfl
    | cons r l =>
      have hp : key.isPrefixOf (r :: l).flatten = key.isPrefixOf r := by
        rw [Bool.eq_iff_iff, List.isPrefixOf_iff_prefix, List.isPrefixOf_iff_prefix, List.flatten_cons,
          prefix_rec (by rw [hl.cons.1]; exact hk)]
      rw [hp, List.takeWhile_cons]
      have hd : (r :: l).flatten.drop 18 = l.flatten := by
        have := flat_drop hl 1
        simpa using this
      rw [hd, List.flatten_cons, buildForward_rec hl.cons.1, ih hl.cons.2 (by simpa using hf)]
      split_ifs with c
      · rw [List.mapM_cons]
      · rfl

/-- the forward search in record terms: skip to the first record beginning with the key, then take
records as long as they begin with it -/
theorem findHolidaysForward_flat {names : List PyStr} {key : PyStr} (hk : key.length ≤ 18) (h0 : key ≠ [])
    {l : List PyStr} (hl : R18 l) :
    findHolidaysForward ⟨names, l.flatten⟩ key
      = ((l.dropWhile (fun r => !key.isPrefixOf r)).takeWhile (fun r => key.isPrefixOf r)).mapM
          (buildForward names) := by
  have h := findForward_flat (names := names) hk h0 hl
  have hR : R18 (l.dropWhile (fun r => !key.isPrefixOf r)) :=
    fun x hx => hl x (List.dropWhile_sublist _ |>.subset hx)
  unfold findHolidaysForward
  cases hf : findForward ⟨names, l.flatten⟩ key with
  | none =>
    rw [hf] at h
    simp only [Option.getD_none] at h
    have : l.dropWhile (fun r => !key.isPrefixOf r) = [] := by
      have h2 := flat_length hR
      rw [← h] at h2
      simpa using h2.symm
    rw [this]; rfl
  | some s =>
    rw [hf] at h
    simp only [Option.getD_some] at h
    subst h
    exact collectForward_flat hk h0 hR _ (by rw [flat_length hR]; omega)

/-! ### backward -/

theorem pyRFind_ge (key s : PyStr) : -1 ≤ pyRFind key s := by
  induction s with
  | nil => unfold pyRFind; split_ifs <;> omega
  | cons c t ih => unfold pyRFind; split_ifs <;> omega

theorem pyRFind_neg {key s : PyStr} (h0 : key ≠ []) (h : pyRFind key s < 0) (j : ℕ) : ¬ key <+: s.drop j := by
  induction s generalizing j with
  | nil => simpa [List.prefix_nil] using h0
  | cons c t ih =>
    unfold pyRFind at h
    split_ifs at h with h1 h2
    · omega
    · omega
    · cases j with
      | zero => simpa using h2
      | succ j => simpa using ih (by omega) j

theorem pyRFind_nonneg {key s : PyStr} (h0 : key ≠ []) (h : 0 ≤ pyRFind key s) :
    key <+: s.drop (pyRFind key s).toNat ∧ ∀ j, (pyRFind key s).toNat < j → ¬ key <+: s.drop j := by
  induction s with
  | nil => unfold pyRFind at h; rw [if_neg h0] at h; omega
  | cons c t ih =>
    unfold pyRFind at h ⊢
    split_ifs at h ⊢ with h1 h2
    · obtain ⟨a, b⟩ := ih h1
      have e : (pyRFind key t + 1).toNat = (pyRFind key t).toNat + 1 := by omega
      rw [e]
      refine ⟨by simpa using a, ?_⟩
      intro j hj
      cases j with
      | zero => omega
      | succ j => simpa using b j (by omega)
    · refine ⟨by simpa using h2, ?_⟩
      intro j hj
      cases j with
      | zero => simp at hj
      | succ j => simpa using pyRFind_neg h0 (by omega) j
    · omega

/-- the loop test `size - key_size == s.rfind(key)` on tables of records says `s` ends with `key` -/
theorem rfind_suffix {key s : PyStr} (h2 : 2 ≤ key.length) (hk : key.length ≤ 18) (hs : s.length % 18 = 0) :
    (s.length : ℤ) - key.length = pyRFind key s ↔ key <:+ s := by
  have h0 : key ≠ [] := by rintro rfl; simp at h2
  constructor
  · intro h
    by_cases hn : pyRFind key s < 0
    · have := pyRFind_ge key s; omega
    · obtain ⟨a, _⟩ := pyRFind_nonneg h0 (by omega : 0 ≤ pyRFind key s)
      have hl : (s.drop (pyRFind key s).toNat).length = key.length := by rw [List.length_drop]; omega
      have e := a.eq_of_length hl.symm
      rw [e]; exact List.drop_suffix _ _
  · rintro ⟨p, rfl⟩
    have hocc : key <+: (p ++ key).drop p.length := by simp
    have hnn : 0 ≤ pyRFind key (p ++ key) := by
      by_contra hc
      exact pyRFind_neg h0 (by omega) _ hocc
    obtain ⟨a, b⟩ := pyRFind_nonneg h0 hnn
    have ha := a.length_le
    rw [List.length_drop, List.length_append] at ha
    rw [List.length_append]
    rcases lt_trichotomy (pyRFind key (p ++ key)).toNat p.length with c | c | c
    · exact absurd hocc (b _ c)
    · omega
    · omega

theorem suffix_flat_concat {key r : PyStr} {l : List PyStr} (hk : key.length ≤ r.length) :
    key <:+ (l ++ [r]).flatten ↔ key <:+ r := by
  rw [List.flatten_append, List.flatten_singleton]
  exact ⟨fun hp => List.suffix_of_suffix_length_le hp (List.suffix_append _ _) hk,
   fun hp => hp.trans (List.suffix_append _ _)⟩

theorem R18.concat {r : PyStr} {l : List PyStr} (h : R18 (l ++ [r])) : r.length = 18 ∧ R18 l :=
  ⟨h r (by simp), fun x hx => h x (by simp [hx])⟩

theorem take_concat {r : PyStr} {l : List PyStr} (hr : r.length = 18) :
    (l ++ [r]).flatten.take ((l ++ [r]).flatten.length - 18) = l.flatten := by
  rw [List.flatten_append, List.flatten_singleton, List.length_append, hr]
  simp

theorem skipBackward_flat {key : PyStr} (h2 : 2 ≤ key.length) (hk : key.length ≤ 18) {l : List PyStr}
    (hl : R18 l) (f : ℕ) (hf : l.length ≤ f) :
    skipBackward key f l.flatten = (l.rdropWhile (fun r => !key.isSuffixOf r)).flatten := by
  induction f generalizing l with
  | zero =>
    have : l = [] := by simpa using hf
    subst this; rfl
  | succ f ih =>
    unfold skipBackward
    simp only [ne_eq, rfind_suffix h2 hk (show l.flatten.length % 18 = 0 by rw [flat_length hl]; omega)]
    rcases List.eq_nil_or_concat l with rfl | ⟨l, r, rfl⟩
    · simp
    · rw [List.concat_eq_append] at *
      simp only [suffix_flat_concat (l := l) (show key.length ≤ r.length by rw [hl.concat.1]; exact hk)]
      rw [List.rdropWhile_concat]
      by_cases c : key <:+ r
      · have : key.isSuffixOf r = true := by simpa using c
        simp [c, this]
      · have : key.isSuffixOf r = false := sfalse c
        rw [if_pos ⟨c, by rw [flat_length hl]; simp⟩, take_concat hl.concat.1,
          ih hl.concat.2 (by simpa using hf)]
        simp [this]

theorem rdropWhile_skip {α : Type} (p : α → Bool) (l : List α) (k : ℕ) (h : ∀ x ∈ l.drop k, p x = true) :
    l.rdropWhile p = (l.take k).rdropWhile p := by
  unfold List.rdropWhile
  congr 1
  rw [← List.take_append_drop k l, List.reverse_append]
  have := dropWhile_skip p ((l.drop k).reverse ++ (l.take k).reverse) (l.drop k).length (by
    intro x hx
    rw [List.take_append_of_le_length (by simp), List.take_of_length_le (by simp)] at hx
    exact h x (by simpa using hx))
  rw [this, List.drop_append_of_le_length (by simp), List.drop_of_length_le (by simp)]
  simp

theorem findBackward_flat {names : List PyStr} {key : PyStr} (h2 : 2 ≤ key.length) (hk : key.length ≤ 18)
    {l : List PyStr} (hl : R18 l) :
    (findBackward ⟨names, l.flatten⟩ key).getD []
      = (l.rdropWhile (fun r => !key.isSuffixOf r)).flatten := by
  have h0 : key ≠ [] := by rintro rfl; simp at h2
  have hlen := flat_length hl
  have hocc : ∀ i (hi : i < l.length), key <:+ l[i] → key <+: l.flatten.drop (18 * (i + 1) - key.length) := by
    intro i hi hs
    have h18 := hl _ (List.getElem_mem hi)
    rw [show 18 * (i + 1) - key.length = 18 * i + (18 - key.length) by omega, ← List.drop_drop,
      flat_drop hl, List.drop_eq_getElem_cons hi, List.flatten_cons]
    obtain ⟨p, hp⟩ := hs
    have hpl : p.length = 18 - key.length := by
      have := congrArg List.length hp
      rw [List.length_append] at this; omega
    rw [← hp, ← hpl, List.append_assoc, List.drop_left]
    exact List.prefix_append _ _
  unfold findBackward
  dsimp only
  split_ifs with hn h18
  · simp only [Option.getD_none]
    have : l.rdropWhile (fun r => !key.isSuffixOf r) = [] := by
      rw [List.rdropWhile_eq_nil_iff]
      intro r hr
      obtain ⟨i, hi, rfl⟩ := List.getElem_of_mem hr
      have := pyRFind_neg h0 hn (18 * (i + 1) - key.length)
      simp [sfalse (fun hs => this (hocc i hi hs))]
    rw [this]; rfl
  all_goals
    obtain ⟨h1, h3⟩ := pyRFind_nonneg h0 (by omega : 0 ≤ pyRFind key l.flatten)
    generalize (pyRFind key l.flatten).toNat = S at *
    have hle := h1.length_le
    rw [List.length_drop, hlen] at hle
    have htl : (l.flatten.take (S + key.length)).length = S + key.length := by
      rw [List.length_take, hlen]; omega
    simp only [Option.getD_some]
    rw [htl] at h18 ⊢
    have hfin : ∀ k, k = (S + key.length) / 18 →
        skipBackward key (l.take k).flatten.length (l.take k).flatten
          = (l.rdropWhile (fun r => !key.isSuffixOf r)).flatten := by
      rintro k hkk
      rw [skipBackward_flat h2 hk (hl.take k) _ (by rw [flat_length (hl.take k)]; omega)]
      congr 1
      symm
      apply rdropWhile_skip
      intro r hr
      obtain ⟨j, hj, rfl⟩ := List.getElem_of_mem hr
      rw [List.length_drop] at hj
      rw [List.getElem_drop]
      have hkj : k + j < l.length := by omega
      simp [sfalse (fun hs => h3 (18 * (k + j + 1) - key.length) (by omega) (hocc (k + j) hkj hs))]
  · rw [List.take_take, show min (S + key.length - (S + key.length) % 18) (S + key.length)
      = 18 * ((S + key.length) / 18) by omega, flat_take hl]
    exact hfin _ rfl
  · rw [show S + key.length = 18 * ((S + key.length) / 18) by omega, flat_take hl]
    have := hfin _ rfl
    rw [flat_length (hl.take _), List.length_take] at this
    rw [show min ((S + key.length) / 18) l.length = (S + key.length) / 18 by omega] at this
    exact this

theorem slice_rec_back {r x : PyStr} (hr : r.length = 18) {a b : ℕ} (ha : a ≤ 18) (hb : b ≤ a) :
    pySlice (x ++ r) (((x ++ r).length : ℕ) - a : ℤ) (((x ++ r).length : ℕ) - b : ℤ)
      = pySlice r (18 - a : ℤ) (18 - b : ℤ) := by
  unfold pySlice
  dsimp only
  rw [List.length_append, hr]
  push_cast
  rw [if_neg (by omega), if_neg (by omega), if_neg (by omega), if_neg (by omega),
    show ((x.length : ℤ) + 18 - a).toNat = x.length + (18 - a) by omega, List.drop_length_add_append,
    show ((18 : ℤ) - a).toNat = 18 - a by omega]
  congr 1
  omega

theorem buildBackward_rec {names : List PyStr} {r x : PyStr} (hr : r.length = 18) :
    buildBackward names (x ++ r) = buildForward names r := by
  have e10 := slice_rec_back (x := x) hr (a := 10) (b := 9) (by norm_num) (by norm_num)
  have e9 := slice_rec_back (x := x) hr (a := 9) (b := 8) (by norm_num) (by norm_num)
  have e18 := slice_rec_back (x := x) hr (a := 18) (b := 10) (by norm_num) (by norm_num)
  have e8 := slice_rec_back (x := x) hr (a := 8) (b := 0) (by norm_num) (by norm_num)
  norm_num at e10 e9 e18 e8
  unfold buildBackward buildForward
  norm_num
  rw [e10, e9, e18, e8]

theorem collectBackward_flat {names : List PyStr} {key : PyStr} (h2 : 2 ≤ key.length) (hk : key.length ≤ 18)
    {l : List PyStr} (hl : R18 l) (f : ℕ) (hf : l.length < f) :
    collectBackward names key f l.flatten
      = (l.rtakeWhile (fun r => key.isSuffixOf r)).reverse.mapM (buildForward names) := by
  induction f generalizing l with
  | zero => omega
  | succ f ih =>
    unfold collectBackward
    simp only [rfind_suffix h2 hk (show l.flatten.length % 18 = 0 by rw [flat_length hl]; omega)]
    rcases List.eq_nil_or_concat l with rfl | ⟨l, r, rfl⟩
    · have : ¬ key <:+ ([] : List PyStr).flatten := by
        rintro h
        have := h.length_le
        simp at this; simp [this] at h2
      rw [if_neg this]; rfl
    · rw [List.concat_eq_append] at *
      simp only [suffix_flat_concat (l := l) (show key.length ≤ r.length by rw [hl.concat.1]; exact hk)]
      rw [List.rtakeWhile_concat]
      have hsl : pySlice (l ++ [r]).flatten 0 (((l ++ [r]).flatten.length : ℤ) - 18) = l.flatten := by
        rw [← take_concat (l := l) hl.concat.1]
        unfold pySlice
        have := flat_length hl
        rw [List.length_append, List.length_singleton] at this
        dsimp only
        rw [if_neg (by omega), if_neg (by omega)]
        simp only [Int.toNat_zero, List.drop_zero]
        congr 1
        omega
      have hfl : (l ++ [r]).flatten = l.flatten ++ r := by
        rw [List.flatten_append, List.flatten_singleton]
      rw [hsl, ih hl.concat.2 (by simpa using hf)]
      rw [hfl, buildBackward_rec hl.concat.1]
      by_cases c : key <:+ r
      · have : key.isSuffixOf r = true := by simpa using c
        rw [if_pos c, if_pos this, List.reverse_append, List.reverse_singleton, List.singleton_append,
          List.mapM_cons]
      · have : key.isSuffixOf r = false := sfalse c
        rw [if_neg c, if_neg (by simp [this])]; rfl

theorem findHolidaysBackward_flat {names : List PyStr} {key : PyStr} (h2 : 2 ≤ key.length) (hk : key.length ≤ 18)
    {l : List PyStr} (hl : R18 l) :
    findHolidaysBackward ⟨names, l.flatten⟩ key
      = (do let a ← ((l.rdropWhile (fun r => !key.isSuffixOf r)).rtakeWhile
              (fun r => key.isSuffixOf r)).reverse.mapM (buildForward names)
            return a.reverse) := by
  have h := findBackward_flat (names := names) h2 hk hl
  have hR : R18 (l.rdropWhile (fun r => !key.isSuffixOf r)) :=
    fun x hx => hl x ((List.rdropWhile_prefix _ _).sublist.subset hx)
  unfold findHolidaysBackward
  cases hf : findBackward ⟨names, l.flatten⟩ key with
  | none =>
    rw [hf] at h
    simp only [Option.getD_none] at h
    have : l.rdropWhile (fun r => !key.isSuffixOf r) = [] := by
      have h2 := flat_length hR
      rw [← h] at h2
      simpa using h2.symm
    rw [this]; rfl
  | some s =>
    rw [hf] at h
    simp only [Option.getD_some] at h
    subst h
    dsimp only
    rw [collectBackward_flat h2 hk hR _ (by rw [flat_length hR]; omega)]

end Hol
