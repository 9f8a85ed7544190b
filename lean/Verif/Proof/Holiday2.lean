import Verif.Proof.Holiday
import Verif.Proof.SolarParts

/-! Holiday tables as lists of records; `fix`. -/

namespace Hol
open HolidayUtil Spec

/-- the `Holiday` a record describes -/
def shown (names : List PyStr) (r : HRec) : Holiday :=
  ⟨dashed r.day, names.getD (r.nameCh.toNat - 48) [], r.workCh = '0', dashed r.target⟩

/-- table well-formed for `names` -/
def TOk (names : List PyStr) (t : List HRec) : Prop := ∀ r ∈ t, r.Ok names.length

theorem text_length {k : ℕ} {r : HRec} (h : r.Ok k) : r.text.length = 18 := by
  unfold HRec.text; simp [h.dayLen, h.targetLen]

theorem tok_r18 {names : List PyStr} {t : List HRec} (h : TOk names t) : R18 (t.map HRec.text) := by
  intro x hx
  simp only [List.mem_map] at hx
  obtain ⟨r, hr, rfl⟩ := hx
  exact text_length (h r hr)

theorem slice_day {k : ℕ} {r : HRec} (h : r.Ok k) : pySlice r.text 0 8 = r.day := by
  unfold pySlice HRec.text
  simp
  rw [List.take_append_of_le_length (by rw [h.dayLen]), List.take_of_length_le (by rw [h.dayLen])]

theorem slice_name {k : ℕ} {r : HRec} (h : r.Ok k) : pySlice r.text 8 9 = [r.nameCh] := by
  unfold pySlice HRec.text
  simp
  rw [show (8 : ℕ) = r.day.length from h.dayLen.symm, List.drop_left]
  rfl

theorem slice_work {k : ℕ} {r : HRec} (h : r.Ok k) : pySlice r.text 9 10 = [r.workCh] := by
  unfold pySlice HRec.text
  simp
  rw [show (9 : ℕ) = r.day.length + 1 by rw [h.dayLen], List.drop_length_add_append]
  rfl

theorem slice_target {k : ℕ} {r : HRec} (h : r.Ok k) : pySlice r.text 10 18 = r.target := by
  unfold pySlice HRec.text
  simp
  rw [show (10 : ℕ) = r.day.length + 2 by rw [h.dayLen], List.drop_length_add_append]
  simp only [List.drop_succ_cons, List.drop_zero]
  exact List.take_of_length_le (by rw [h.targetLen])

theorem ymd_dashed {s : PyStr} (h : '-' ∉ s) : Holiday.ymd s = dashed s := by
  unfold Holiday.ymd dashed; rw [if_neg h]

theorem build_rec {names : List PyStr} {r : HRec} (h : r.Ok names.length) :
    buildForward names r.text = .ok (shown names r) := by
  unfold buildForward
  rw [slice_day h, slice_name h, slice_work h, slice_target h]
  have hidx : pyIndex names ((r.nameCh.toNat : ℤ) - 48) = .ok (names.getD (r.nameCh.toNat - 48) []) := by
    unfold pyIndex
    dsimp only
    have := h.lo
    have := h.hi
    rw [if_neg (by omega), if_neg (by omega),
      show ((r.nameCh.toNat : ℤ) - 48).toNat = r.nameCh.toNat - 48 by omega]
    rw [List.getElem?_eq_getElem (by omega), List.getD_eq_getElem?_getD, List.getElem?_eq_getElem (by omega)]
    rfl
  show (pyIndex names ((r.nameCh.toNat : ℤ) - 48) >>= fun name =>
    .ok (Holiday.new r.day name (((r.workCh.toNat : ℤ) = 48 : Bool)) r.target)) = _
  rw [hidx]
  show Except.ok _ = _
  unfold Holiday.new shown
  rw [ymd_dashed h.dayDash, ymd_dashed h.targetDash]
  have : (decide ((r.workCh.toNat : ℤ) = 48)) = decide (r.workCh = '0') := by
    rw [decide_eq_decide]
    constructor
    · intro e
      apply Char.toNat_inj.1
      have : '0'.toNat = 48 := by decide
      omega
    · intro e; rw [e]; decide
  rw [this]

theorem prefix_text {k : ℕ} {key : PyStr} {r : HRec} (h : r.Ok k) (hk : key.length ≤ 8) :
    key <+: r.text ↔ key <+: r.day := prefix_rec (by rw [h.dayLen]; exact hk)

theorem prefix_text8 {k : ℕ} {key : PyStr} {r : HRec} (h : r.Ok k) (hk : key.length = 8) :
    key <+: r.text ↔ r.day = key := by
  rw [prefix_text h hk.le]
  constructor
  · intro hp; exact (hp.eq_of_length (by rw [hk, h.dayLen])).symm
  · rintro rfl; exact List.prefix_refl _

theorem suffix_text8 {k : ℕ} {key : PyStr} {r : HRec} (h : r.Ok k) (hk : key.length = 8) :
    key <:+ r.text ↔ r.target = key := by
  unfold HRec.text
  rw [show r.day ++ r.nameCh :: r.workCh :: r.target = (r.day ++ [r.nameCh, r.workCh]) ++ r.target by simp]
  constructor
  · intro hs
    have := List.suffix_of_suffix_length_le hs (List.suffix_append _ _) (by rw [h.targetLen, hk])
    exact (this.eq_of_length (by rw [hk, h.targetLen])).symm
  · rintro rfl; exact List.suffix_append _ _

theorem dropWhile_congr' {α : Type} {p q : α → Bool} {l : List α} (h : ∀ x ∈ l, p x = q x) :
    l.dropWhile p = l.dropWhile q := by
  induction l with
  | nil => rfl
  | cons a l ih =>
    rw [List.dropWhile_cons, List.dropWhile_cons, h a (by simp), ih (fun x hx => h x (by simp [hx]))]

theorem takeWhile_congr' {α : Type} {p q : α → Bool} {l : List α} (h : ∀ x ∈ l, p x = q x) :
    l.takeWhile p = l.takeWhile q := by
  induction l with
  | nil => rfl
  | cons a l ih =>
    rw [List.takeWhile_cons, List.takeWhile_cons, h a (by simp), ih (fun x hx => h x (by simp [hx]))]

/-- forward search on a well-formed table -/
theorem forward_table {names : List PyStr} {t : List HRec} (h : TOk names t) {key : PyStr}
    (hk : key.length ≤ 8) (h0 : key ≠ []) :
    findHolidaysForward ⟨names, tableText t⟩ key
      = .ok (((t.dropWhile (fun r => !decide (key <+: r.day))).takeWhile
          (fun r => decide (key <+: r.day))).map (shown names)) := by
  unfold tableText
  rw [findHolidaysForward_flat (by omega) h0 (tok_r18 h), List.dropWhile_map, List.takeWhile_map]
  have e1 : ∀ x ∈ t, key.isPrefixOf x.text = decide (key <+: x.day) := by
    intro x hx
    rw [Bool.eq_iff_iff, List.isPrefixOf_iff_prefix, decide_eq_true_iff, prefix_text (h x hx) hk]
  rw [dropWhile_congr' (q := fun r => !decide (key <+: r.day)) (by
    intro x hx; simp only [Function.comp]; rw [e1 x hx])]
  rw [takeWhile_congr' (q := fun r => decide (key <+: r.day)) (by
    intro x hx; exact e1 x ((List.dropWhile_sublist _).subset hx))]
  rw [List.mapM_map]
  apply Cal.mapM_ok
  intro x hx
  exact build_rec (h x ((List.dropWhile_sublist _).subset ((List.takeWhile_sublist _).subset hx)))

theorem head_search {α : Type} (p : α → Bool) (l : List α) :
    ((l.dropWhile (fun x => !p x)).takeWhile p).head? = l.find? p := by
  induction l with
  | nil => rfl
  | cons a l ih =>
    rw [List.dropWhile_cons, List.find?_cons]
    cases c : p a with
    | true => simp [c]
    | false => simpa using ih

theorem replace_dash (s : PyStr) : pyReplace ['-'] [] s = s.filter (· ≠ '-') := by
  unfold pyReplace
  induction s with
  | nil => rfl
  | cons c t ih =>
    unfold pyReplaceGo
    by_cases hc : c = '-'
    · subst hc
      simp [ih]
    · have : List.isPrefixOf ['-'] (c :: t) = false := by
        simp only [List.isPrefixOf, Bool.and_true]
        simpa using fun h => hc h.symm
      rw [this]
      simp [ih, hc]

theorem replace_no_dash {s : PyStr} (h : '-' ∉ s) : pyReplace ['-'] [] s = s := by
  rw [replace_dash, List.filter_eq_self]
  intro a ha
  simp only [decide_eq_true_eq]
  rintro rfl; exact h ha

theorem replace_dashed {s : PyStr} (h : '-' ∉ s) : pyReplace ['-'] [] (dashed s) = s := by
  rw [replace_dash]
  unfold dashed
  have : ∀ l : PyStr, '-' ∉ l → l.filter (· ≠ '-') = l := by
    intro l hl
    rw [List.filter_eq_self]
    intro a ha
    simp only [decide_eq_true_eq]
    rintro rfl; exact hl ha
  rw [List.filter_append, List.filter_cons_of_neg (by simp), List.filter_append,
    List.filter_cons_of_neg (by simp), this _ (fun h' => h (List.mem_of_mem_take h')),
    this _ (fun h' => h (List.mem_of_mem_drop (List.mem_of_mem_take h'))),
    this _ (fun h' => h (List.mem_of_mem_drop h'))]
  rw [show s.drop 6 = (s.drop 4).drop 2 by rw [List.drop_drop], List.take_append_drop, List.take_append_drop]

/-- lookup by an 8-character key -/
theorem lookup_table {names : List PyStr} {t : List HRec} (h : TOk names t) {key : PyStr}
    (hk : key.length = 8) :
    (do let arr ← findHolidaysForward ⟨names, tableText t⟩ key; return arr.head? : Except PyErr (Option Holiday))
      = .ok ((t.find? (fun r => r.day = key)).map (shown names)) := by
  rw [forward_table h hk.le (by rintro rfl; simp at hk)]
  show Except.ok _ = _
  rw [List.head?_map, head_search]
  congr 2
  have : ∀ l : List HRec, TOk names l → l.find? (fun r => decide (key <+: r.day)) = l.find? (fun r => decide (r.day = key)) := by
    intro l hl
    induction l with
    | nil => rfl
    | cons a l ih =>
      rw [List.find?_cons, List.find?_cons, ih (fun x hx => hl x (by simp [hx]))]
      have : (decide (key <+: a.day)) = decide (a.day = key) := by
        rw [decide_eq_decide, ← prefix_text (hl a (by simp)) hk.le, prefix_text8 (hl a (by simp)) hk]
      rw [this]
  exact this t h

theorem pyStrInt_four {y : ℤ} (h0 : 1000 ≤ y) (h1 : y ≤ 9999) : pyStrInt y = fmtD 4 y := by
  unfold pyStrInt fmtD
  rw [if_neg (by omega), if_neg (by omega)]
  unfold padZero
  have hl : (Nat.toDigits 10 y.natAbs).length = 4 := by
    obtain ⟨n, hn⟩ : ∃ n : ℕ, n = y.natAbs := ⟨_, rfl⟩
    rw [← hn]
    rw [Nat.toDigits_of_base_le (by norm_num) (by omega), Nat.toDigits_of_base_le (by norm_num) (by omega),
      Nat.toDigits_of_base_le (by norm_num) (by omega), Nat.toDigits_of_lt_base (by omega)]
    rfl
  rw [hl]

theorem padding_two {n : ℤ} (h0 : 0 ≤ n) (h1 : n ≤ 99) : padding n = fmtD 2 n := by
  unfold padding pyStrInt fmtD padZero
  rw [if_neg (show ¬ n < 0 by omega)]
  by_cases h : n < 10
  · rw [if_pos h, if_neg (by omega), Nat.toDigits_of_lt_base (by omega)]; rfl
  · rw [if_neg h, if_neg (by omega), Nat.toDigits_of_base_le (by norm_num) (by omega),
      Nat.toDigits_of_lt_base (by omega)]; rfl

theorem digit_eq (n : ℕ) : (n % 10).digitChar = digitCh n := by
  unfold digitCh
  have h : n % 10 < 10 := Nat.mod_lt _ (by norm_num)
  rw [show (((n : ℤ)) % 10).toNat = n % 10 by omega]
  generalize n % 10 = k at *
  interval_cases k <;> decide

theorem key_ymd8 {y m d : ℤ} (h0 : 1000 ≤ y) (h1 : y ≤ 9999) (m0 : 0 ≤ m) (m1 : m ≤ 99) (d0 : 0 ≤ d) (d1 : d ≤ 99) :
    pyStrInt y ++ padding m ++ padding d = ymd8 y m d := by
  rw [pyStrInt_four h0 h1, padding_two m0 m1, padding_two d0 d1,
    Str.fmtD_eq 3 y (by omega) (by omega), Str.fmtD_eq 1 m (by omega) (by omega), Str.fmtD_eq 1 d (by omega) (by omega)]
  obtain ⟨a, rfl⟩ := Int.eq_ofNat_of_zero_le (show 0 ≤ y by omega)
  obtain ⟨b, rfl⟩ := Int.eq_ofNat_of_zero_le m0
  obtain ⟨c, rfl⟩ := Int.eq_ofNat_of_zero_le d0
  simp only [Str.pad, Int.toNat_natCast, digit_eq, ymd8]
  simp [Nat.div_div_eq_div_mul]

theorem getHoliday_table {names : List PyStr} {t : List HRec} (h : TOk names t) {y m d : ℤ}
    (h0 : 1000 ≤ y) (h1 : y ≤ 9999) (m0 : 1 ≤ m) (m1 : m ≤ 99) (d0 : 1 ≤ d) (d1 : d ≤ 99) :
    getHoliday ⟨names, tableText t⟩ y m d
      = .ok ((t.find? (fun r => r.day = ymd8 y m d)).map (shown names)) := by
  unfold getHoliday getHolidayStr
  rw [if_neg (by omega), key_ymd8 h0 h1 (by omega) m1 (by omega) d1]
  exact lookup_table h rfl

theorem getHolidayStr_table {names : List PyStr} {t : List HRec} (h : TOk names t) {key : PyStr}
    (hk : key.length = 8) (hd : '-' ∉ key) :
    getHolidayStr ⟨names, tableText t⟩ key 0 0
      = .ok ((t.find? (fun r => r.day = key)).map (shown names)) := by
  unfold getHolidayStr
  rw [if_pos (by simp), replace_no_dash hd]
  exact lookup_table h hk

/-! ### contiguous runs -/

theorem takeWhile_filter {α : Type} (p : α → Bool) (l : List α) (x : α) (hx : p x = true)
    (h : ∀ a b c, [a, b, c].Sublist (x :: l) → p a = true → p c = true → p b = true) :
    l.takeWhile p = l.filter p := by
  induction l with
  | nil => rfl
  | cons a l ih =>
    rw [List.takeWhile_cons, List.filter_cons]
    cases c : p a with
    | true =>
      simp only [if_true]
      congr 1
      apply ih
      intro u v w hs
      apply h
      apply hs.trans
      rw [List.cons_sublist_cons]
      exact List.sublist_cons_self _ _
    | false =>
      simp only [Bool.false_eq_true, if_false]
      symm
      rw [List.filter_eq_nil_iff]
      intro w hw hpw
      have : [x, a, w].Sublist (x :: a :: l) := by
        rw [List.cons_sublist_cons, List.cons_sublist_cons, List.singleton_sublist]
        exact hw
      have := h x a w this hx hpw
      rw [c] at this; exact absurd this (by simp)

theorem run_filter {α : Type} (p : α → Bool) (l : List α)
    (h : ∀ a b c, [a, b, c].Sublist l → p a = true → p c = true → p b = true) :
    (l.dropWhile (fun x => !p x)).takeWhile p = l.filter p := by
  induction l with
  | nil => rfl
  | cons a l ih =>
    rw [List.dropWhile_cons, List.filter_cons]
    cases c : p a with
    | true =>
      simp only [Bool.not_true, Bool.false_eq_true, if_false, if_true]
      rw [List.takeWhile_cons_of_pos c, takeWhile_filter p l a c h]
    | false =>
      simp only [Bool.not_false, if_true, Bool.false_eq_true, if_false]
      exact ih (fun u v w hs => h u v w (hs.trans (List.sublist_cons_self _ _)))

theorem run_filter_back {α : Type} (p : α → Bool) (l : List α)
    (h : ∀ a b c, [a, b, c].Sublist l → p a = true → p c = true → p b = true) :
    (l.rdropWhile (fun x => !p x)).rtakeWhile p = l.filter p := by
  unfold List.rtakeWhile List.rdropWhile
  rw [List.reverse_reverse, run_filter p l.reverse, List.filter_reverse, List.reverse_reverse]
  intro a b c hs ha hc
  refine h c b a ?_ hc ha
  have := hs.reverse
  simpa using this

/-- a prefix shared by the ends of an ordered triple is shared by the middle -/
theorem prefix_between (key : PyStr) : ∀ {a b c : PyStr}, a.length = b.length → b.length = c.length →
    strLt b a = false → strLt c b = false → key <+: a → key <+: c → key <+: b := by
  induction key with
  | nil => intros; exact List.nil_prefix
  | cons k key ih =>
    intro a b c h1 h2 l1 l2 pa pc
    obtain ⟨a', rfl⟩ := pa
    obtain ⟨c', rfl⟩ := pc
    cases b with
    | nil => simp at h1
    | cons y b =>
      simp only [List.cons_append, List.length_cons, strLt] at h1 h2 l1 l2
      have hy : y = k := by
        apply Char.toNat_inj.1
        by_contra hne
        rcases lt_or_gt_of_ne hne with g | g
        · rw [if_pos g] at l1; simp at l1
        · rw [if_pos g] at l2; simp at l2
      subst hy
      simp only [lt_irrefl, if_false] at l1 l2
      rw [List.cons_prefix_cons]
      exact ⟨rfl, ih (a := key ++ a') (c := key ++ c') (by simpa using h1) (by simpa using h2) l1 l2
        (List.prefix_append _ _) (List.prefix_append _ _)⟩

/-- backward search on a well-formed table -/
theorem backward_table {names : List PyStr} {t : List HRec} (h : TOk names t) {key : PyStr}
    (hk : key.length = 8) :
    findHolidaysBackward ⟨names, tableText t⟩ key
      = .ok (((t.rdropWhile (fun r => !decide (r.target = key))).rtakeWhile
          (fun r => decide (r.target = key))).map (shown names)) := by
  unfold tableText
  rw [findHolidaysBackward_flat (by omega) (by omega) (tok_r18 h)]
  have e1 : ∀ x ∈ t, key.isSuffixOf x.text = decide (x.target = key) := by
    intro x hx
    rw [Bool.eq_iff_iff, List.isSuffixOf_iff_suffix, decide_eq_true_iff, suffix_text8 (h x hx) hk]
  have e2 : ((t.map HRec.text).rdropWhile (fun r => !key.isSuffixOf r)).rtakeWhile (fun r => key.isSuffixOf r)
      = ((t.rdropWhile (fun r => !decide (r.target = key))).rtakeWhile (fun r => decide (r.target = key))).map
        HRec.text := by
    unfold List.rtakeWhile List.rdropWhile
    rw [List.reverse_reverse, List.reverse_reverse, ← List.map_reverse, List.dropWhile_map, List.takeWhile_map,
      ← List.map_reverse]
    congr 2
    rw [dropWhile_congr' (q := fun r => !decide (r.target = key)) (by
      intro x hx; simp only [Function.comp]; rw [e1 x (by simpa using hx)])]
    rw [takeWhile_congr' (q := fun r => decide (r.target = key)) (by
      intro x hx
      exact e1 x (by simpa using (List.dropWhile_sublist _).subset hx))]
  rw [e2, ← List.map_reverse, List.mapM_map]
  rw [Cal.mapM_ok (g := shown names)]
  · show Except.ok _ = _
    rw [← List.map_reverse, List.reverse_reverse]
  · intro x hx
    refine build_rec (h x ?_)
    rw [List.mem_reverse] at hx
    exact (List.rdropWhile_prefix _ _).sublist.subset ((List.rtakeWhile_suffix _ _).sublist.subset hx)

/-! ### replace -/

/-- no occurrence of `old` at a position inside a record -/
def NoStraddle (old : PyStr) (l : List PyStr) : Prop :=
  ∀ k i, 0 < i → i < 18 → ¬ old <+: l.flatten.drop (18 * k + i)

theorem replaceGo_skip (old new : PyStr) (k : ℕ) (s : PyStr) :
    pyReplaceGo old new k s = pyReplaceGo old new 0 (s.drop k) := by
  induction k generalizing s with
  | zero => rfl
  | succ k ih =>
    cases s with
    | nil => simp [pyReplaceGo]
    | cons c t =>
      rw [List.drop_succ_cons, ← ih]; rfl

theorem replaceGo_keep (old new : PyStr) (n : ℕ) (s : PyStr)
    (h : ∀ i < n, ¬ old <+: s.drop i) :
    pyReplaceGo old new 0 s = s.take n ++ pyReplaceGo old new 0 (s.drop n) := by
  induction n generalizing s with
  | zero => simp
  | succ n ih =>
    cases s with
    | nil => simp [pyReplaceGo]
    | cons c t =>
      have hp : old.isPrefixOf (c :: t) = false := pfalse (h 0 (by omega))
      have := ih t (fun i hi => h (i + 1) (by omega))
      conv_lhs => unfold pyReplaceGo
      rw [hp]
      simp only [Bool.false_eq_true, if_false]
      rw [this]; rfl

theorem replace_flat {old new : PyStr} (ho : old.length = 18) {l : List PyStr} (hl : R18 l)
    (hs : NoStraddle old l) :
    pyReplace old new l.flatten = (l.map (fun r => if r = old then new else r)).flatten := by
  unfold pyReplace
  induction l with
  | nil => rfl
  | cons r l ih =>
    obtain ⟨hr, hl'⟩ := hl.cons
    have hs' : NoStraddle old l := by
      intro k i h0 h1 hp
      refine hs (k + 1) i h0 h1 ?_
      rw [List.flatten_cons, show 18 * (k + 1) + i = r.length + (18 * k + i) by rw [hr]; ring,
        List.drop_length_add_append]
      exact hp
    have hd : (r :: l).flatten.drop 18 = l.flatten := by
      have := flat_drop hl 1
      simpa using this
    have ht : (r :: l).flatten.take 18 = r := by
      have := flat_take hl 1
      simpa using this
    have hR : ((r :: l).map (fun r => if r = old then new else r)).flatten
      = (if r = old then new else r) ++ (l.map (fun r => if r = old then new else r)).flatten := rfl
    rw [hR]
    by_cases c : r = old
    · subst c
      rw [if_pos rfl, ← ih hl' hs', List.flatten_cons]
      cases r with
      | nil => simp at hr
      | cons x r =>
        rw [List.cons_append]
        conv_lhs => unfold pyReplaceGo
        have : (x :: r).isPrefixOf (x :: (r ++ l.flatten)) = true := by simp
        rw [this]
        simp only [if_true]
        rw [replaceGo_skip, List.length_cons, Nat.add_sub_cancel, List.drop_left]
    · rw [if_neg c, ← ih hl' hs']
      rw [replaceGo_keep old new 18, hd, ht]
      intro i hi hp
      by_cases hi0 : i = 0
      · subst hi0
        rw [List.drop_zero, List.flatten_cons, prefix_rec (by omega)] at hp
        exact c (hp.eq_of_length (by omega)).symm
      · exact hs 0 i (by omega) hi (by simpa using hp)

theorem find_map_update {t : List HRec} {r s : HRec} (hs : s.day = r.day) (q : PyStr) :
    (t.map (fun x => if x = r then s else x)).find? (fun x => x.day = q)
      = if q = r.day then (t.find? (fun x => x.day = q)).map (fun x => if x = r then s else x)
        else t.find? (fun x => x.day = q) := by
  induction t with
  | nil => simp
  | cons a t ih =>
    rw [List.map_cons, List.find?_cons, List.find?_cons, ih]
    by_cases ha : a = r
    · subst ha
      rw [if_pos rfl, hs]
      by_cases hq : a.day = q
      · subst hq; simp
      · have : ¬ q = a.day := fun h => hq h.symm
        simp [hq, this]
    · rw [if_neg ha]
      by_cases hq : a.day = q
      · subst hq; simp [ha]
      · simp [hq]

theorem find_filter {t : List HRec} {r : HRec} (hn : (t.map HRec.day).Nodup) (hr : r ∈ t) (q : PyStr) :
    (t.filter (fun x => x ≠ r)).find? (fun x => x.day = q)
      = if q = r.day then none else t.find? (fun x => x.day = q) := by
  split_ifs with hq
  · rw [List.find?_eq_none]
    intro x hx
    simp only [List.mem_filter, decide_eq_true_eq] at hx ⊢
    intro e
    exact hx.2 (List.inj_on_of_nodup_map hn hx.1 hr (by rw [e, hq]))
  · clear hn hr
    induction t with
    | nil => rfl
    | cons a t ih =>
      by_cases ha : a = r
      · subst ha
        have : ¬ a.day = q := fun h => hq h.symm
        rw [List.filter_cons_of_neg (by simp), List.find?_cons_of_neg (by simpa using this), ih]
      · rw [List.filter_cons_of_pos (by simpa using ha), List.find?_cons, List.find?_cons, ih]

theorem text_inj {k : ℕ} {a b : HRec} (ha : a.Ok k) (hb : b.Ok k) (h : a.text = b.text) : a = b := by
  unfold HRec.text at h
  obtain ⟨h1, h2⟩ := List.append_inj h (by rw [ha.dayLen, hb.dayLen])
  cases a; cases b
  simp only [List.cons.injEq] at h1 h2
  simp [h1, h2]

theorem nameIndex_spec {names : List PyStr} (hn : names.Nodup) {i : ℕ} (hi : i < names.length) :
    nameIndex names (names.getD i []) = i := by
  unfold nameIndex
  have : names.findIdx? (· == names.getD i []) = some i := by
    rw [List.findIdx?_eq_some_iff_getElem]
    refine ⟨hi, ?_, ?_⟩
    · simp [List.getD_eq_getElem?_getD, List.getElem?_eq_getElem hi]
    · intro j hj
      simp only [List.getD_eq_getElem?_getD, List.getElem?_eq_getElem hi, Option.getD_some, beq_iff_eq]
      intro e
      have := (List.Nodup.getElem_inj_iff hn).1 e
      omega
  rw [this]

/-- the string searched for by `fix` is the record's own text -/
theorem old_text {names : List PyStr} (hn : names.Nodup) {r : HRec} (h : r.Ok names.length)
    (hw : r.workCh = '0' ∨ r.workCh = '1') :
    r.day ++ [Char.ofNat (nameIndex names (shown names r).name + 48).toNat]
      ++ (if (shown names r).work then ['0'] else ['1']) ++ pyReplace ['-'] [] (shown names r).target = r.text := by
  have h1 : nameIndex names (shown names r).name = ((r.nameCh.toNat - 48 : ℕ) : ℤ) :=
    nameIndex_spec hn (by have := h.lo; have := h.hi; omega)
  have h2 : pyReplace ['-'] [] (shown names r).target = r.target := replace_dashed h.targetDash
  have h3 : (if (shown names r).work = true then ['0'] else ['1']) = [r.workCh] := by
    unfold shown
    rcases hw with e | e <;> simp [e]
  have h4 : Char.ofNat (((r.nameCh.toNat - 48 : ℕ) : ℤ) + 48).toNat = r.nameCh := by
    rw [show ((((r.nameCh.toNat - 48 : ℕ) : ℤ)) + 48).toNat = r.nameCh.toNat by have := h.lo; omega]
    exact Char.ofNat_toNat _
  rw [h1, h2, h3, h4]
  unfold HRec.text
  simp

/-- text of the table after one round of `fix` -/
theorem fixStep_table {names : List PyStr} (hn : names.Nodup) {t : List HRec} (h : TOk names t)
    (hd : (t.map HRec.day).Nodup) (hw : ∀ r ∈ t, r.workCh = '0' ∨ r.workCh = '1')
    (append seg : PyStr) (hseg : seg.length = 18) (hdash : '-' ∉ seg.take 8)
    (hs : ∀ r ∈ t, r.day = seg.take 8 → NoStraddle r.text (t.map HRec.text)) :
    fixStep names (tableText t) append seg = .ok (
      match t.find? (fun r => r.day = seg.take 8) with
      | none => (tableText t, if seg[8]? = some '~' then append else append ++ seg)
      | some r => (if seg[8]? = some '~' then tableText (t.filter (fun x => x ≠ r))
          else (t.map (fun x => if x = r then seg else x.text)).flatten, append)) := by
  have hrem : ((['~'] : PyStr) = pySlice seg 8 9) ↔ seg[8]? = some '~' := by
    rw [show pySlice seg 8 9 = (seg.drop 8).take 1 from rfl,
      List.drop_eq_getElem_cons (by omega : 8 < seg.length), List.getElem?_eq_getElem (by omega : 8 < seg.length)]
    simp only [List.take_succ_cons, List.take_zero, List.cons.injEq, and_true, Option.some.injEq]
    exact eq_comm
  unfold fixStep
  dsimp only
  rw [getHolidayStr_table h (by simp [hseg]) hdash]
  cases hf : t.find? (fun r => decide (r.day = seg.take 8)) with
  | none =>
    show Except.ok _ = _
    simp only [hrem]
  | some r =>
    have hr := List.mem_of_find?_eq_some hf
    have hday : r.day = seg.take 8 := by
      have := List.find?_some hf
      simpa using this
    have ho := old_text hn (h r hr) (hw r hr)
    rw [hday] at ho
    have hidx : nameIndex names (shown names r).name > -1 := by
      have : nameIndex names (shown names r).name = ((r.nameCh.toNat - 48 : ℕ) : ℤ) :=
        nameIndex_spec hn (by have := (h r hr).lo; have := (h r hr).hi; omega)
      omega
    show (if nameIndex names (shown names r).name > -1 then Except.ok _ else _) = _
    rw [if_pos hidx]
    dsimp only
    rw [ho]
    unfold tableText
    rw [replace_flat (text_length (h r hr)) (tok_r18 h) (hs r hr hday)]
    congr 2
    simp only [hrem]
    have hti : ∀ x ∈ t, (x.text = r.text ↔ x = r) :=
      fun x hx => ⟨fun e => text_inj (h x hx) (h r hr) e, fun e => by rw [e]⟩
    have hmap : ∀ new : PyStr, (t.map HRec.text).map (fun x => if x = r.text then new else x)
        = t.map (fun x => if x = r then new else x.text) := by
      intro new
      rw [List.map_map]
      apply List.map_congr_left
      intro x hx
      simp only [Function.comp, hti x hx]
    rw [hmap]
    split_ifs with c
    · clear hf hr hs hw hd h hti hmap ho hday hidx
      induction t with
      | nil => rfl
      | cons a t ih =>
        by_cases ha : a = r
        · subst ha
          rw [List.map_cons, List.filter_cons_of_neg (by simp), if_pos rfl, List.flatten_cons, ih]; rfl
        · rw [List.map_cons, List.filter_cons_of_pos (by simpa using ha), if_neg ha, List.flatten_cons, ih]; rfl
    · rfl

end Hol
