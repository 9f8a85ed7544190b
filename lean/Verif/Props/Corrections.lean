import Verif.Proof.Corrections

/-! # C103: corrections of the built-in holiday records -/

/-- a correction a user hands to `HolidayUtil.fix`: a new or changed day, or the removal of a day (nine characters after `~` are ignored) -/
inductive Spec.Correction
  | put (day : Date) (name : ℕ) (work : Bool) (feast : Date)
  | drop (day : Date) (rest : List Char)

namespace Spec.Correction

/-- the day corrected -/
def day : Correction → Date
  | put x _ _ _ => x
  | drop x _ => x

/-- the eighteen characters of the correction -/
def text : Correction → List Char
  | put x n w t => ymd8 x.y x.m x.d ++ [digitCh n, if w then '0' else '1'] ++ ymd8 t.y t.m t.d
  | drop x r => ymd8 x.y x.m x.d ++ '~' :: r

/-- what is known about the day afterwards -/
def result : Correction → Option Holiday
  | put x n w t => some ⟨dashed (ymd8 x.y x.m x.d), HolidayUtil.NAMES.getD n [], w, dashed (ymd8 t.y t.m t.d)⟩
  | drop _ _ => none

/-- days of this century from 2024 on in years ending in 4 to 9, one of the nine names, a festival in the same or a neighbouring year -/
def Usual : Correction → Prop
  | put x n _ t => x.Valid ∧ 2024 ≤ x.y ∧ x.y ≤ 2099 ∧ 4 ≤ x.y % 10 ∧ n < 9 ∧ t.Valid ∧ t.y ≤ 2099 ∧ x.y - 1 ≤ t.y ∧ t.y ≤ x.y + 1
  | drop x r => x.Valid ∧ 2024 ≤ x.y ∧ x.y ≤ 2099 ∧ 4 ≤ x.y % 10 ∧ r.length = 9

/-- the correction in force for a day after several calls of `fix` -/
def latest : List (List Correction) → Date → Option Correction
  | [], _ => none
  | c :: cs, x => (latest cs x).or (c.find? (fun k => k.day = x))

/-- calls of `fix` one after the other; the first exception ends the run -/
def calls (st : HState) : List (List Correction) → Except PyErr HState
  | [] => .ok st
  | c :: cs => match HolidayUtil.fix st none (some (c.map text).flatten) with
    | (st', .ok _) => calls st' cs
    | (_, .error e) => .error e

end Spec.Correction

section
open Spec HolidayUtil Hol HData

/-- a date as a number of eight digits -/
private def dnum (x : Date) : ℕ := (x.y * 10000 + x.m * 100 + x.d).toNat

private theorem num_eq {x : Date} (hx : x.Valid) (x0 : 1000 ≤ x.y) (x1 : x.y ≤ 9999) :
    ymd8 x.y x.m x.d = digits 8 (dnum x) ∧ dnum x < 100000000 ∧ (dnum x : ℤ) = x.y * 10000 + x.m * 100 + x.d ∧
      1 ≤ x.m ∧ x.m ≤ 12 ∧ 1 ≤ x.d ∧ x.d ≤ 31 := by
  have := Cal.lastDay_bounds x.y x.m
  obtain ⟨h1, h2, h3, h4, -⟩ := hx
  unfold dnum
  exact ⟨ymd8_digits (by omega) x1 (by omega) (by omega) (by omega) (by omega), by omega, by omega, by omega, by omega, by omega, by omega⟩

private theorem num_inj {x y : Date} (hx : x.Valid) (x0 : 1000 ≤ x.y) (x1 : x.y ≤ 9999) (hy : y.Valid) (y0 : 1000 ≤ y.y) (y1 : y.y ≤ 9999)
    (h : dnum x = dnum y) : x = y := by
  obtain ⟨-, -, a, b⟩ := num_eq hx x0 x1
  obtain ⟨-, -, c, d⟩ := num_eq hy y0 y1
  rw [h] at a
  obtain ⟨p, q, r⟩ := x
  obtain ⟨p', q', r'⟩ := y
  simp only [Date.mk.injEq]
  dsimp only at *
  omega

private theorem usual_day {c : Correction} (h : c.Usual) : c.day.Valid ∧ 2024 ≤ c.day.y ∧ c.day.y ≤ 2099 ∧ 4 ≤ c.day.y % 10 := by
  cases c with
  | put x n w t => exact ⟨h.1, h.2.1, h.2.2.1, h.2.2.2.1⟩
  | drop x r => exact ⟨h.1, h.2.1, h.2.2.1, h.2.2.2.1⟩

/-- the record written -/
private def recNum (x : Date) (n : ℕ) (w : Bool) (t : Date) : ℕ := ((dnum x * 10 + n) * 10 + if w then 0 else 1) * 100000000 + dnum t

private def segOf : Correction → Seg
  | .put x n w t => ⟨dnum x, some (recNum x n w t), (Correction.put x n w t).text⟩
  | .drop x r => ⟨dnum x, none, (Correction.drop x r).text⟩

private theorem segOf_key (c : Correction) : (segOf c).key = dnum c.day := by cases c <;> rfl

private theorem segOf_text (c : Correction) : (segOf c).text = c.text := by cases c <;> rfl

private theorem digitCh_ch {n : ℕ} : digitCh n = ch n := by
  unfold digitCh ch
  congr 2

private theorem parts {r a n k t : ℕ} (e : r = ((a * 10 + n) * 10 + k) * 100000000 + t) (hn : n < 10) (hk : k < 10) (ht : t < 100000000) :
    r / 10 ^ 10 = a ∧ r / 10 ^ 9 % 10 = n ∧ r / 10 ^ 8 % 10 = k ∧ r % 10 ^ 8 = t := by
  norm_num
  refine ⟨by omega, ?_, by omega, by omega⟩
  have : r / 1000000000 = a * 10 + n := by omega
  omega

private theorem fields {r a t : ℕ} (h1 : r / 10 ^ 10 = a) (h2 : r % 10 ^ 8 = t) :
    r / 100000000000000 = a / 10000 ∧ r / 1000000000000 % 100 = a / 100 % 100 ∧ r / 10000000000 % 100 = a % 100 ∧
    r / 10000 % 10000 = t / 10000 ∧ r / 100 % 100 = t / 100 % 100 ∧ r % 100 = t % 100 := by
  norm_num at h1 h2
  refine ⟨by clear h2; omega, ?_, by clear h2; omega, by clear h1; omega, by clear h1; omega, by clear h1; omega⟩
  have : r / 1000000000000 = a / 100 := by clear h2; omega
  rw [this]

private theorem put_rec {x t : Date} {n : ℕ} {w : Bool} (h : (Correction.put x n w t).Usual) :
    (Correction.put x n w t).text = digits 18 (recNum x n w t) ∧ HData.key (recNum x n w t) = dnum x ∧ Fine (recNum x n w t) ∧
    some (shown NAMES (recOf (recNum x n w t))) = (Correction.put x n w t).result := by
  obtain ⟨hx, x0, x1, x2, hn, ht, t0, t1, t2⟩ := h
  obtain ⟨ex, lx, nx, bx⟩ := num_eq hx (by omega) (by omega)
  obtain ⟨et, lt, nt, bt⟩ := num_eq ht (by omega) (by omega)
  have key : ∃ k : ℕ, k < 2 ∧ (if w then 0 else 1) = k ∧ (if w then '0' else '1') = ch k ∧ (w = decide (ch k = '0')) := by
    cases w
    · exact ⟨1, by decide⟩
    · exact ⟨0, by decide⟩
  obtain ⟨k, k2, ek, ck, wk⟩ := key
  have er : recNum x n w t = ((dnum x * 10 + n) * 10 + k) * 100000000 + dnum t := by unfold recNum; rw [ek]
  obtain ⟨d10, d9, d8, d0⟩ := parts er (by omega) (by omega) lt
  have ro : recOf (recNum x n w t) = ⟨digits 8 (dnum x), ch n, ch k, digits 8 (dnum t)⟩ := by
    unfold recOf
    rw [d10, digits_mod 8 (recNum x n w t), d0]
    unfold ch
    rw [d9, d8, Nat.mod_eq_of_lt (by omega : n < 10), Nat.mod_eq_of_lt (by omega : k < 10)]
  refine ⟨?_, ?_, ?_, ?_⟩
  · rw [← recOf_text, ro]
    unfold Correction.text HRec.text
    simp only [ex, et, digitCh_ch, ck]
    simp
  · rw [← d10]; rfl
  · obtain ⟨q1, q2, q3, q4, q5, q6⟩ := fields d10 d0
    have l18 : recNum x n w t < 1000000000000000000 := by clear q1 q2 q3 q4 q5 q6 d0 d8 d9; norm_num at d10; omega
    norm_num at d9 d8
    clear er ro ex et d10 d0
    refine ⟨⟨l18, by rw [d9]; exact hn, by rw [d8]; exact k2, ?_, ?_, ?_, ?_, ?_, ?_⟩, ?_, ?_, ?_⟩ <;> clear d8 d9 l18
    · rw [q1]; clear q1 q2 q3 q4 q5 q6; omega
    · rw [q2]; clear q1 q2 q3 q4 q5 q6; omega
    · rw [q3]; clear q1 q2 q3 q4 q5 q6; omega
    · rw [q4]; clear q1 q2 q3 q4 q5 q6; omega
    · rw [q5]; clear q1 q2 q3 q4 q5 q6; omega
    · rw [q6]; clear q1 q2 q3 q4 q5 q6; omega
    · rw [q1]; clear q1 q2 q3 q4 q5 q6; omega
    · rw [q1]; clear q1 q2 q3 q4 q5 q6; omega
    · rw [q1, q4]; clear q1 q2 q3 q4 q5 q6; omega
  · rw [ro]
    unfold shown Correction.result
    simp only [ex, et, ch_toNat, ← wk]
    rw [Nat.mod_eq_of_lt (by omega : n < 10), Nat.add_sub_cancel_left]

private theorem segOf_ok {c : Correction} (h : c.Usual) : (segOf c).Ok := by
  obtain ⟨hd, h0, h1, -⟩ := usual_day h
  obtain ⟨e, l, v, b⟩ := num_eq hd (by omega) (by omega)
  have ge : 20240000 ≤ dnum c.day := by omega
  cases c with
  | put x n w t =>
    obtain ⟨p1, p2, p3, -⟩ := put_rec h
    refine ⟨?_, ?_, l, ge, fun c => by simp [segOf] at c, ?_⟩
    · show (Correction.put x n w t).text.length = 18
      rw [p1, digits_length]
    · show (Correction.put x n w t).text.take 8 = digits 8 (dnum x)
      show (ymd8 x.y x.m x.d ++ [digitCh n, if w then '0' else '1'] ++ ymd8 t.y t.m t.d).take 8 = digits 8 (dnum x)
      rw [List.append_assoc, List.take_left' (by rfl)]
      exact e
    · intro m hm
      obtain rfl := Option.some.inj hm
      exact ⟨p1, p2, p3⟩
  | drop x r =>
    refine ⟨?_, ?_, l, ge, fun _ => ?_, fun n hn => by simp [segOf] at hn⟩
    · show (ymd8 x.y x.m x.d ++ '~' :: r).length = 18
      rw [List.length_append, List.length_cons, h.2.2.2.2]; rfl
    · show (ymd8 x.y x.m x.d ++ '~' :: r).take 8 = _
      rw [List.take_left' (by rfl)]
      exact e
    · show (ymd8 x.y x.m x.d ++ '~' :: r)[8]? = some '~'
      rw [List.getElem?_append_right (by exact le_refl 8)]
      rfl

private theorem segOf_new {c : Correction} (h : c.Usual) : (segOf c).new.map (fun n => shown NAMES (recOf n)) = c.result := by
  cases c with
  | put x n w t => exact (put_rec h).2.2.2
  | drop x r => rfl

/-- what a table says about a day -/
private def view (rest : List ℕ) (x : Date) : Option Holiday := (look (before ++ rest) (dnum x)).map (fun n => shown NAMES (recOf n))

private theorem getHoliday_view {rest : List ℕ} (T : Table rest) {x : Date} (hx : x.Valid) (x0 : 1000 ≤ x.y) (x1 : x.y ≤ 9999) :
    getHoliday ⟨NAMES, txt (before ++ rest)⟩ x.y x.m x.d = .ok (view rest x) := by
  obtain ⟨e, l, -, a, b, c, d⟩ := num_eq hx x0 x1
  rw [txt_table, C24_getHoliday NAMES _ (fixable T).ok x.y x.m x.d x0 x1 a b c d, e, find_table (lt_all T) l, Option.map_map]
  rfl

private theorem initial_table : initial = ⟨NAMES, txt (before ++ after)⟩ ∧ Table after := by
  constructor
  · rw [before_after]; rfl
  · refine ⟨fun n => after_mem, ?_⟩
    have h : (RECORDS.map HData.key).Nodup := by
      rw [List.nodup_iff_pairwise_ne, List.pairwise_map]
      refine sorted.imp ?_
      intro a b h
      have := h.1
      unfold HData.key
      norm_num at this
      omega
    rw [← before_after, List.map_append] at h
    exact h.of_append_right

private theorem one_call {c : List Correction} {rest : List ℕ} (T : Table rest) (hu : ∀ k ∈ c, k.Usual) (hd : (c.map Correction.day).Nodup) :
    ∃ rest', fix ⟨NAMES, txt (before ++ rest)⟩ none (some (c.map Correction.text).flatten) = (⟨NAMES, txt (before ++ rest')⟩, .ok ()) ∧ Table rest' ∧
      ∀ x : Date, x.Valid → 1000 ≤ x.y → x.y ≤ 9999 → view rest' x = match c.find? (fun k => k.day = x) with
        | some k => k.result
        | none => view rest x := by
  have inj : ∀ a ∈ c, ∀ x : Date, x.Valid → 1000 ≤ x.y → x.y ≤ 9999 → ((segOf a).key = dnum x ↔ a.day = x) := by
    intro a ha x hx x0 x1
    obtain ⟨h1, h2, h3, -⟩ := usual_day (hu a ha)
    rw [segOf_key]
    exact ⟨num_inj h1 (by omega) (by omega) hx x0 x1, fun e => by rw [e]⟩
  have nd : ((c.map segOf).map Seg.key).Nodup := by
    rw [List.map_map, List.nodup_iff_pairwise_ne, List.pairwise_map]
    rw [List.nodup_iff_pairwise_ne, List.pairwise_map] at hd
    refine hd.imp_of_mem ?_
    intro a b ha hb h e
    obtain ⟨h1, h2, h3, -⟩ := usual_day (hu b hb)
    simp only [Function.comp] at e
    rw [segOf_key b] at e
    exact h ((inj a ha b.day h1 (by omega) (by omega)).1 e)
  obtain ⟨rest', h1, h2, h3⟩ := fix_segs (segs := c.map segOf) T
    (by intro s hs; obtain ⟨k, hk, rfl⟩ := List.mem_map.1 hs; exact segOf_ok (hu k hk)) nd
  refine ⟨rest', ?_, h2, ?_⟩
  · rw [List.map_map, show Seg.text ∘ segOf = Correction.text from funext segOf_text] at h1
    exact h1
  · intro x hx x0 x1
    have ef : (c.map segOf).find? (fun s => s.key = dnum x) = (c.find? (fun k => k.day = x)).map segOf := by
      clear h1 h2 h3 nd hd
      induction c with
      | nil => rfl
      | cons a c ih =>
        have e := inj a (by simp) x hx x0 x1
        rw [List.map_cons, List.find?_cons, List.find?_cons]
        by_cases q : a.day = x
        · simp [q, e.2 q]
        · have : ¬ (segOf a).key = dnum x := fun h => q (e.1 h)
          simp only [q, this, decide_false]
          exact ih (fun k hk => hu k (List.mem_cons_of_mem _ hk)) (fun k hk => inj k (List.mem_cons_of_mem _ hk))
    unfold view
    rw [look_append, h3, look_append]
    unfold outcome
    rw [ef]
    cases hc : c.find? (fun k => decide (k.day = x)) with
    | none => rfl
    | some k =>
      have hk := hu k (List.mem_of_find?_eq_some hc)
      have kd : k.day = x := by have := List.find?_some hc; simpa using this
      have ge := (segOf_ok hk).ge
      rw [segOf_key, kd] at ge
      rw [look_before ge]
      exact segOf_new hk

private theorem all_calls : ∀ (cs : List (List Correction)) (rest : List ℕ), Table rest → (∀ c ∈ cs, (∀ k ∈ c, k.Usual) ∧ (c.map Correction.day).Nodup) →
    ∃ rest', Correction.calls ⟨NAMES, txt (before ++ rest)⟩ cs = .ok ⟨NAMES, txt (before ++ rest')⟩ ∧ Table rest' ∧
      ∀ x : Date, x.Valid → 1000 ≤ x.y → x.y ≤ 9999 → view rest' x = match Correction.latest cs x with
        | some k => k.result
        | none => view rest x
  | [], rest, T, _ => ⟨rest, rfl, T, fun _ _ _ _ => rfl⟩
  | c :: cs, rest, T, h => by
    obtain ⟨r1, e1, T1, v1⟩ := one_call T (h c (by simp)).1 (h c (by simp)).2
    obtain ⟨r2, e2, T2, v2⟩ := all_calls cs r1 T1 (fun k hk => h k (List.mem_cons_of_mem _ hk))
    refine ⟨r2, ?_, T2, ?_⟩
    · unfold Correction.calls
      rw [e1]
      exact e2
    · intro x hx x0 x1
      rw [v2 x hx x0 x1]
      rw [show Correction.latest (c :: cs) x = (Correction.latest cs x).or (c.find? (fun k => k.day = x)) from rfl]
      cases Correction.latest cs x with
      | some k => simp only [Option.some_or]
      | none =>
        simp only [Option.none_or]
        exact v1 x hx x0 x1

/-- **C103 (partial)** corrections of the built-in data, in any number of calls of `fix` with any number of corrections of different days each:
no call fails, and afterwards a day is as its latest correction says, or as before if there was none.
Missing: corrections of years ending in 0 to 3, where the text of a record may also be found across the border of two others (`C27_violated`),
and two corrections of one day in one call (`C103_violated_twice`). -/
theorem C103_corrections_partial (cs : List (List Correction)) (h : ∀ c ∈ cs, (∀ k ∈ c, k.Usual) ∧ (c.map Correction.day).Nodup) :
    ∃ st, Correction.calls initial cs = .ok st ∧
      ∀ x : Date, x.Valid → 1000 ≤ x.y → x.y ≤ 9999 → getHoliday st x.y x.m x.d = match Correction.latest cs x with
        | some k => .ok k.result
        | none => getHoliday initial x.y x.m x.d := by
  obtain ⟨ei, Ti⟩ := initial_table
  rw [ei]
  obtain ⟨r, e, T, v⟩ := all_calls cs after Ti h
  refine ⟨_, e, fun x hx x0 x1 => ?_⟩
  rw [getHoliday_view T hx x0 x1, getHoliday_view Ti hx x0 x1, v x hx x0 x1]
  cases Correction.latest cs x <;> rfl

/-- **C103** a corrected day stays in effect for later lookups until another call corrects it; put and removed again, a day is unknown -/
theorem C103_undo (x t : Date) (n : ℕ) (w : Bool) (r : List Char) (h1 : (Correction.put x n w t).Usual) (h2 : r.length = 9) :
    ∃ s1 s2, Correction.calls initial [[.put x n w t]] = .ok s1 ∧ Correction.calls s1 [[.drop x r]] = .ok s2 ∧
      getHoliday s1 x.y x.m x.d = .ok (some ⟨dashed (ymd8 x.y x.m x.d), NAMES.getD n [], w, dashed (ymd8 t.y t.m t.d)⟩) ∧
      getHoliday s2 x.y x.m x.d = .ok none := by
  obtain ⟨hx, x0, x1, -⟩ := usual_day h1
  change x.Valid at hx
  change 2024 ≤ x.y at x0
  change x.y ≤ 2099 at x1
  obtain ⟨ei, Ti⟩ := initial_table
  rw [ei]
  obtain ⟨r1, e1, T1, v1⟩ := all_calls [[.put x n w t]] after Ti (by simpa using h1)
  obtain ⟨r2, e2, T2, v2⟩ := all_calls [[.drop x r]] r1 T1 (by
    have : (Correction.drop x r).Usual := ⟨h1.1, h1.2.1, h1.2.2.1, h1.2.2.2.1, h2⟩
    intro c hc
    obtain rfl := List.mem_singleton.1 hc
    exact ⟨fun k hk => (List.mem_singleton.1 hk) ▸ this, by simp⟩)
  refine ⟨_, _, e1, e2, ?_, ?_⟩
  · rw [getHoliday_view T1 hx (by omega) (by omega), v1 x hx (by omega) (by omega)]
    simp [Correction.latest, Correction.day, Correction.result]
  · rw [getHoliday_view T2 hx (by omega) (by omega), v2 x hx (by omega) (by omega)]
    simp [Correction.latest, Correction.day, Correction.result]

private theorem step_new {rest app : List ℕ} {s : Seg} (h : look rest s.key = none) : step (rest, app) s = (rest, app ++ s.new.toList) := by
  unfold step
  dsimp only
  rw [h]

private theorem look_pair {a b K : ℕ} (h : HData.key a = K) : look [a, b] K = some a := by
  unfold look
  rw [List.find?_cons_of_pos (by simp [h])]

private theorem calls_one {st st' : HState} {c : List Correction} (h : fix st none (some (c.map Correction.text).flatten) = (st', .ok ())) :
    Correction.calls st [c] = .ok st' := by
  unfold Correction.calls
  rw [h]
  rfl

/-- two segments in one call -/
private theorem fix_two {tbl s1 s2 a1 a2 : PyStr} (l1 : s1.length = 18) (l2 : s2.length = 18) (f1 : fixStep NAMES tbl [] s1 = .ok (tbl, a1))
    (f2 : fixStep NAMES tbl a1 s2 = .ok (tbl, a2)) : fix ⟨NAMES, tbl⟩ none (some (s1 ++ s2)) = (⟨NAMES, tbl ++ a2⟩, .ok ()) := by
  have e : fixLoop NAMES (s1 ++ s2).length tbl [] (s1 ++ s2) = (tbl, .ok a2) := by
    rw [show (s1 ++ s2).length = 34 + 1 + 1 by rw [List.length_append, l1, l2]]
    unfold fixLoop
    rw [if_pos (by rw [List.length_append, l1, l2]; omega), List.take_left' l1, List.drop_left' l1, f1]
    dsimp only
    unfold fixLoop
    rw [if_pos (by rw [l2]), List.take_of_length_le (by rw [l2]), List.drop_of_length_le (by rw [l2]), f2]
    rfl
  unfold fix
  dsimp only [Option.getD_none]
  rw [e]

/-- **C103 violated** two corrections of the same new day in one call: the first stays in force (for a day of the data, or in two calls, it is the second) -/
theorem C103_violated_twice (x t t' : Date) (n n' : ℕ) (w w' : Bool) (h1 : (Correction.put x n w t).Usual) (h2 : (Correction.put x n' w' t').Usual)
    (hy : 2027 ≤ x.y) :
    ∃ s, Correction.calls initial [[.put x n w t, .put x n' w' t']] = .ok s ∧ getHoliday s x.y x.m x.d = .ok (Correction.put x n w t).result := by
  obtain ⟨hx, x0, x1, -⟩ := usual_day h1
  change x.Valid at hx
  change x.y ≤ 2099 at x1
  obtain ⟨ei, Ti⟩ := initial_table
  obtain ⟨p1, p2, p3, p4⟩ := put_rec h1
  obtain ⟨q1, q2, q3, -⟩ := put_rec h2
  obtain ⟨ex, lx, vx, a, b, c, d⟩ := num_eq hx (by omega) (by omega)
  have none : look after (dnum x) = none := by
    rw [look_none]
    intro h
    obtain ⟨r, hr, e⟩ := List.mem_map.1 h
    have hr : r ∈ RECORDS := by rw [← before_after]; exact List.mem_append_right _ hr
    have f := (facts hr).year
    unfold HData.day at f
    dsimp only at f
    unfold HData.key at e
    omega
  have f1 := fixStep_seg (app := []) Ti (segOf_ok h1)
  have f2 := fixStep_seg (app := [recNum x n w t]) Ti (segOf_ok h2)
  have s1 : step (after, []) (segOf (.put x n w t)) = (after, [recNum x n w t]) := by
    exact step_new none
  have s2 : step (after, [recNum x n w t]) (segOf (.put x n' w' t')) = (after, [recNum x n w t, recNum x n' w' t']) := by
    exact step_new none
  rw [s1, segOf_text, show txt [] = [] from rfl] at f1
  rw [s2, segOf_text] at f2
  dsimp only at f1 f2
  have l1 : (Correction.put x n w t).text.length = 18 := by rw [p1, digits_length]
  have l2 : (Correction.put x n' w' t').text.length = 18 := by rw [q1, digits_length]
  refine ⟨⟨NAMES, txt (before ++ (after ++ [recNum x n w t, recNum x n' w' t']))⟩, ?_, ?_⟩
  · have e := fix_two l1 l2 f1 f2
    rw [← txt_append, List.append_assoc] at e
    rw [ei]
    apply calls_one
    rw [show ([Correction.put x n w t, Correction.put x n' w' t'].map Correction.text).flatten
        = (Correction.put x n w t).text ++ (Correction.put x n' w' t').text by
      simp only [List.map_cons, List.map_nil, List.flatten_cons, List.flatten_nil, List.append_nil], e]
  · have lt : ∀ k ∈ before ++ (after ++ [recNum x n w t, recNum x n' w' t']), k < 10 ^ 18 := by
      intro k hk
      rw [← List.append_assoc, List.mem_append] at hk
      rcases hk with hk | hk
      · exact lt_all Ti k hk
      · simp only [List.mem_cons, List.not_mem_nil, or_false] at hk
        rcases hk with rfl | rfl
        · exact p3.lt
        · exact q3.lt
    have ok : TOk NAMES ((before ++ (after ++ [recNum x n w t, recNum x n' w' t'])).map recOf) := by
      intro r hr
      obtain ⟨k, hk, rfl⟩ := List.mem_map.1 hr
      rw [← List.append_assoc, List.mem_append] at hk
      rcases hk with hk | hk
      · exact (fixable Ti).ok _ (List.mem_map_of_mem hk)
      · simp only [List.mem_cons, List.not_mem_nil, or_false] at hk
        rcases hk with rfl | rfl
        · exact ok_rec p3.name
        · exact ok_rec q3.name
    have g : look (before ++ (after ++ [recNum x n w t, recNum x n' w' t'])) (dnum x) = some (recNum x n w t) := by
      rw [look_append, look_append, look_before (by omega), none, Option.none_or, Option.none_or]
      exact look_pair p2
    have y := C24_getHoliday NAMES _ ok x.y x.m x.d (by omega) (by omega) a b c d
    rw [ex, find_table lt lx, g, Option.map_some, Option.map_some, p4] at y
    rw [txt_table]
    exact y

/-- a sample of corrections in three calls: a day of 2025 turned into a working day, a day of 2027 added, then changed, and a day of the data removed -/
private def sample : List (List Correction) :=
  [[.put ⟨2025, 10, 1⟩ 6 true ⟨2025, 10, 1⟩, .put ⟨2027, 8, 1⟩ 3 false ⟨2027, 8, 1⟩], [.put ⟨2027, 8, 1⟩ 5 true ⟨2027, 8, 2⟩],
    [.drop ⟨2025, 1, 1⟩ ['0', '0', '0', '0', '0', '0', '0', '0', '0']]]

private theorem sample_ok : ∀ c ∈ sample, (∀ k ∈ c, k.Usual) ∧ (c.map Correction.day).Nodup := by
  unfold sample
  simp only [List.mem_cons, List.not_mem_nil, or_false, forall_eq_or_imp, forall_eq]
  refine ⟨⟨⟨?_, ?_⟩, by decide⟩, ⟨?_, by decide⟩, ⟨?_, by decide⟩⟩ <;> refine ⟨by decide, ?_⟩ <;> decide

/-- the hypotheses of C103 hold for the sample, and the three days are as corrected -/
example : ∃ st, Correction.calls initial sample = .ok st ∧
    getHoliday st 2025 10 1 = .ok (some ⟨"2025-10-01".toList, ['国', '庆', '节'], true, "2025-10-01".toList⟩) ∧
    getHoliday st 2027 8 1 = .ok (some ⟨"2027-08-01".toList, ['中', '秋', '节'], true, "2027-08-02".toList⟩) ∧
    getHoliday st 2025 1 1 = .ok none ∧
    getHoliday st 2024 1 1 = getHoliday initial 2024 1 1 := by
  obtain ⟨st, e, h⟩ := C103_corrections_partial sample sample_ok
  refine ⟨st, e, ?_, ?_, ?_, ?_⟩
  · rw [h ⟨2025, 10, 1⟩ (by decide) (by decide) (by decide), show Correction.latest sample ⟨2025, 10, 1⟩ = some (.put ⟨2025, 10, 1⟩ 6 true ⟨2025, 10, 1⟩) from rfl]
    decide
  · rw [h ⟨2027, 8, 1⟩ (by decide) (by decide) (by decide), show Correction.latest sample ⟨2027, 8, 1⟩ = some (.put ⟨2027, 8, 1⟩ 5 true ⟨2027, 8, 2⟩) from rfl]
    decide
  · rw [h ⟨2025, 1, 1⟩ (by decide) (by decide) (by decide), show Correction.latest sample ⟨2025, 1, 1⟩ = some (.drop ⟨2025, 1, 1⟩ ['0', '0', '0', '0', '0', '0', '0', '0', '0']) from rfl]
    rfl
  · rw [h ⟨2024, 1, 1⟩ (by decide) (by decide) (by decide), show Correction.latest sample ⟨2024, 1, 1⟩ = none from rfl]

/-- a day and two corrections of it meeting the hypotheses of `C103_undo` and `C103_violated_twice` -/
example : (Correction.put ⟨2027, 8, 1⟩ 3 false ⟨2027, 8, 1⟩).Usual ∧ (Correction.put ⟨2027, 8, 1⟩ 5 true ⟨2027, 8, 2⟩).Usual ∧
    (Correction.put ⟨2027, 8, 1⟩ 3 false ⟨2027, 8, 1⟩).result ≠ (Correction.put ⟨2027, 8, 1⟩ 5 true ⟨2027, 8, 2⟩).result := by
  refine ⟨?_, ?_, by decide⟩ <;> refine ⟨by decide, ?_⟩ <;> decide

end
