import Verif.Model.SolarParts
import Verif.Spec.Weeks
import Verif.Proof.JulianDay2

/-! Months and weeks in terms of day numbers. -/

namespace Cal
open SolarUtil Spec Solar

/-- month number -/
def mi (x : Date) : ℤ := 12 * x.y + (x.m - 1)

/-- number of the week (starting on weekday `st`) -/
def wk (st : ℤ) (x : Date) : ℤ := (dn x + 3 - st) / 7

theorem exists_dn (n : ℤ) : ∃ x : Date, x.Valid ∧ dn x = n := by
  have h : (⟨2000, 1, 1, 0, 0, 0⟩ : Solar).Valid := by decide
  obtain ⟨t, _, h2, _, h4⟩ := nextDay_spec h (n - dn ⟨2000, 1, 1⟩)
  refine ⟨t.date, h2.1, ?_⟩
  rw [h4]; show dn ⟨2000, 1, 1⟩ + _ = _; ring

theorem getDaysOfMonth_bounds {y m : ℤ} (h1 : 1 ≤ m) (h2 : m ≤ 12) :
    21 ≤ getDaysOfMonth y m ∧ getDaysOfMonth y m ≤ 31 ∧
    (¬ (y = 1582 ∧ m = 10) → 28 ≤ getDaysOfMonth y m ∧ getDaysOfMonth y m = lastDay y m) := by
  rw [getDaysOfMonth_eq y m h1 h2]
  have := lastDay_bounds y m
  split_ifs <;> simp_all <;> omega

theorem MS_succ_bounds (k : ℤ) : MS k + 21 ≤ MS (k + 1) ∧ MS (k + 1) ≤ MS k + 31 := by
  rw [MS_succ]
  have := getDaysOfMonth_bounds (y := k / 12) (m := k % 12 + 1) (by omega) (by omega)
  omega

theorem MS_le_of_le {k l : ℤ} (h : k ≤ l) : MS k + 21 * (l - k) ≤ MS l := by
  obtain ⟨n, rfl⟩ : ∃ n : ℕ, l = k + n := ⟨(l - k).toNat, by omega⟩
  clear h
  induction n with
  | zero => simp
  | succ n ih =>
    have := MS_succ_bounds (k + n)
    push_cast
    rw [← add_assoc]
    omega

theorem mi_MS {x : Date} (h : x.Valid) : MS (mi x) = monthStart x.y x.m := MS_eq h.1 h.2.1

theorem mi_div {x : Date} (h : x.Valid) : mi x / 12 = x.y ∧ mi x % 12 + 1 = x.m := by
  have := h.1; have := h.2.1; unfold mi; omega

theorem dn_month {x : Date} (h : x.Valid) : MS (mi x) < dn x ∧ dn x ≤ MS (mi x + 1) := by
  have ho := valid_ord h
  have hd := mi_div h
  rw [MS_succ, hd.1, hd.2, mi_MS h]
  unfold dn dayNo; omega

theorem mi_iff {x : Date} (h : x.Valid) (k : ℤ) : mi x = k ↔ MS k < dn x ∧ dn x ≤ MS (k + 1) := by
  have hd := dn_month h
  constructor
  · rintro rfl; exact hd
  · rintro ⟨h1, h2⟩
    rcases lt_trichotomy (mi x) k with c | c | c
    · have := MS_le_of_le (show mi x + 1 ≤ k by omega); omega
    · exact c
    · have := MS_le_of_le (show k + 1 ≤ mi x by omega); omega

theorem sameMonth_iff {x y : Date} (hx : x.Valid) (hy : y.Valid) : SameMonth x y ↔ mi x = mi y := by
  have := hx.1; have := hx.2.1; have := hy.1; have := hy.2.1
  unfold SameMonth mi; omega

theorem month_ne {x y : Date} (hx : x.Valid) (hy : y.Valid) (h : mi y = mi x + 1) : x.m ≠ y.m := by
  have := hx.1; have := hx.2.1; have := hy.1; have := hy.2.1
  unfold mi at h; omega

theorem month_eq {x y : Date} (hx : x.Valid) (hy : y.Valid) (h : mi x = mi y) : x.y = y.y ∧ x.m = y.m :=
  (sameMonth_iff hx hy).2 h

theorem isWeekday_iff {w : ℤ} {x : Date} (h : x.Valid) : IsWeekday w x ↔ w = (dn x + 3) % 7 := by
  have h0 : (⟨2000, 1, 1⟩ : Date).Valid := by decide
  have e : dn ⟨2000, 1, 1⟩ = 730488 := by decide
  unfold IsWeekday
  constructor
  · rintro ⟨n, hn, rfl⟩
    rw [daysAfter_iff h0 h, e] at hn
    omega
  · intro hw
    refine ⟨dn x - 730488, ?_, by omega⟩
    rw [daysAfter_iff h0 h, e]; ring

theorem getWeek_dn {s : Solar} (h : s.Valid) (h0 : -4712 ≤ s.year) (h1 : s.year ≤ 9999) :
    s.getWeek = (dn s.date + 3) % 7 := by
  rw [JD.getWeek_eq h h0 h1, JD.jdn_eq h.1]; omega

theorem sameWeek_iff {st : ℤ} (s0 : 0 ≤ st) (s1 : st ≤ 6) {x y : Date} (hx : x.Valid) (hy : y.Valid) :
    SameWeek st x y ↔ wk st x = wk st y := by
  unfold SameWeek wk
  constructor
  · rintro ⟨f, i, j, hf, hw, a1, a2, b1, b2, d1, d2⟩
    rw [isWeekday_iff hf] at hw
    rw [daysAfter_iff hf hx] at d1
    rw [daysAfter_iff hf hy] at d2
    omega
  · intro h
    obtain ⟨f, hf, hdf⟩ := exists_dn (7 * ((dn x + 3 - st) / 7) + st - 3)
    refine ⟨f, dn x - dn f, dn y - dn f, hf, ?_, by omega, by omega, by omega, by omega, ?_, ?_⟩
    · rw [isWeekday_iff hf]; omega
    · rw [daysAfter_iff hf hx]; ring
    · rw [daysAfter_iff hf hy]; ring

theorem sameClip_iff {st : ℤ} (s0 : 0 ≤ st) (s1 : st ≤ 6) {x y : Date} (hx : x.Valid) (hy : y.Valid) :
    SameClip st x y ↔ mi x = mi y ∧ wk st x = wk st y := by
  unfold SameClip; rw [sameMonth_iff hx hy, sameWeek_iff s0 s1 hx hy]

/-- the three ways in which one clipped week follows another -/
theorem clipSucc_of {st : ℤ} (s0 : 0 ≤ st) (s1 : st ≤ 6) {a b : Date} (ha : a.Valid) (hb : b.Valid)
    (h : (mi b = mi a ∧ wk st b = wk st a + 1) ∨ (mi b = mi a + 1 ∧ wk st b = wk st a) ∨
      (mi b = mi a + 1 ∧ wk st b = wk st a + 1 ∧ MS (mi b) = 7 * (wk st a + 1) + st - 4)) :
    ClipSucc st a b := by
  have da := dn_month ha
  have db := dn_month hb
  -- the last day of a's piece
  obtain ⟨e, he, hde⟩ : ∃ e : Date, e.Valid ∧
      dn e = if mi b = mi a then 7 * (wk st a + 1) + st - 4 else MS (mi b) := exists_dn _
  have ht := tomorrow_spec he
  have em := mi_iff he (mi a)
  have tm := mi_iff ht.1 (mi b)
  have tb := dn_month ht.1
  refine ⟨e, he, ?_, ?_, ?_⟩
  · rw [sameClip_iff s0 s1 ha he]
    have : mi e = mi a := by
      rw [em]
      rcases h with ⟨h1, h2⟩ | ⟨h1, h2⟩ | ⟨h1, h2, h3⟩
      · rw [if_pos h1] at hde
        rw [h1] at db
        unfold wk at *; omega
      · rw [if_neg (by omega)] at hde
        have := MS_succ_bounds (mi a)
        rw [h1] at hde; omega
      · rw [if_neg (by omega)] at hde
        have := MS_succ_bounds (mi a)
        rw [h1] at hde; omega
    refine ⟨this.symm, ?_⟩
    rcases h with ⟨h1, h2⟩ | ⟨h1, h2⟩ | ⟨h1, h2, h3⟩
    · rw [if_pos h1] at hde; unfold wk at *; omega
    · rw [if_neg (by omega)] at hde
      have e1 : dn a ≤ dn e := by rw [h1] at hde; omega
      unfold wk at *; omega
    · rw [if_neg (by omega)] at hde; unfold wk at *; omega
  · rw [sameClip_iff s0 s1 he ht.1]
    rintro ⟨h4, h5⟩
    rcases h with ⟨h1, h2⟩ | ⟨h1, h2⟩ | ⟨h1, h2, h3⟩
    · rw [if_pos h1] at hde; unfold wk at *; omega
    · rw [if_neg (by omega)] at hde
      have hme := dn_month he
      have := MS_succ_bounds (mi b)
      have h6 := (mi_iff ht.1 (mi b)).2 (by omega)
      rw [h4, h6] at hme
      omega
    · rw [if_neg (by omega)] at hde; unfold wk at *; omega
  · rw [sameClip_iff s0 s1 ht.1 hb]
    rcases h with ⟨h1, h2⟩ | ⟨h1, h2⟩ | ⟨h1, h2, h3⟩
    · rw [if_pos h1] at hde
      rw [h1] at db
      refine ⟨(mi_iff ht.1 _).2 ?_, ?_⟩
      · rw [h1]; unfold wk at *; omega
      · unfold wk at *; omega
    · rw [if_neg (by omega)] at hde
      refine ⟨(mi_iff ht.1 _).2 ?_, ?_⟩
      · have := MS_succ_bounds (mi b); omega
      · have e1 : dn a ≤ dn e := by rw [h1] at hde; omega
        unfold wk at *; omega
    · rw [if_neg (by omega)] at hde
      refine ⟨(mi_iff ht.1 _).2 ?_, ?_⟩
      · have := MS_succ_bounds (mi b); omega
      · unfold wk at *; omega

/-! ### Model functions -/

theorem fromYmd_ok {x : Date} (h : x.Valid) : Solar.fromYmd x.y x.m x.d = .ok ⟨x.y, x.m, x.d, 0, 0, 0⟩ :=
  fromYmdHms_ok h (by decide)

/-- the midnight of a date -/
def mid (x : Date) : Solar := ⟨x.y, x.m, x.d, 0, 0, 0⟩

theorem mid_valid {x : Date} (h : x.Valid) : (mid x).Valid := ⟨h, by show ClockOk 0 0 0; decide⟩

theorem mid_date (x : Date) : (mid x).date = x := rfl

theorem mid_next {x y : Date} (hx : x.Valid) (hy : y.Valid) {n : ℤ} (h : dn y = dn x + n) :
    (mid x).next n = .ok (mid y) :=
  next_eq (mid_valid hx) (mid_valid hy) n ⟨rfl, rfl, rfl⟩ h

theorem mid_week {x : Date} (h : x.Valid) (h0 : -4712 ≤ x.y) (h1 : x.y ≤ 9999) :
    (mid x).getWeek = (dn x + 3) % 7 := getWeek_dn (mid_valid h) h0 h1

theorem first_valid {x : Date} (h : x.Valid) : (⟨x.y, x.m, 1⟩ : Date).Valid ∧
    dn ⟨x.y, x.m, 1⟩ = MS (mi x) + 1 := by
  have := lastDay_bounds x.y x.m
  refine ⟨⟨h.1, h.2.1, by simp, by simp only; omega, by simp⟩, ?_⟩
  rw [mi_MS h]
  unfold dn dayNo ord
  simp

/-- the week object of a date -/
def wkObj (st : ℤ) (x : Date) : SolarWeek := ⟨x.y, x.m, x.d, st⟩

theorem ofSolar_mid (st : ℤ) (x : Date) : SolarWeek.ofSolar (mid x) st = wkObj st x := rfl

theorem getFirstDay_spec {st : ℤ} (s0 : 0 ≤ st) (s1 : st ≤ 6) {x : Date} (h : x.Valid)
    (h0 : -4712 ≤ x.y) (h1 : x.y ≤ 9999) :
    ∃ f : Date, (wkObj st x).getFirstDay = .ok (mid f) ∧ f.Valid ∧ dn f = 7 * wk st x + st - 3 := by
  obtain ⟨f, hf, hdf⟩ := exists_dn (7 * wk st x + st - 3)
  refine ⟨f, ?_, hf, hdf⟩
  unfold SolarWeek.getFirstDay wkObj
  simp only
  rw [fromYmd_ok h]
  show (mid x).next _ = _
  have e : (⟨x.y, x.m, x.d, 0, 0, 0⟩ : Solar) = mid x := rfl
  rw [e, mid_week h h0 h1]
  apply mid_next h hf
  unfold wk at hdf
  split_ifs <;> omega

theorem getIndex_spec {st : ℤ} (s0 : 0 ≤ st) (s1 : st ≤ 6) {x : Date} (h : x.Valid)
    (h0 : -4712 ≤ x.y) (h1 : x.y ≤ 9999) (h2 : ¬ (x.y = 1582 ∧ x.m = 10)) :
    (wkObj st x).getIndex = .ok (wk st x - wk st ⟨x.y, x.m, 1⟩ + 1) := by
  have hf := first_valid h
  unfold SolarWeek.getIndex wkObj
  simp only
  rw [fromYmd_ok hf.1]
  have e : (⟨x.y, x.m, 1, 0, 0, 0⟩ : Solar) = mid ⟨x.y, x.m, 1⟩ := rfl
  show Except.ok _ = _
  rw [e, mid_week hf.1 h0 h1]
  congr 1
  have hd : dn x = dn ⟨x.y, x.m, 1⟩ + (x.d - 1) := by
    unfold dn dayNo ord
    simp only
    rw [if_neg (by tauto), if_neg (by omega)]; ring
  unfold wk pyCeilDiv
  rw [hd]
  split_ifs <;> omega

theorem getWeeksOfMonth_spec {st : ℤ} (s0 : 0 ≤ st) (s1 : st ≤ 6) {y m : ℤ} (m1 : 1 ≤ m) (m2 : m ≤ 12)
    (h0 : -4712 ≤ y) (h1 : y ≤ 9999) (l : Date) (hl : l.Valid) (hdl : dn l = MS (12 * y + (m - 1) + 1)) :
    getWeeksOfMonth y m st = .ok (wk st l - wk st ⟨y, m, 1⟩ + 1
      - if (dn ⟨y, m, 1⟩ + 3) % 7 < st then 1 else 0) := by
  have hv : (⟨y, m, 1⟩ : Date).Valid :=
    ⟨m1, m2, by simp, by have := lastDay_bounds y m; simp only; omega, by simp⟩
  have hf := first_valid hv
  unfold getWeeksOfMonth
  rw [fromYmd_ok hv]
  have e : (⟨y, m, 1, 0, 0, 0⟩ : Solar) = mid ⟨y, m, 1⟩ := rfl
  show Except.ok _ = _
  rw [e, mid_week hv h0 h1]
  congr 1
  have hm : mi ⟨y, m, 1⟩ = 12 * y + (m - 1) := rfl
  rw [MS_succ, show (12 * y + (m - 1)) / 12 = y by omega,
    show (12 * y + (m - 1)) % 12 + 1 = m by omega, ← hm] at hdl
  unfold wk pyCeilDiv
  rw [hdl, hf.2] at *
  generalize getDaysOfMonth y m = D at *
  generalize MS (mi ⟨y, m, 1⟩) = F at *
  split_ifs <;> omega

/-! ### lists -/

theorem mapM_ok {α β : Type} {f : α → Except PyErr β} {g : α → β} {l : List α}
    (h : ∀ a ∈ l, f a = .ok (g a)) : l.mapM f = .ok (l.map g) := by
  induction l with
  | nil => rfl
  | cons a l ih =>
    rw [List.mapM_cons, h a (by simp), ih (fun b hb => h b (by simp [hb]))]
    rfl

/-- the date with a given day number -/
noncomputable def ofDn (n : ℤ) : Date := Classical.choose (exists_dn n)

theorem ofDn_valid (n : ℤ) : (ofDn n).Valid := (Classical.choose_spec (exists_dn n)).1
theorem dn_ofDn (n : ℤ) : dn (ofDn n) = n := (Classical.choose_spec (exists_dn n)).2
theorem ofDn_dn {x : Date} (h : x.Valid) : ofDn (dn x) = x := dayNo_inj (ofDn_valid _) h (dn_ofDn _)

theorem ofDn_succ (n : ℤ) : ofDn (n + 1) = tomorrow (ofDn n) := by
  have := tomorrow_spec (ofDn_valid n)
  exact dayNo_inj (ofDn_valid _) this.1 (by rw [dn_ofDn, this.2, dn_ofDn])

theorem mid_next' {x : Date} (hx : x.Valid) (n : ℤ) : (mid x).next n = .ok (mid (ofDn (dn x + n))) :=
  mid_next hx (ofDn_valid _) (dn_ofDn _)

theorem mem_pyRange {a b i : ℤ} : i ∈ pyRange a b ↔ a ≤ i ∧ i < b := by
  unfold pyRange
  simp only [List.mem_map, List.mem_range]
  constructor
  · rintro ⟨k, hk, rfl⟩; omega
  · rintro ⟨h1, h2⟩; exact ⟨(i - a).toNat, by omega, by omega⟩

theorem pyRange_cons {a b : ℤ} (h : a < b) : pyRange a b = a :: pyRange (a + 1) b := by
  unfold pyRange
  rw [show (b - a).toNat = (b - (a + 1)).toNat + 1 by omega, List.range_succ_eq_map, List.map_cons]
  simp only [List.map_map]
  congr 1
  · simp
  · apply List.map_congr_left
    intro k _
    simp only [Function.comp]
    push_cast
    ring

/-- the list `first :: [first.next(i) for i in range(1, n)]` -/
theorem days_list {f : Date} (hf : f.Valid) {n : ℤ} (hn : 1 ≤ n) :
    (do let rest ← (pyRange 1 n).mapM (fun i => (mid f).next i)
        return mid f :: rest : Except PyErr (List Solar))
      = .ok ((pyRange 0 n).map (fun i => mid (ofDn (dn f + i)))) := by
  rw [mapM_ok (g := fun i => mid (ofDn (dn f + i))) (fun i _ => mid_next' hf i)]
  show Except.ok _ = _
  rw [pyRange_cons (a := 0) (by omega), List.map_cons, add_zero, ofDn_dn hf]
  rfl

theorem week_getDays {st : ℤ} (s0 : 0 ≤ st) (s1 : st ≤ 6) {x : Date} (h : x.Valid)
    (h0 : -4712 ≤ x.y) (h1 : x.y ≤ 9999) :
    (wkObj st x).getDays = .ok ((pyRange 0 7).map (fun i => mid (ofDn (7 * wk st x + st - 3 + i)))) := by
  obtain ⟨f, e, hf, hd⟩ := getFirstDay_spec s0 s1 h h0 h1
  unfold SolarWeek.getDays
  rw [e, ← hd]
  exact days_list hf (by norm_num)

theorem month_getDays {y m : ℤ} (m1 : 1 ≤ m) (m2 : m ≤ 12) :
    (⟨y, m⟩ : SolarMonth).getDays
      = .ok ((pyRange 0 (getDaysOfMonth y m)).map (fun i => mid (ofDn (monthStart y m + 1 + i)))) := by
  have hv : (⟨y, m, 1⟩ : Date).Valid :=
    ⟨m1, m2, by simp, by have := lastDay_bounds y m; simp only; omega, by simp⟩
  have hd : dn ⟨y, m, 1⟩ = monthStart y m + 1 := by unfold dn dayNo ord; simp
  unfold SolarMonth.getDays
  simp only
  rw [fromYmd_ok hv, ← hd]
  have := getDaysOfMonth_bounds (y := y) m1 m2
  exact days_list hv (by omega)

theorem isChain_days (a : ℤ) (n : ℕ) :
    List.IsChain (fun s t : Solar => t.date = tomorrow s.date)
      ((List.range n).map (fun (i : ℕ) => mid (ofDn (a + i)))) := by
  rw [List.isChain_map, List.isChain_iff_getElem]
  intro i hi
  simp only [List.getElem_range, mid_date]
  rw [← ofDn_succ]
  congr 1
  push_cast; ring

end Cal
