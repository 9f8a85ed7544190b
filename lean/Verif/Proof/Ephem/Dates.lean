import Verif.Proof.Ephem.Gaps
import Verif.Spec.TermDates

/-! # Dates of the solar terms

For every year the lines of `Proof/High/Data.lean` and `Proof/Low/Data.lean` are compared with the days of the solar calendar. -/

open Aff0 ShouXing High Spec

namespace Ephem

/-- the first day of a solar month of the year beginning in March -/
theorem march_first {Y i : ℕ} (hY : 1583 ≤ Y) (h1 : 1 ≤ i) (h2 : i ≤ 12) :
    JD.jdn (firstOf (12 * Y + i + 1)) = march Y + monthOff.getD i 0 :=
  le_antisymm (march_lo hY h2) (march_hi hY h1 (by omega))

/-- in year `Y` the row is on days `dlo` to `dhi` of month `i` of the year beginning in March `Y + sh - 1` -/
def dayAt (w : Row) (sh i dlo dhi Y : ℕ) : Bool :=
  forceN (Nat.add w.a (Nat.mul w.b Y)) fun L => forceN (Nat.add (march (Y + sh - 1)) (monthOff.getD i 0)) fun e =>
  Nat.ble (Nat.add (Nat.mul (Nat.add e dlo) 1000000) (Nat.add w.r 2000)) (Nat.add L 1000000) &&
  Nat.ble (Nat.succ (Nat.add L (Nat.add w.r 2000))) (Nat.mul (Nat.add e dhi) 1000000)

/-- the same for `n` years from `Y` on -/
def daysOk (w : Row) (sh i dlo dhi : ℕ) : ℕ → ℕ → Bool :=
  Nat.rec (fun _ => true) fun _ ih Y => forceN Y fun Y => dayAt w sh i dlo dhi Y && ih (Nat.succ Y)

/-- the terms of the solar years `Y1` to `Y1 + n - 1` fall on the days of the list -/
def datesOk (ws : List Row) (ds : List (ℕ × ℕ)) (Y1 n : ℕ) : Bool :=
  (List.range 24).all fun s => match ws[s]?, ds[(s + 5) % 24]? with
    | some w, some d => bif Nat.beq s 23 then daysOk w 1 1 d.1 d.2 n Y1 else
        daysOk w 0 (1 + (s + 1) / 2) d.1 d.2 n (bif Nat.blt s 19 then Y1 + 1 else Y1)
    | _, _ => false

theorem daysOk_get {w : Row} {sh i dlo dhi n Y : ℕ} (H : daysOk w sh i dlo dhi n Y = true) {j : ℕ} (hj : j < n) :
    dayAt w sh i dlo dhi (Y + j) = true := by
  induction n generalizing Y j with
  | zero => omega
  | succ n ih =>
    have e : daysOk w sh i dlo dhi (n + 1) Y = (dayAt w sh i dlo dhi Y && daysOk w sh i dlo dhi n (Y + 1)) := by cases Y <;> rfl
    rw [e, Bool.and_eq_true] at H
    cases j with
    | zero => exact H.1
    | succ j =>
      have := ih H.2 (j := j) (by omega)
      rwa [show Y + (j + 1) = Y + 1 + j by ring]

/-- between two days of a month -/
theorem between {x : Date} (hx : x.Valid) {y m a b : ℤ} (hy : 1583 ≤ y) (m1 : 1 ≤ m) (m2 : m ≤ 12) (a1 : 1 ≤ a) (b2 : b ≤ 28)
    (h1 : JD.jdn ⟨y, m, 1⟩ + a - 1 ≤ JD.jdn x) (h2 : JD.jdn x ≤ JD.jdn ⟨y, m, 1⟩ + b - 1) : x.y = y ∧ x.m = m ∧ a ≤ x.d ∧ x.d ≤ b := by
  have ab : a ≤ b := by omega
  have sh : ∀ d, 1 ≤ d → JD.jdn ⟨y, m, d⟩ = JD.jdn ⟨y, m, 1⟩ + d - 1 := by
    intro d hd
    clear h1 h2
    unfold JD.jdn JD.corr JD.my JD.mm
    dsimp only
    split_ifs <;> omega
  have va : ∀ d, 1 ≤ d → d ≤ 28 → (⟨y, m, d⟩ : Date).Valid := by
    intro d d1 d2
    refine ⟨m1, m2, d1, ?_, ?_⟩
    · unfold lastDay
      dsimp only
      split_ifs <;> omega
    · dsimp only
      omega
  have la := (JD.jdn_lt_iff hx (va a a1 (by omega))).not.1 (by rw [sh a a1]; omega)
  have lb := (JD.jdn_lt_iff (va b (by omega) b2) hx).not.1 (by rw [sh b (by omega)]; omega)
  unfold Cal.DateLt at la lb
  dsimp only at la lb
  omega

theorem dayAt_mem {w : Row} {sh i dlo dhi Y : ℕ} (H : dayAt w sh i dlo dhi Y = true) (hY : 1584 ≤ Y + sh) (i1 : 1 ≤ i) (i2 : i ≤ 12)
    (d1 : 1 ≤ dlo) (d2 : dhi ≤ 28) {u : ℚ} (hu : w.Bd Y u) {x : Date} (hx : x.Valid) (x1 : u + 2451545 - 1.0011 ≤ JD.jdn x)
    (x2 : (JD.jdn x : ℚ) ≤ u + 2451545 + 0.0011) :
    12 * x.y + (x.m - 1) = 12 * (Y + sh - 1 : ℕ) + i + 1 ∧ (dlo : ℤ) ≤ x.d ∧ x.d ≤ dhi := by
  have e := march_first (Y := Y + sh - 1) (i := i) (by omega) i1 i2
  unfold dayAt at H
  simp only [forceN_eq, Bool.and_eq_true, Nat.ble_eq] at H
  have Ha : (march (Y + sh - 1) + monthOff.getD i 0 + dlo) * 1000000 + (w.r + 2000) ≤ w.a + w.b * Y + 1000000 := H.1
  have Hb : w.a + w.b * Y + (w.r + 2000) + 1 ≤ (march (Y + sh - 1) + monthOff.getD i 0 + dhi) * 1000000 := H.2
  clear H
  have h := abs_le.1 hu
  have Ha' : ((march (Y + sh - 1) : ℚ) + monthOff.getD i 0 + dlo) * 1000000 + (w.r + 2000) ≤ w.a + w.b * Y + 1000000 := by exact_mod_cast Ha
  have Hb' : (w.a : ℚ) + w.b * Y + (w.r + 2000) + 1 ≤ ((march (Y + sh - 1) : ℚ) + monthOff.getD i 0 + dhi) * 1000000 := by exact_mod_cast Hb
  have p1 : ((march (Y + sh - 1) : ℤ) + (monthOff.getD i 0 : ℤ) + dlo - 2 : ℤ) < JD.jdn x := by
    have : (((march (Y + sh - 1) : ℤ) + (monthOff.getD i 0 : ℤ) + dlo - 2 : ℤ) : ℚ) < JD.jdn x := by
      push_cast
      linarith [h.1, h.2]
    exact_mod_cast this
  have p2 : JD.jdn x < ((march (Y + sh - 1) : ℤ) + (monthOff.getD i 0 : ℤ) + dhi : ℤ) := by
    have : (JD.jdn x : ℚ) < (((march (Y + sh - 1) : ℤ) + (monthOff.getD i 0 : ℤ) + dhi : ℤ) : ℚ) := by
      push_cast
      linarith [h.1, h.2]
    exact_mod_cast this
  have r := between hx (y := (12 * ((Y + sh - 1 : ℕ) : ℤ) + i + 1) / 12) (m := (12 * ((Y + sh - 1 : ℕ) : ℤ) + i + 1) % 12 + 1) (a := dlo) (b := dhi)
    (by omega) (by omega) (by omega) (by omega) (by omega)
    (by have : JD.jdn ⟨(12 * ((Y + sh - 1 : ℕ) : ℤ) + i + 1) / 12, (12 * ((Y + sh - 1 : ℕ) : ℤ) + i + 1) % 12 + 1, 1⟩ = _ := e
        rw [this]; omega)
    (by have : JD.jdn ⟨(12 * ((Y + sh - 1 : ℕ) : ℤ) + i + 1) / 12, (12 * ((Y + sh - 1 : ℕ) : ℤ) + i + 1) % 12 + 1, 1⟩ = _ := e
        rw [this]; omega)
  omega

theorem usual0 : datesOk sun0 usualDays 1961 120 = true := by decide +kernel
theorem usual1 : datesOk sun1 usualDays 2081 19 = true := by decide +kernel
theorem rare0 : datesOk Low.acc0 rareDays 1584 128 = true := by decide +kernel
theorem rare1 : datesOk Low.acc1 rareDays 1712 128 = true := by decide +kernel
theorem rare2 : datesOk Low.acc2 rareDays 1840 121 = true := by decide +kernel
theorem rare3 : datesOk sun0 rareDays 1961 120 = true := by decide +kernel
theorem rare4 : datesOk sun1 rareDays 2081 48 = true := by decide +kernel
theorem rare5 : datesOk sun2 rareDays 2129 603 = true := by decide +kernel
theorem possible3 : datesOk sun3 possibleDays 2732 1040 = true := by decide +kernel
theorem possible4 : datesOk sun4 possibleDays 3772 1040 = true := by decide +kernel
theorem possible5 : datesOk sun5 possibleDays 4812 1040 = true := by decide +kernel
theorem possible6 : datesOk sun6 possibleDays 5852 1040 = true := by decide +kernel

theorem datesOk_get {ws : List Row} {ds : List (ℕ × ℕ)} {Y1 n : ℕ} (H : datesOk ws ds Y1 n = true) {s : ℕ} (hs : s < 24) :
    ∃ w d, ws[s]? = some w ∧ ds[(s + 5) % 24]? = some d ∧ (s = 23 → daysOk w 1 1 d.1 d.2 n Y1 = true) ∧
      (s < 19 → daysOk w 0 (1 + (s + 1) / 2) d.1 d.2 n (Y1 + 1) = true) ∧
      (19 ≤ s → s ≠ 23 → daysOk w 0 (1 + (s + 1) / 2) d.1 d.2 n Y1 = true) := by
  have := List.all_eq_true.1 H s (List.mem_range.2 hs)
  split at this
  · next w d hw hd =>
    refine ⟨w, d, hw, hd, ?_⟩
    by_cases c : s = 23
    · have e : Nat.beq s 23 = true := by rw [Nat.beq_eq]; exact c
      rw [e, cond_true] at this
      exact ⟨fun _ => this, fun h => by omega, fun _ h => by omega⟩
    · have e : Nat.beq s 23 = false := by rw [Bool.eq_false_iff, ne_eq, Nat.beq_eq]; exact c
      rw [e, cond_false] at this
      refine ⟨fun h => by omega, fun h => ?_, fun h _ => ?_⟩
      · have e' : Nat.blt s 19 = true := by rw [Nat.blt_eq]; exact h
        rwa [e', cond_true] at this
      · have e' : Nat.blt s 19 = false := by rw [Bool.eq_false_iff, ne_eq, Nat.blt_eq]; omega
        rwa [e', cond_false] at this
  · cases this

/-- in the solar year `Y`, entry `i` of the table falls on the days of the list -/
theorem date_rows {f : ℤ → ℚ} {ws : List Row} {ds : List (ℕ × ℕ)} {Y1 n : ℕ} (S : datesOk ws ds Y1 n = true)
    (R : ∀ (i : ℕ) (w : Row), i < 24 → ws[i]? = some w → Low.RowOf (f) i w Y1 (Y1 + n)) (hd : ∀ d ∈ ds, 1 ≤ d.1 ∧ d.2 ≤ 28) (h0 : 1584 ≤ Y1)
    {Y : ℤ} (h1 : Y1 ≤ Y) (h2 : Y < Y1 + n) {i : ℕ} (i1 : 2 ≤ i) (i2 : i ≤ 25) {x : Date} (hx : x.Valid)
    (x1 : f (24 * (Y - 2000) + 17 + i) + 2451545 - 1.0011 ≤ JD.jdn x) (x2 : (JD.jdn x : ℚ) ≤ f (24 * (Y - 2000) + 17 + i) + 2451545 + 0.0011) :
    ∃ d, ds[i - 2]? = some d ∧ x.y = Y ∧ x.m = i / 2 ∧ (d.1 : ℤ) ≤ x.d ∧ x.d ≤ d.2 := by
  obtain ⟨w, d, hw, e, c1, c2, c3⟩ := datesOk_get S (s := (17 + i) % 24) (Nat.mod_lt _ (by norm_num))
  have b := hd d (List.mem_of_getElem? e)
  have eq : ((17 + i) % 24 + 5) % 24 = i - 2 := by omega
  rw [eq] at e
  refine ⟨d, e, ?_⟩
  obtain ⟨k, rfl⟩ : ∃ k : ℕ, Y = Y1 + k := ⟨(Y - Y1).toNat, by omega⟩
  have r := fun z a b => R _ w (Nat.mod_lt _ (by norm_num)) hw z a b
  by_cases a : i ≤ 6
  · have u := r (Y1 + k) (by omega) (by omega)
    rw [show 24 * (((Y1 + k : ℕ) : ℤ) - 2000) + ((17 + i) % 24 : ℕ) = 24 * ((Y1 : ℤ) + k - 2000) + 17 + i by omega] at u
    by_cases a' : i = 6
    · have v := daysOk_get (c1 (by omega)) (j := k) (by omega)
      have := dayAt_mem v (by omega) (by norm_num) (by norm_num) b.1 b.2 u hx x1 x2
      have := hx.1
      have := hx.2.1
      omega
    · have v := daysOk_get (c3 (by omega) (by omega)) (j := k) (by omega)
      have := dayAt_mem v (by omega) (by omega) (by omega) b.1 b.2 u hx x1 x2
      have := hx.1
      have := hx.2.1
      omega
  · have u := r (Y1 + 1 + k) (by omega) (by omega)
    rw [show 24 * (((Y1 + 1 + k : ℕ) : ℤ) - 2000) + ((17 + i) % 24 : ℕ) = 24 * ((Y1 : ℤ) + k - 2000) + 17 + i by omega] at u
    have v := daysOk_get (c2 (by omega)) (j := k) (by omega)
    have := dayAt_mem v (by omega) (by omega) (by omega) b.1 b.2 u hx x1 x2
    have := hx.1
    have := hx.2.1
    omega

theorem usual_ok : ∀ d ∈ usualDays, 1 ≤ d.1 ∧ d.2 ≤ 28 := by decide
theorem rare_ok : ∀ d ∈ rareDays, 1 ≤ d.1 ∧ d.2 ≤ 28 := by decide
theorem possible_ok : ∀ d ∈ possibleDays, 1 ≤ d.1 ∧ d.2 ≤ 28 := by decide

/-- the days of `rareDays` are among those of `possibleDays` -/
theorem rare_possible : ∀ j, j < 24 → ∀ a, rareDays[j]? = some a → ∃ b, possibleDays[j]? = some b ∧ b.1 ≤ a.1 ∧ a.2 ≤ b.2 := by
  intro j hj
  interval_cases j <;> · intro a ha; cases ha; exact ⟨_, rfl, by norm_num, by norm_num⟩

variable {M : Libm} (hM : M.Good)
include hM

theorem moment_window {Y : ℤ} (h1 : 1584 ≤ Y) (h2 : Y ≤ 6890) {i : ℕ} (hi : i < 31) :
    (moment (full hM) (24 * (Y - 2000) + 17 + i)).date.Valid ∧
    termV M (24 * (Y - 2000) + 17 + i) + 2451545 - 1.0011 ≤ JD.jdn (moment (full hM) (24 * (Y - 2000) + 17 + i)).date ∧
      (JD.jdn (moment (full hM) (24 * (Y - 2000) + 17 + i)).date : ℚ) ≤ termV M (24 * (Y - 2000) + 17 + i) + 2451545 + 0.0011 := by
  have x := moment_near (full hM) (n := 24 * (Y - 2000) + 17 + i) (by omega) (by omega)
  have tx := abs_le.1 (term_facts hM (n := 24 * (Y - 2000) + 17 + i) (by omega) (by omega)).2.2.2
  refine ⟨(moment_spec (full hM) (n := 24 * (Y - 2000) + 17 + i) (by omega) (by omega)).2.1.1, ?_, ?_⟩ <;> linarith [x.1, x.2, tx.1, tx.2]

theorem usual_date {Y : ℤ} (h1 : 1961 ≤ Y) (h2 : Y ≤ 2099) {i : ℕ} (i1 : 2 ≤ i) (i2 : i ≤ 25) :
    ∃ d, usualDays[i - 2]? = some d ∧ (moment (full hM) (24 * (Y - 2000) + 17 + i)).year = Y ∧ (moment (full hM) (24 * (Y - 2000) + 17 + i)).month = i / 2 ∧
      (d.1 : ℤ) ≤ (moment (full hM) (24 * (Y - 2000) + 17 + i)).day ∧ (moment (full hM) (24 * (Y - 2000) + 17 + i)).day ≤ d.2 := by
  obtain ⟨v, x1, x2⟩ := moment_window hM (Y := Y) (by omega) (by omega) (i := i) (by omega)
  by_cases c : Y < 2081
  · exact date_rows usual0 (rows_high hM sunOk0 (by norm_num) (by norm_num) (by norm_num)) usual_ok (by norm_num) (by push_cast; omega)
      (by push_cast; omega) i1 i2 v x1 x2
  · exact date_rows usual1 (rows_high hM sunOk1 (by norm_num) (by norm_num) (by norm_num)) usual_ok (by norm_num) (by push_cast; omega)
      (by push_cast; omega) i1 i2 v x1 x2

theorem rare_date {Y : ℤ} (h1 : 1584 ≤ Y) (h2 : Y ≤ 2731) {i : ℕ} (i1 : 2 ≤ i) (i2 : i ≤ 25) :
    ∃ d, rareDays[i - 2]? = some d ∧ (moment (full hM) (24 * (Y - 2000) + 17 + i)).year = Y ∧ (moment (full hM) (24 * (Y - 2000) + 17 + i)).month = i / 2 ∧
      (d.1 : ℤ) ≤ (moment (full hM) (24 * (Y - 2000) + 17 + i)).day ∧ (moment (full hM) (24 * (Y - 2000) + 17 + i)).day ≤ d.2 := by
  obtain ⟨v, x1, x2⟩ := moment_window hM (Y := Y) (by omega) (by omega) (i := i) (by omega)
  by_cases c0 : Y < 1712
  · exact date_rows rare0 (rows_low hM Low.accOk0 (by norm_num) (by norm_num) (by norm_num)) rare_ok (by norm_num) (by push_cast; omega)
      (by push_cast; omega) i1 i2 v x1 x2
  by_cases c1 : Y < 1840
  · exact date_rows rare1 (rows_low hM Low.accOk1 (by norm_num) (by norm_num) (by norm_num)) rare_ok (by norm_num) (by push_cast; omega)
      (by push_cast; omega) i1 i2 v x1 x2
  by_cases c2 : Y < 1961
  · exact date_rows rare2 (rows_low hM Low.accOk2 (by norm_num) (by norm_num) (by norm_num)) rare_ok (by norm_num) (by push_cast; omega)
      (by push_cast; omega) i1 i2 v x1 x2
  by_cases c3 : Y < 2081
  · exact date_rows rare3 (rows_high hM sunOk0 (by norm_num) (by norm_num) (by norm_num)) rare_ok (by norm_num) (by push_cast; omega)
      (by push_cast; omega) i1 i2 v x1 x2
  by_cases c4 : Y < 2129
  · exact date_rows rare4 (rows_high hM sunOk1 (by norm_num) (by norm_num) (by norm_num)) rare_ok (by norm_num) (by push_cast; omega)
      (by push_cast; omega) i1 i2 v x1 x2
  · exact date_rows rare5 (rows_high hM sunOk2 (by norm_num) (by norm_num) (by norm_num)) rare_ok (by norm_num) (by push_cast; omega)
      (by push_cast; omega) i1 i2 v x1 x2

theorem possible_date {Y : ℤ} (h1 : 1584 ≤ Y) (h2 : Y ≤ 6890) {i : ℕ} (i1 : 2 ≤ i) (i2 : i ≤ 25) :
    ∃ d, possibleDays[i - 2]? = some d ∧ (moment (full hM) (24 * (Y - 2000) + 17 + i)).year = Y ∧ (moment (full hM) (24 * (Y - 2000) + 17 + i)).month = i / 2 ∧
      (d.1 : ℤ) ≤ (moment (full hM) (24 * (Y - 2000) + 17 + i)).day ∧ (moment (full hM) (24 * (Y - 2000) + 17 + i)).day ≤ d.2 := by
  by_cases c : Y < 2732
  · obtain ⟨a, ha, y, m, u, v⟩ := rare_date hM h1 (by omega) i1 i2
    obtain ⟨b, hb, p, q⟩ := rare_possible (i - 2) (by omega) a ha
    exact ⟨b, hb, y, m, by omega, by omega⟩
  obtain ⟨v, x1, x2⟩ := moment_window hM (Y := Y) (by omega) (by omega) (i := i) (by omega)
  by_cases c3 : Y < 3772
  · exact date_rows possible3 (rows_high hM sunOk3 (by norm_num) (by norm_num) (by norm_num)) possible_ok (by norm_num) (by push_cast; omega)
      (by push_cast; omega) i1 i2 v x1 x2
  by_cases c4 : Y < 4812
  · exact date_rows possible4 (rows_high hM sunOk4 (by norm_num) (by norm_num) (by norm_num)) possible_ok (by norm_num) (by push_cast; omega)
      (by push_cast; omega) i1 i2 v x1 x2
  by_cases c5 : Y < 5852
  · exact date_rows possible5 (rows_high hM sunOk5 (by norm_num) (by norm_num) (by norm_num)) possible_ok (by norm_num) (by push_cast; omega)
      (by push_cast; omega) i1 i2 v x1 x2
  · exact date_rows possible6 (rows_high hM sunOk6 (by norm_num) (by norm_num) (by norm_num)) possible_ok (by norm_num) (by push_cast; omega)
      (by push_cast; omega) i1 i2 v x1 x2

end Ephem
