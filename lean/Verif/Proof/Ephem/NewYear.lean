import Verif.Proof.Ephem.Dates
import Verif.Proof.Ephem.Leap
import Verif.Proof.Lunation.Table

/-! # The day of the lunar New Year

The New Year is found from the days of three principal terms: 冬至, 大寒 and 雨水. -/

open Aff0 ShouXing High Spec Low LunarYear

namespace Ephem

@[inherit_doc] local infixl:65 " +ₙ " => Nat.add
@[inherit_doc] local infixl:65 " -ₙ " => Nat.sub
@[inherit_doc] local infixl:70 " *ₙ " => Nat.mul

/-- the days of the terms by which months are counted: in year `Y` entry `i` of the table falls on the days `a` to `b` of
its month -/
def OnDays (D : ℤ → ℤ) (Y : ℤ) (i : ℕ) (a b : ℤ) : Prop :=
  ∀ x : Date, x.Valid → JD.jdn x = D (24 * (Y - 2000) + 17 + i) + J2000 → x.y = Y ∧ x.m = i / 2 ∧ a ≤ x.d ∧ x.d ≤ b

/-- up to 1960: 大寒, 雨水 and 冬至 of solar year `Y` by the tables of `Proof/Low` -/
def lowDates (Y : ℕ) : Bool :=
  forceN (24 *ₙ Y +ₙ 20 -ₙ 38000) fun m => forceN (march (Y - 1)) fun e => forceN (march Y) fun e' =>
  forceN (termJD m) fun a => forceN (termJD (m +ₙ 2)) fun b => forceN (termJD (m +ₙ 22)) fun c =>
  Nat.ble (e +ₙ 334 +ₙ 19) (a +ₙ 1) && Nat.ble (a +ₙ 1) (e +ₙ 334 +ₙ 22) &&
  (Nat.ble (e +ₙ 365 +ₙ 18) (b +ₙ 1) && Nat.ble (b +ₙ 1) (e +ₙ 365 +ₙ 21)) &&
  (Nat.ble (e' +ₙ 303 +ₙ 20) (c +ₙ 1) && Nat.ble (c +ₙ 1) (e' +ₙ 303 +ₙ 23))

theorem lowDates_all : allFrom lowDates 377 1584 = true := by decide +kernel

variable {M : Libm} (hM : M.Good)
include hM

theorem low_days {Y : ℤ} (h1 : 1584 ≤ Y) (h2 : Y ≤ 1960) : OnDays (dayT M) Y 3 19 22 ∧ OnDays (dayT M) Y 5 18 21 ∧ OnDays (dayT M) Y 25 20 23 := by
  obtain ⟨Y, rfl⟩ : ∃ Z : ℕ, Y = Z := ⟨Y.toNat, by omega⟩
  have H := allFrom_get lowDates_all (x := Y) (by omega) (by omega)
  unfold lowDates at H
  simp only [forceN_eq, Bool.and_eq_true, Nat.ble_eq] at H
  obtain ⟨⟨⟨a1, a2⟩, b1, b2⟩, c1, c2⟩ := H
  have tab : ∀ j : ℕ, j ≤ 24 → dayT M (24 * ((Y : ℤ) - 2000) + 20 + j) = (termJD (24 * Y + 20 - 38000 + j) : ℤ) - 2451545 := by
    intro j hj
    rw [show 24 * ((Y : ℤ) - 2000) + 20 + j = ((24 * Y + 20 - 38000 + j : ℕ) : ℤ) - 10000 by omega, dayT_table hM (by omega)]
  have e1 := march_first (Y := Y - 1) (i := 11) (by omega) (by norm_num) (by norm_num)
  have e2 := march_first (Y := Y - 1) (i := 12) (by omega) (by norm_num) (by norm_num)
  have e3 := march_first (Y := Y) (i := 10) (by omega) (by norm_num) (by norm_num)
  rw [show (12 * ((Y - 1 : ℕ) : ℤ) + ((11 : ℕ) : ℤ) + 1) = 12 * (Y : ℤ) by omega] at e1
  rw [show (12 * ((Y - 1 : ℕ) : ℤ) + ((12 : ℕ) : ℤ) + 1) = 12 * (Y : ℤ) + 1 by omega] at e2
  rw [show (12 * (Y : ℤ) + ((10 : ℕ) : ℤ) + 1) = 12 * (Y : ℤ) + 11 by omega] at e3
  unfold firstOf at e1 e2 e3
  rw [show 12 * (Y : ℤ) / 12 = Y by omega, show 12 * (Y : ℤ) % 12 + 1 = 1 by omega] at e1
  rw [show (12 * (Y : ℤ) + 1) / 12 = Y by omega, show (12 * (Y : ℤ) + 1) % 12 + 1 = 2 by omega] at e2
  rw [show (12 * (Y : ℤ) + 11) / 12 = Y by omega, show (12 * (Y : ℤ) + 11) % 12 + 1 = 12 by omega] at e3
  have m1 : monthOff.getD 11 0 = 334 := rfl
  have m2 : monthOff.getD 12 0 = 365 := rfl
  have m3 : monthOff.getD 10 0 = 303 := rfl
  rw [m1] at e1
  rw [m2] at e2
  rw [m3] at e3
  have t0 := tab 0 (by norm_num)
  have t2 := tab 2 (by norm_num)
  have t22 := tab 22 (by norm_num)
  change march (Y - 1) + 334 + 19 ≤ termJD (24 * Y + 20 - 38000) + 1 at a1
  change termJD (24 * Y + 20 - 38000) + 1 ≤ march (Y - 1) + 334 + 22 at a2
  change march (Y - 1) + 365 + 18 ≤ termJD (24 * Y + 20 - 38000 + 2) + 1 at b1
  change termJD (24 * Y + 20 - 38000 + 2) + 1 ≤ march (Y - 1) + 365 + 21 at b2
  change march Y + 303 + 20 ≤ termJD (24 * Y + 20 - 38000 + 22) + 1 at c1
  change termJD (24 * Y + 20 - 38000 + 22) + 1 ≤ march Y + 303 + 23 at c2
  rw [Nat.add_zero] at t0
  refine ⟨fun x hx e => ?_, fun x hx e => ?_, fun x hx e => ?_⟩
  · rw [show 24 * ((Y : ℤ) - 2000) + 17 + ((3 : ℕ) : ℤ) = 24 * ((Y : ℤ) - 2000) + 20 + ((0 : ℕ) : ℤ) by push_cast; ring, t0] at e
    unfold J2000 at e
    have := between hx (y := Y) (m := 1) (a := 19) (b := 22) (by omega) (by norm_num) (by norm_num) (by norm_num) (by norm_num) (by omega) (by omega)
    push_cast
    omega
  · rw [show 24 * ((Y : ℤ) - 2000) + 17 + ((5 : ℕ) : ℤ) = 24 * ((Y : ℤ) - 2000) + 20 + ((2 : ℕ) : ℤ) by push_cast; ring, t2] at e
    unfold J2000 at e
    have := between hx (y := Y) (m := 2) (a := 18) (b := 21) (by omega) (by norm_num) (by norm_num) (by norm_num) (by norm_num) (by omega) (by omega)
    push_cast
    omega
  · rw [show 24 * ((Y : ℤ) - 2000) + 17 + ((25 : ℕ) : ℤ) = 24 * ((Y : ℤ) - 2000) + 20 + ((22 : ℕ) : ℤ) by push_cast; ring, t22] at e
    unfold J2000 at e
    have := between hx (y := Y) (m := 12) (a := 20) (b := 23) (by omega) (by norm_num) (by norm_num) (by norm_num) (by norm_num) (by omega) (by omega)
    push_cast
    omega

theorem rows_days {c : ℤ} {h θ : ℕ} {ws : List Row} (H : Block.sunBlockOk c h θ 0 (ws.map (rowAt c)) = true)
    {Y1 Y2 : ℕ} (h1 : c + 2000 - h ≤ Y1) (h2 : (Y2 : ℤ) ≤ c + 2000 + h) (h3 : Y2 ≤ 20000) :
    ∀ (i : ℕ) (w : Row), i < 24 → ws[i]? = some w → Low.RowOf (termU M) i w Y1 Y2 :=
  fun _ _ hi hw Y a b => (sunRow hM H hw h1 h2 ⟨h3, hi.le⟩ Y a b).1

theorem days_rows {ws : List Row} {ds : List (ℕ × ℕ)} {Y1 n : ℕ} (S : datesOk ws ds Y1 n = true)
    (R : ∀ (i : ℕ) (w : Row), i < 24 → ws[i]? = some w → Low.RowOf (termU M) i w Y1 (Y1 + n)) (hd : ∀ d ∈ ds, 1 ≤ d.1 ∧ d.2 ≤ 28) (h0 : 1961 ≤ Y1)
    {Y : ℤ} (h1 : Y1 ≤ Y) (h2 : Y < Y1 + n) (h3 : Y ≤ 9000) {i : ℕ} (i1 : 2 ≤ i) (i2 : i ≤ 25) {a b : ℕ} (he : ds[i - 2]? = some (a, b)) :
    OnDays (dayT M) Y i a b := by
  intro x hx e
  rw [dayT_high M (by omega)] at e
  have u := (sun_at hM (n := 24 * (Y - 2000) + 17 + i) (by omega) (by omega)).2.2.2.1
  have e' : (JD.jdn x : ℚ) = termDay M (24 * (Y - 2000) + 17 + i) + 2451545 := by
    rw [e]; unfold J2000; push_cast; ring
  obtain ⟨d, hd', r⟩ := date_rows S R hd (by omega) h1 h2 i1 i2 hx (by rw [e']; linarith [u.1, u.2]) (by rw [e']; linarith [u.1, u.2])
  rw [he] at hd'
  cases hd'
  exact r

omit hM in
theorem OnDays.mono {D : ℤ → ℤ} {Y : ℤ} {i : ℕ} {a b a' b' : ℤ} (h : OnDays D Y i a b) (ha : a' ≤ a) (hb : b ≤ b') : OnDays D Y i a' b' :=
  fun x hx e => by have := h x hx e; omega

/-- 大寒, 雨水 and 冬至, 1961-2099 -/
theorem usual_days {Y : ℤ} (h1 : 1961 ≤ Y) (h2 : Y ≤ 2099) :
    OnDays (dayT M) Y 3 19 21 ∧ OnDays (dayT M) Y 5 18 20 ∧ OnDays (dayT M) Y 25 21 22 := by
  have key : ∀ {i a b : ℕ}, 2 ≤ i → i ≤ 25 → usualDays[i - 2]? = some (a, b) → OnDays (dayT M) Y i a b := by
    intro i a b i1 i2 he
    by_cases c : Y < 2081
    · exact days_rows hM usual0 (rows_days hM sunOk0 (by norm_num) (by norm_num) (by norm_num)) usual_ok (by norm_num) (by push_cast; omega)
        (by push_cast; omega) (by omega) i1 i2 he
    · exact days_rows hM usual1 (rows_days hM sunOk1 (by norm_num) (by norm_num) (by norm_num)) usual_ok (by norm_num) (by push_cast; omega)
        (by push_cast; omega) (by omega) i1 i2 he
  exact ⟨key (by norm_num) (by norm_num) rfl, key (by norm_num) (by norm_num) rfl, key (by norm_num) (by norm_num) rfl⟩

/-- 1584-2731 -/
theorem rare_days {Y : ℤ} (h1 : 1584 ≤ Y) (h2 : Y ≤ 2731) :
    OnDays (dayT M) Y 3 19 22 ∧ OnDays (dayT M) Y 5 18 21 ∧ OnDays (dayT M) Y 25 20 23 := by
  by_cases c : Y < 1961
  · exact low_days hM h1 (by omega)
  have key : ∀ {i a b : ℕ}, 2 ≤ i → i ≤ 25 → rareDays[i - 2]? = some (a, b) → OnDays (dayT M) Y i a b := by
    intro i a b i1 i2 he
    by_cases c3 : Y < 2081
    · exact days_rows hM rare3 (rows_days hM sunOk0 (by norm_num) (by norm_num) (by norm_num)) rare_ok (by norm_num) (by push_cast; omega)
        (by push_cast; omega) (by omega) i1 i2 he
    by_cases c4 : Y < 2129
    · exact days_rows hM rare4 (rows_days hM sunOk1 (by norm_num) (by norm_num) (by norm_num)) rare_ok (by norm_num) (by push_cast; omega)
        (by push_cast; omega) (by omega) i1 i2 he
    · exact days_rows hM rare5 (rows_days hM sunOk2 (by norm_num) (by norm_num) (by norm_num)) rare_ok (by norm_num) (by push_cast; omega)
        (by push_cast; omega) (by omega) i1 i2 he
  exact ⟨key (by norm_num) (by norm_num) rfl, (key (i := 5) (by norm_num) (by norm_num) rfl).mono (by norm_num) (by norm_num), key (by norm_num) (by norm_num) rfl⟩

/-- 1584-6890 -/
theorem possible_days {Y : ℤ} (h1 : 1584 ≤ Y) (h2 : Y ≤ 6890) :
    OnDays (dayT M) Y 3 18 22 ∧ OnDays (dayT M) Y 5 17 21 ∧ OnDays (dayT M) Y 25 19 23 := by
  by_cases c : Y < 2732
  · obtain ⟨p, q, r⟩ := rare_days hM h1 (by omega)
    exact ⟨p.mono (by norm_num) (by norm_num), q.mono (by norm_num) (by norm_num), r.mono (by norm_num) (by norm_num)⟩
  have key : ∀ {i a b : ℕ}, 2 ≤ i → i ≤ 25 → possibleDays[i - 2]? = some (a, b) → OnDays (dayT M) Y i a b := by
    intro i a b i1 i2 he
    by_cases c3 : Y < 3772
    · exact days_rows hM possible3 (rows_days hM sunOk3 (by norm_num) (by norm_num) (by norm_num)) possible_ok (by norm_num) (by push_cast; omega)
        (by push_cast; omega) (by omega) i1 i2 he
    by_cases c4 : Y < 4812
    · exact days_rows hM possible4 (rows_days hM sunOk4 (by norm_num) (by norm_num) (by norm_num)) possible_ok (by norm_num) (by push_cast; omega)
        (by push_cast; omega) (by omega) i1 i2 he
    by_cases c5 : Y < 5852
    · exact days_rows hM possible5 (rows_days hM sunOk5 (by norm_num) (by norm_num) (by norm_num)) possible_ok (by norm_num) (by push_cast; omega)
        (by push_cast; omega) (by omega) i1 i2 he
    · exact days_rows hM possible6 (rows_days hM sunOk6 (by norm_num) (by norm_num) (by norm_num)) possible_ok (by norm_num) (by push_cast; omega)
        (by push_cast; omega) (by omega) i1 i2 he
  exact ⟨key (by norm_num) (by norm_num) rfl, (key (i := 5) (by norm_num) (by norm_num) rfl).mono (by norm_num) (by norm_num), key (by norm_num) (by norm_num) rfl⟩

omit hM in
/-- the same as bounds for the day number -/
theorem OnDays.bounds {D : ℤ → ℤ} {Y : ℤ} {i : ℕ} {a b : ℤ} (h : OnDays D Y i a b) (hY : 1583 ≤ Y) (hn : 0 ≤ D (24 * (Y - 2000) + 17 + i) + J2000) :
    JD.jdn ⟨Y, i / 2, 1⟩ + a - 1 ≤ D (24 * (Y - 2000) + 17 + i) + J2000 ∧ D (24 * (Y - 2000) + 17 + i) + J2000 ≤ JD.jdn ⟨Y, i / 2, 1⟩ + b - 1 := by
  obtain ⟨x, hx, e⟩ := JD.exists_date _ hn
  obtain ⟨y, m, a, b⟩ := h x hx e
  rw [← e, ← y, ← m]
  have sh : JD.jdn x = JD.jdn ⟨x.y, x.m, 1⟩ + x.d - 1 := by
    have := hx.2.2.1
    rw [← y] at hY
    clear e hn h
    unfold JD.jdn JD.corr JD.my JD.mm
    dsimp only
    split_ifs <;> omega
  omega

omit hM in
/-- the first days of January, February and December -/
theorem firsts {Y : ℤ} (hY : 1584 ≤ Y) : JD.jdn ⟨Y, 2, 1⟩ = JD.jdn ⟨Y, 1, 1⟩ + 31 ∧ JD.jdn ⟨Y - 1, 12, 1⟩ = JD.jdn ⟨Y, 1, 1⟩ - 31 ∧
    JD.jdn ⟨Y, 1, 1⟩ + 334 ≤ JD.jdn ⟨Y, 12, 1⟩ := by
  have c : (Y / 100 = (Y - 1) / 100 ∧ Y / 100 / 4 = (Y - 1) / 100 / 4) ∨ Y / 100 = (Y - 1) / 100 + 1 ∧ Y % 4 = 0 := by
    have : Y / 100 = (Y - 1) / 100 ∨ Y / 100 = (Y - 1) / 100 + 1 ∧ Y % 4 = 0 := by omega
    exact this.imp (fun h => ⟨h, by rw [h]⟩) id
  unfold JD.jdn JD.corr JD.my JD.mm
  dsimp only
  norm_num
  rcases c with c | c <;> split_ifs <;> omega

theorem dayT_pos {n : ℤ} (n1 : 24 * (1584 - 2000) ≤ n) (n2 : n ≤ 24 * (6000 - 2000)) : 0 ≤ dayT M n + J2000 := by
  have d := (term_facts hM n1 (by omega)).1.1
  have n1' : 24 * (1584 - 2000) ≤ (n : ℚ) := by exact_mod_cast n1
  have : (0 : ℚ) ≤ ((dayT M n + J2000 : ℤ) : ℚ) := by
    unfold J2000
    push_cast
    linarith
  exact_mod_cast this

theorem steps {k : ℤ} (h0 : -5160 ≤ k) {j : ℕ} (h1 : k + j ≤ 37150) : dayN M k + 29 * j ≤ dayN M (k + j) ∧ dayN M (k + j) ≤ dayN M k + 30 * j := by
  induction j with
  | zero => simp
  | succ j ih =>
    have a := ih (by omega)
    have b := Lunation.dayN_step hM (k := k + j) (by omega) (by omega)
    rw [show k + ((j + 1 : ℕ) : ℤ) = k + j + 1 by push_cast; ring]
    omega

/-- the day of the New Year: after 大寒, and at most 60 days after 冬至, 30 after 大寒 or on 雨水 -/
theorem newYear_days {Y : ℤ} (h1 : 1585 ≤ Y) (h2 : Y ≤ 4999) : ∃ k, key (full hM).toFacts k = (Y, 1) ∧
    ∃ n, first (full hM).toFacts k = n + J2000 ∧ dayT M (24 * (Y - 2000) + 20) < n ∧
      (n ≤ dayT M (24 * (Y - 2000) + 18) + 60 ∨ n ≤ dayT M (24 * (Y - 2000) + 20) + 30 ∨ n ≤ dayT M (24 * (Y - 2000) + 22)) := by
  have B := (full hM).toFacts
  obtain ⟨a1, a2, s1, s2, -⟩ := start_spec B (Y := Y) (by omega) (by omega)
  have y1 : (1585 : ℚ) ≤ Y := by exact_mod_cast h1
  have y2 : (Y : ℚ) ≤ 4999 := by exact_mod_cast h2
  have r1 : ((-5160 : ℤ) : ℚ) < (start B Y : ℤ) := by push_cast; linarith
  have r2 : ((start B Y : ℤ) : ℚ) < ((37120 : ℤ) : ℚ) := by push_cast; linarith
  have r1 := Int.cast_lt.1 r1
  have r2 := Int.cast_lt.1 r2
  have t2 := steps hM (k := start B Y) (j := 2) (by omega) (by omega)
  have t3 := steps hM (k := start B Y + 1) (j := 2) (by omega) (by omega)
  have t1 := steps hM (k := start B Y + 2) (j := 1) (by omega) (by omega)
  have t11 := steps hM (k := start B Y + 2) (j := 11) (by omega) (by omega)
  rw [show start B Y + 1 + ((2 : ℕ) : ℤ) = start B Y + 3 by push_cast; ring] at t3
  rw [show start B Y + 2 + ((1 : ℕ) : ℤ) = start B Y + 3 by push_cast; ring] at t1
  rw [show start B Y + 2 + ((11 : ℕ) : ℤ) = start B Y + 13 by push_cast; ring] at t11
  push_cast at t1 t2 t3 t11
  -- the dates of the terms
  obtain ⟨p3, -, p25⟩ := possible_days hM (Y := Y) (by omega) (by omega)
  obtain ⟨-, -, p1⟩ := possible_days hM (Y := Y - 1) (by omega) (by omega)
  obtain ⟨f2, f12, f12'⟩ := firsts (Y := Y) (by omega)
  have q3 := p3.bounds (by omega) (dayT_pos hM (by push_cast; omega) (by push_cast; omega))
  have q25 := p25.bounds (by omega) (dayT_pos hM (by push_cast; omega) (by push_cast; omega))
  have q1 := p1.bounds (by omega) (dayT_pos hM (by push_cast; omega) (by push_cast; omega))
  rw [show 24 * (Y - 2000) + 17 + ((3 : ℕ) : ℤ) = 24 * (Y - 2000) + 20 by push_cast; ring] at q3
  rw [show 24 * (Y - 2000) + 17 + ((25 : ℕ) : ℤ) = 24 * (Y - 2000) + 18 + 24 by push_cast; ring] at q25
  rw [show 24 * (Y - 1 - 2000) + 17 + ((25 : ℕ) : ℤ) = 24 * (Y - 2000) + 18 by push_cast; ring] at q1
  norm_num at q3 q25 q1
  have lb := leapOf_bounds (astro M) Y
  have ke := key_eq B (Y := Y) (by omega) (by omega) (i := if leapOf (astro M) Y ≤ 2 then 3 else 2) (by split_ifs <;> norm_num)
  rw [name_newYear lb.1 lb.2, add_zero] at ke
  refine ⟨_, ke, _, first_eq B (by omega) (by omega) (by omega) (by split_ifs <;> norm_num), ?_⟩
  have L := link B (Y := Y) (by omega) (by omega)
  have nx := start_next B (Y := Y) (by omega) (by omega)
  have lo := leapOf_eq B (Y := Y) (by omega) (by omega)
  have l1 := loop_one B (Y := Y) (by omega) (by omega)
  have l2 := loop_two B (Y := Y) (by omega) (by omega)
  rcases nx with ⟨e, h12⟩ | ⟨e, h13⟩
  · have : 13 ≤ leapOf (astro M) Y := by
      rw [e, show start B Y + 12 - start B Y = ((12 : ℕ) : ℤ) by push_cast; ring] at L
      exact L.twelve
    rw [if_neg (by omega)]
    push_cast
    exact ⟨by omega, Or.inl (by omega)⟩
  · have h3 : leapOf (astro M) Y ≤ 12 := by
      rw [e, show start B Y + 13 - start B Y = ((13 : ℕ) : ℤ) by push_cast; ring] at L
      exact L.thirteen
    have nl : Y ∉ LEAP_11 ∧ Y ∉ LEAP_12 := by
      constructor
      · intro c; rw [if_pos c] at lo; omega
      · intro c
        by_cases c1 : Y ∈ LEAP_11
        · rw [if_pos c1] at lo; omega
        · rw [if_neg c1, if_pos c] at lo; omega
    rw [if_neg nl.1, if_neg nl.2, if_pos h13] at lo
    have l3 := (leapLoop_bounds (hsOf (astro M) Y) (computeJq (astro M) Y)
      (by rw [hs_get B (Y := Y) (by omega) (by omega) (i := 13) (by norm_num), B.toBins.jq_get (Y := Y) (by omega) (by omega) (i := 24) (by norm_num)]; exact h13)
      9 3 (by norm_num) (by norm_num)).1
    rw [show 24 * (Y - 2000) + 18 + 2 = 24 * (Y - 2000) + 20 by ring] at l1
    rw [show 24 * (Y - 2000) + 18 + 4 = 24 * (Y - 2000) + 22 by ring] at l2
    by_cases c1 : dayT M (24 * (Y - 2000) + 20) < dayN M (start B Y + 2)
    · rw [if_pos c1] at l1
      by_cases c2 : dayT M (24 * (Y - 2000) + 22) < dayN M (start B Y + 3)
      · rw [if_pos c2] at l2
        rw [if_neg (by omega)]
        push_cast
        exact ⟨c1, Or.inl (by omega)⟩
      · rw [if_neg c2] at l2
        rw [if_pos (by omega)]
        push_cast
        exact ⟨by omega, Or.inr (Or.inr (by omega))⟩
    · rw [if_neg c1] at l1
      rw [if_pos (by omega)]
      push_cast
      exact ⟨by omega, Or.inr (Or.inl (by omega))⟩

/-- the same in days from the first of January, for windows of 冬至, 大寒 and 雨水 -/
theorem newYear_window {Y a b c e : ℤ} (h1 : 1585 ≤ Y) (h2 : Y ≤ 4999) (p1 : OnDays (dayT M) (Y - 1) 25 a (b + 1)) (p3 : OnDays (dayT M) Y 3 c b)
    (p5 : OnDays (dayT M) Y 5 e (b - 1)) : ∃ k, key (full hM).toFacts k = (Y, 1) ∧
      JD.jdn ⟨Y, 1, 1⟩ + c ≤ first (full hM).toFacts k ∧ first (full hM).toFacts k ≤ JD.jdn ⟨Y, 1, 1⟩ + b + 29 := by
  obtain ⟨k, hk, n, hn, h3, h4⟩ := newYear_days hM h1 h2
  obtain ⟨f2, f12, -⟩ := firsts (Y := Y) (by omega)
  have q3 := p3.bounds (by omega) (dayT_pos hM (by push_cast; omega) (by push_cast; omega))
  have q5 := p5.bounds (by omega) (dayT_pos hM (by push_cast; omega) (by push_cast; omega))
  have q1 := p1.bounds (by omega) (dayT_pos hM (by push_cast; omega) (by push_cast; omega))
  rw [show 24 * (Y - 2000) + 17 + ((3 : ℕ) : ℤ) = 24 * (Y - 2000) + 20 by push_cast; ring] at q3
  rw [show 24 * (Y - 2000) + 17 + ((5 : ℕ) : ℤ) = 24 * (Y - 2000) + 22 by push_cast; ring] at q5
  rw [show 24 * (Y - 1 - 2000) + 17 + ((25 : ℕ) : ℤ) = 24 * (Y - 2000) + 18 by push_cast; ring] at q1
  norm_num at q3 q5 q1
  refine ⟨k, hk, ?_⟩
  rw [hn]
  omega

/-- 冬至 of 1960 is on 22 December at the latest -/
theorem winter_1960 : OnDays (dayT M) 1960 25 0 22 := by
  intro x hx e
  have t := dayT_table hM (m := 9082) (by norm_num)
  rw [show 24 * (1960 - 2000) + 17 + ((25 : ℕ) : ℤ) = ((9082 : ℕ) : ℤ) - 10000 by norm_num, t, show termJD 9082 = 2437291 by decide +kernel] at e
  unfold J2000 at e
  have := between hx (y := 1960) (m := 12) (a := 22) (b := 22) (by norm_num) (by norm_num) (by norm_num) (by norm_num) (by norm_num)
    (by rw [e, show JD.jdn ⟨1960, 12, 1⟩ = 2437270 by decide +kernel]; norm_num) (by rw [e, show JD.jdn ⟨1960, 12, 1⟩ = 2437270 by decide +kernel]; norm_num)
  push_cast
  omega

/-- from 19 January to 21 February -/
theorem newYear_possible {Y : ℤ} (h1 : 1585 ≤ Y) (h2 : Y ≤ 4999) : ∃ k, key (full hM).toFacts k = (Y, 1) ∧
    JD.jdn ⟨Y, 1, 1⟩ + 18 ≤ first (full hM).toFacts k ∧ first (full hM).toFacts k ≤ JD.jdn ⟨Y, 1, 1⟩ + 51 ∧
    (Y ≤ 2731 → JD.jdn ⟨Y, 1, 1⟩ + 19 ≤ first (full hM).toFacts k) ∧ (1961 ≤ Y → Y ≤ 2099 → first (full hM).toFacts k ≤ JD.jdn ⟨Y, 1, 1⟩ + 50) := by
  have uniq : ∀ j k, key (full hM).toFacts j = (Y, 1) → key (full hM).toFacts k = (Y, 1) → j = k := fun j k a b =>
    key_inj (full hM).toFacts j k (a.trans b.symm)
  obtain ⟨q3, q5, -⟩ := possible_days hM (Y := Y) (by omega) (by omega)
  obtain ⟨-, -, q1⟩ := possible_days hM (Y := Y - 1) (by omega) (by omega)
  obtain ⟨k, hk, a, b⟩ := newYear_window hM (b := 22) h1 h2 q1 q3 q5
  refine ⟨k, hk, a, by omega, fun h => ?_, fun h h' => ?_⟩
  · obtain ⟨q3, q5, -⟩ := rare_days hM (Y := Y) (by omega) (by omega)
    obtain ⟨-, -, q1⟩ := rare_days hM (Y := Y - 1) (by omega) (by omega)
    obtain ⟨k', hk', a', b'⟩ := newYear_window hM (b := 22) h1 h2 q1 q3 q5
    rwa [uniq k k' hk hk']
  · obtain ⟨q3, q5, -⟩ := usual_days hM (Y := Y) (by omega) (by omega)
    have q1 : OnDays (dayT M) (Y - 1) 25 0 22 := by
      by_cases c : Y = 1961
      · rw [c]; exact winter_1960 hM
      · exact (usual_days hM (Y := Y - 1) (by omega) (by omega)).2.2.mono (by norm_num) le_rfl
    obtain ⟨k', hk', a', b'⟩ := newYear_window hM (b := 21) h1 h2 q1 q3 q5
    rw [uniq k k' hk hk']
    omega

end Ephem
