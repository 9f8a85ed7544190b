import Verif.Proof.Low.Days
import Verif.Proof.High.Table
import Verif.Proof.High.Months

/-! # The years from 1584 to 1961: what is checked -/

open Aff0 ShouXing FloatLike Block High

namespace Low

@[inherit_doc] local infixl:65 " +ₙ " => Nat.add
@[inherit_doc] local infixl:65 " -ₙ " => Nat.sub
@[inherit_doc] local infixl:70 " *ₙ " => Nat.mul
@[inherit_doc] local infixl:70 " /ₙ " => Nat.div

/-! ## Instants of solar terms -/

/-- the instants of the row, plus `a`, are within 3.99 days of `b` (microdays) -/
def near (w : Row) (Y a b : ℕ) : Bool :=
  forceN (w.a +ₙ w.b *ₙ Y +ₙ a) fun v => Nat.ble (b +ₙ w.r) (v +ₙ 3490000) && Nat.ble (v +ₙ w.r) (b +ₙ 4490000)

theorem near_mem {w : Row} {Y a b : ℕ} (H : near w Y a b = true) {u : ℚ} (hu : w.Bd Y u) :
    |(u + 2451545) * 1000000 + a - 500000 - b| ≤ 3990000 := by
  unfold near at H
  rw [forceN_eq] at H
  simp only [Bool.and_eq_true, Nat.ble_eq] at H
  obtain ⟨h1, h2⟩ := H
  change b + w.r ≤ w.a + w.b * Y + a + 3490000 at h1
  change w.a + w.b * Y + a + w.r ≤ b + 4490000 at h2
  have h1' : (b : ℚ) + w.r ≤ w.a + w.b * Y + a + 3490000 := by exact_mod_cast h1
  have h2' : (w.a : ℚ) + w.b * Y + a + w.r ≤ b + 4490000 := by exact_mod_cast h2
  have h := abs_le.1 hu
  rw [abs_le]
  constructor <;> linarith [h.1, h.2]

/-- the rows of a year are near the days of the table, the first being that of term `m - 10000` -/
def nearAll (Y : ℕ) (ws : List Row) : ℕ → Bool :=
  List.rec (motive := fun _ => ℕ → Bool) (fun _ => true) (fun w _ ih m => near w Y 0 (termJD m *ₙ 1000000) && forceN (Nat.succ m) ih) ws

theorem nearAll_get {Y m i : ℕ} {ws : List Row} (H : nearAll Y ws m = true) {w : Row} (hi : ws[i]? = some w) :
    near w Y 0 (termJD (m + i) * 1000000) = true := by
  induction ws generalizing m i with
  | nil => simp at hi
  | cons v ws ih =>
    have e : nearAll Y (v :: ws) m = (near v Y 0 (termJD m * 1000000) && nearAll Y ws (m + 1)) := by
      show (_ && forceN _ _) = _
      rw [forceN_eq]
      rfl
    rw [e, Bool.and_eq_true] at H
    cases i with
    | zero =>
      simp only [List.getElem?_cons_zero, Option.some.injEq] at hi
      subst hi
      exact H.1
    | succ i =>
      rw [List.getElem?_cons_succ] at hi
      rw [show m + (i + 1) = m + 1 + i by ring]
      exact ih H.2 hi

/-- the instants of the terms of year `Y` -/
def yearT (ws : List Row) (Y : ℕ) : Bool :=
  forceN (24 *ₙ Y -ₙ 38000) fun m => nearAll Y ws m &&
  match ws.drop 17 with
  | a :: _ :: _ :: d :: e :: f :: g :: _ =>
    near a Y 15218400 (termJD (m +ₙ 18) *ₙ 1000000) &&
    forceN (termJD (m +ₙ 19) *ₙ 1000000) fun t => near d Y 0 (t +ₙ 15218400) && near e Y 0 (t +ₙ 30436800) &&
      near f Y 0 (t +ₙ 45655200) && near g Y 0 (t +ₙ 60873600)
  | _ => false

/-- the years `Y1 ..< Y1 + n` -/
def instOk (ws : List Row) (n Y1 : ℕ) : Bool :=
  Nat.beq ws.length 24 && Nat.ble 1584 Y1 && Nat.ble (Y1 + n) 1970 && crudeAll Y1 (Y1 + n) 0 ws && monthAll Y1 (Y1 + n) ws hints && allFrom (yearT ws) n Y1

/-- what is known of the instants of the solar terms of year `Y` -/
structure Inst (M : Libm) (Y : ℕ) : Prop where
  v : ∀ s : ℕ, s < 24 → 15218425 * ((24 * ((Y : ℤ) - 2000) + s : ℤ) : ℚ) - 289700000 ≤ termV M (24 * (Y - 2000) + s) * 1000000 ∧
      termV M (24 * (Y - 2000) + s) * 1000000 ≤ 15218425 * ((24 * ((Y : ℤ) - 2000) + s : ℤ) : ℚ) - 281500000
  near : ∀ s : ℕ, s < 24 → |termV M (24 * (Y - 2000) + s) - 1 / 2 - (termJD (24 * Y + s - 38000) - 2451545)| ≤ 3.99
  before : |termV M (24 * (Y - 2000) + 17) - 1 / 2 - (termJD (24 * Y + 18 - 38000) - 2451545) + 15.2184| ≤ 3.99
  after : ∀ j : ℕ, 1 ≤ j → j ≤ 4 →
    |termV M (24 * (Y - 2000) + (19 + j : ℕ)) - 1 / 2 - (termJD (24 * Y + 19 - 38000) - 2451545) - 15.2184 * j| ≤ 3.99
  month : ∀ s : ℕ, s < 24 → InMonth (termV M (24 * (Y - 2000) + s))

theorem near_day {w : Row} {Y a b : ℕ} {u : ℚ} (h : |(u + 2451545) * 1000000 + a - 500000 - b| ≤ 3990000) {d : ℕ} {x : ℚ}
    (e : (b : ℚ) - a = ((d : ℚ) + x) * 1000000) : |u - 1 / 2 - (d - 2451545) - x| ≤ 3.99 := by
  have := abs_le.1 h
  rw [abs_le]
  constructor <;> linarith [this.1, this.2]

theorem instOk_mem {M : Libm} (hM : M.Good) {c : ℤ} {h θ : ℕ} {ws : List Row} (H : blockOk (accOk c h θ) 0 (ws.map (rowAt c)) = true)
    {n Y1 : ℕ} (B : instOk ws n Y1 = true) (h1 : c + 2000 - h ≤ Y1) (h2 : ((Y1 + n : ℕ) : ℤ) ≤ c + 2000 + h) {Y : ℕ} (a1 : Y1 ≤ Y) (a2 : Y < Y1 + n) :
    Inst M Y := by
  unfold instOk at B
  simp only [Bool.and_eq_true, Nat.beq_eq, Nat.ble_eq] at B
  obtain ⟨⟨⟨⟨⟨b1, b0⟩, b2⟩, b3⟩, b4⟩, b5⟩ := B
  have row : ∀ s : ℕ, s < 24 → ∃ w, ws[s]? = some w ∧ RowOf (termV M) s w Y1 (Y1 + n) := by
    intro s hs
    have hw : ws[s]? = some (ws[s]'(by omega)) := List.getElem?_eq_getElem _
    exact ⟨_, hw, rowOf (u := termV M) (fun {y s A B R} a b => acc_mem hM a b) H hw h1 h2 (by omega)⟩
  have y := allFrom_get b5 a1 a2
  unfold yearT at y
  rw [forceN_eq, Bool.and_eq_true] at y
  change nearAll Y ws (24 * Y - 38000) = true ∧ _ at y
  obtain ⟨y1, y2⟩ := y
  have em : ∀ s : ℕ, 24 * Y - 38000 + s = 24 * Y + s - 38000 := by intro s; omega
  split at y2
  swap
  · cases y2
  next a b c' d e f g r hd =>
  have get : ∀ i : ℕ, ws[17 + i]? = (a :: b :: c' :: d :: e :: f :: g :: r)[i]? := fun i => by rw [← List.getElem?_drop, hd]
  rw [forceN_eq] at y2
  simp only [Bool.and_eq_true] at y2
  change near a Y 15218400 (termJD (24 * Y - 38000 + 18) * 1000000) = true ∧ ((near d Y 0 (termJD (24 * Y - 38000 + 19) * 1000000 + 15218400) = true ∧
    near e Y 0 (termJD (24 * Y - 38000 + 19) * 1000000 + 30436800) = true) ∧ near f Y 0 (termJD (24 * Y - 38000 + 19) * 1000000 + 45655200) = true) ∧
    near g Y 0 (termJD (24 * Y - 38000 + 19) * 1000000 + 60873600) = true at y2
  rw [em 18, em 19] at y2
  obtain ⟨y17, ⟨⟨y20, y21⟩, y22⟩, y23⟩ := y2
  refine ⟨fun s hs => ?_, fun s hs => ?_, ?_, fun j hj hj' => ?_, fun s hs => ?_⟩
  · obtain ⟨w, hw, r⟩ := row s hs
    obtain ⟨-, -, c3⟩ := crudeAll_get b3 hw
    exact crude_mem (by simpa using c3) a1 (by omega) (r Y a1 (by omega))
  · obtain ⟨w, hw, r⟩ := row s hs
    have := near_mem (nearAll_get y1 hw) (r Y a1 (by omega))
    rw [em s] at this
    have k := near_day (Y := Y) (w := w) this (d := termJD (24 * Y + s - 38000)) (x := 0) (by push_cast; ring)
    simpa using k
  · obtain ⟨w, hw, r⟩ := row 17 (by norm_num)
    have ew : w = a := by
      have := get 0
      simp only [add_zero, hw, List.getElem?_cons_zero, Option.some.injEq] at this
      exact this
    subst ew
    have := near_mem y17 (r Y a1 (by omega))
    have k := near_day (Y := Y) (w := w) this (d := termJD (24 * Y + 18 - 38000)) (x := -15.2184) (by push_cast; ring)
    rw [sub_neg_eq_add] at k
    exact k
  · obtain ⟨w, hw, r⟩ := row (19 + j) (by omega)
    have e3 := get (2 + j)
    rw [show 17 + (2 + j) = 19 + j by ring, hw] at e3
    have hn : near w Y 0 (termJD (24 * Y + 19 - 38000) * 1000000 + 15218400 * j) = true := by
      interval_cases j <;>
        simp only [Nat.reduceAdd, List.getElem?_cons_zero, List.getElem?_cons_succ, Option.some.injEq] at e3 <;> subst e3
      · exact y20
      · exact y21
      · exact y22
      · exact y23
    have := near_mem hn (r Y a1 (by omega))
    exact near_day (Y := Y) (w := w) this (d := termJD (24 * Y + 19 - 38000)) (x := 15.2184 * j) (by push_cast; ring)
  · obtain ⟨w, hw, r⟩ := row s hs
    obtain ⟨h, e, k⟩ := monthAll_get b4 hw
    rcases k Y a1 (by omega) with k | k
    · have := hints_nil
      rw [List.all_eq_true] at this
      have h3 := this h (List.mem_of_getElem? e)
      rw [List.isEmpty_iff] at h3
      rw [h3] at k
      cases k
    · exact k _ (r Y a1 (by omega))

/-! ## Days -/

/-- the day of term `m - 10000` is not far from the mean -/
def termNear (m : ℕ) : Bool :=
  forceN (termJD m *ₙ 1000000) fun d => Nat.ble d (15218425 *ₙ m +ₙ 2299079250000) && Nat.ble (15218425 *ₙ m +ₙ 2299070050000) d

/-- the day of new moon `j - 5200` is not far from the mean -/
def moonNear (j : ℕ) : Bool :=
  forceN (moonJD j *ₙ 10000) fun d => Nat.ble d (295306 *ₙ j +ₙ 22979932800) && Nat.ble (295306 *ₙ j +ₙ 22979864800) d

/-- 25 months -/
def moonGap (j : ℕ) : Bool := Nat.ble (moonJD j +ₙ 734) (moonJD (j +ₙ 25))

/-- the list of year `Y` -/
def yearD (l11 l12 : List ℕ) (Y : ℕ) : Bool :=
  forceN (24 *ₙ Y +ₙ 18 -ₙ 38000) fun m => forceN (termJD m) fun d =>
  Nat.ble (d +ₙ 362) (termJD (m +ₙ 24)) && Nat.ble (termJD (m +ₙ 48)) (d +ₙ 733) &&
  forceN ((3652422 *ₙ Y -ₙ 5769792800) /ₙ 295306) fun j =>
    allFrom (fun j => lt d (moonJD j) || Nat.ble (moonJD (Nat.succ j)) d ||
      good (tagOf l11 l12 Y) (fun i => termJD (m +ₙ i)) (fun i => termJD (m +ₙ i)) moonJD moonJD j) 3 j

theorem yearD_mem {l11 l12 : List ℕ} {Y : ℕ} (H : yearD l11 l12 Y = true) :
    termJD (24 * Y + 18 - 38000) + 362 ≤ termJD (24 * Y + 18 - 38000 + 24) ∧ termJD (24 * Y + 18 - 38000 + 48) ≤ termJD (24 * Y + 18 - 38000) + 733 ∧
    ∀ j : ℕ, (3652422 * Y - 5769792800) / 295306 ≤ j → j < (3652422 * Y - 5769792800) / 295306 + 3 → moonJD j ≤ termJD (24 * Y + 18 - 38000) →
      termJD (24 * Y + 18 - 38000) < moonJD (j + 1) →
      Good (tagOf l11 l12 Y) (fun i => (termJD (24 * Y + 18 - 38000 + i) : ℤ)) (fun j => (moonJD j : ℤ)) j := by
  unfold yearD at H
  simp only [forceN_eq, Bool.and_eq_true, Nat.ble_eq] at H
  obtain ⟨⟨h1, h2⟩, h3⟩ := H
  refine ⟨h1, h2, fun j j1 j2 j3 j4 => ?_⟩
  have := allFrom_get h3 j1 j2
  simp only [Bool.or_eq_true, lt_iff, Nat.ble_eq] at this
  rcases this with (h | h) | h
  · change termJD (24 * Y + 18 - 38000) < moonJD j at h
    omega
  · change moonJD (j + 1) ≤ termJD (24 * Y + 18 - 38000) at h
    omega
  · exact good_mem h (fun i _ => ⟨le_rfl, le_rfl⟩) (fun i _ _ => ⟨le_rfl, le_rfl⟩)

end Low
