import Verif.Model.Solar
import Verif.Spec.Calendar
import Mathlib.Tactic.Linarith
import Mathlib.Tactic.Ring
import Mathlib.Order.Monotone.Basic
import Mathlib.Algebra.Order.Ring.Int

/-! A closed-form day number for civil dates and its relation to specification and model. -/

namespace Cal
open SolarUtil Spec

theorem isLeapYear_iff (y : ℤ) : isLeapYear y = true ↔ Leap y := by
  unfold isLeapYear Leap
  split_ifs with h1 h2 h2
  · simp only [beq_iff_eq]; omega
  · simp only [beq_iff_eq]; omega
  · omega
  · simp only [Bool.or_eq_true, Bool.and_eq_true, beq_iff_eq, bne_iff_ne, ne_eq]; omega

/-- number of days before January 1 of year `y` (offset arbitrary) -/
def yearStart (y : ℤ) : ℤ :=
  if y ≤ 1582 then 365 * y + (y + 3) / 4
  else 365 * y + (y + 3) / 4 - 10 - ((y - 1) / 100 - 15) + ((y - 1) / 400 - 3)

theorem yearStart_succ (y : ℤ) : yearStart (y + 1) = yearStart y + getDaysOfYear y := by
  have hl := isLeapYear_iff y
  unfold Leap at hl
  unfold yearStart getDaysOfYear
  by_cases h : isLeapYear y = true
  · have := hl.1 h
    simp only [h, if_true]
    split_ifs at * <;> omega
  · have h' : ¬ _ := fun x => h (hl.2 x)
    simp only [h]
    split_ifs at * <;> omega

/-- days of the year before month `m` in a common year -/
def cum0 (m : ℤ) : ℤ :=
  if m = 1 then 0 else if m = 2 then 31 else if m = 3 then 59
  else if m = 4 then 90 else if m = 5 then 120 else if m = 6 then 151
  else if m = 7 then 181 else if m = 8 then 212 else if m = 9 then 243
  else if m = 10 then 273 else if m = 11 then 304 else 334

/-- days of year `y` before month `m` -/
def cum (y m : ℤ) : ℤ :=
  cum0 m + (if 2 < m ∧ isLeapYear y then 1 else 0) - (if y = 1582 ∧ 10 < m then 10 else 0)

def monthStart (y m : ℤ) : ℤ := yearStart y + cum y m

/-- position of the label `d` inside its month -/
def ord (y m d : ℤ) : ℤ := if y = 1582 ∧ m = 10 ∧ d > 4 then d - 10 else d

/-- day number -/
def dayNo (y m d : ℤ) : ℤ := monthStart y m + ord y m d

theorem cum_one (y : ℤ) : cum y 1 = 0 := by
  simp [cum, cum0]

theorem months12 {m : ℤ} (h1 : 1 ≤ m) (h2 : m ≤ 12) :
    m = 1 ∨ m = 2 ∨ m = 3 ∨ m = 4 ∨ m = 5 ∨ m = 6 ∨ m = 7 ∨ m = 8 ∨ m = 9 ∨ m = 10 ∨ m = 11 ∨ m = 12 := by
  omega

theorem cum_succ (y m : ℤ) (h1 : 1 ≤ m) (h2 : m ≤ 11) :
    cum y (m + 1) = cum y m + getDaysOfMonth y m := by
  unfold cum getDaysOfMonth
  cases isLeapYear y <;> by_cases hy : y = 1582 <;>
  rcases months12 h1 (by omega) with h | h | h | h | h | h | h | h | h | h | h | h <;> subst h <;>
    first | omega | simp [cum0, daysOfMonthTable, hy]

theorem cum_twelve (y : ℤ) : cum y 12 + getDaysOfMonth y 12 = getDaysOfYear y := by
  unfold cum getDaysOfMonth getDaysOfYear
  by_cases hy : y = 1582
  · subst hy; decide
  · cases isLeapYear y <;> simp [hy, cum0, daysOfMonthTable]

theorem monthStart_succ (y m : ℤ) (h1 : 1 ≤ m) (h2 : m ≤ 11) :
    monthStart y (m + 1) = monthStart y m + getDaysOfMonth y m := by
  unfold monthStart; rw [cum_succ y m h1 h2]; ring

theorem monthStart_year (y : ℤ) : monthStart (y + 1) 1 = monthStart y 12 + getDaysOfMonth y 12 := by
  unfold monthStart
  rw [cum_one, yearStart_succ]
  have := cum_twelve y
  omega

theorem getDaysOfMonth_eq (y m : ℤ) (h1 : 1 ≤ m) (h2 : m ≤ 12) :
    getDaysOfMonth y m = if y = 1582 ∧ m = 10 then 21 else lastDay y m := by
  have hl := isLeapYear_iff y
  unfold getDaysOfMonth lastDay
  by_cases hy : y = 1582 ∧ m = 10
  · simp [hy]
  · simp only [hy, if_false]
    by_cases h : isLeapYear y = true
    · have := hl.1 h
      simp only [h, this, if_true]
      rcases months12 h1 h2 with h | h | h | h | h | h | h | h | h | h | h | h <;> subst h <;>
        simp [daysOfMonthTable]
    · have h' : ¬ Leap y := fun x => h (hl.2 x)
      simp only [h, h', if_false]
      rcases months12 h1 h2 with h | h | h | h | h | h | h | h | h | h | h | h <;> subst h <;>
        simp [daysOfMonthTable]

theorem lastDay_bounds (y m : ℤ) : 28 ≤ lastDay y m ∧ lastDay y m ≤ 31 := by
  unfold lastDay; split_ifs <;> omega

/-- for a fixed month, validity is exactly `1 ≤ ord ≤ getDaysOfMonth` -/
theorem valid_ord {x : Date} (h : x.Valid) :
    1 ≤ ord x.y x.m x.d ∧ ord x.y x.m x.d ≤ getDaysOfMonth x.y x.m := by
  obtain ⟨h1, h2, h3, h4, h5⟩ := h
  rw [getDaysOfMonth_eq _ _ h1 h2]
  unfold ord
  by_cases hy : x.y = 1582 ∧ x.m = 10
  · have : lastDay x.y x.m = 31 := by rw [hy.1, hy.2]; decide
    simp only [hy, true_and] at *
    split_ifs <;> omega
  · have : ¬ (x.y = 1582 ∧ x.m = 10 ∧ x.d > 4) := by tauto
    simp only [hy, this, if_false]
    omega

/-- inverse of `ord` -/
def unord (y m o : ℤ) : ℤ := if y = 1582 ∧ m = 10 ∧ o > 4 then o + 10 else o

theorem unord_valid {y m o : ℤ} (h1 : 1 ≤ m) (h2 : m ≤ 12) (h3 : 1 ≤ o) (h4 : o ≤ getDaysOfMonth y m) :
    (⟨y, m, unord y m o⟩ : Date).Valid := by
  rw [getDaysOfMonth_eq _ _ h1 h2] at h4
  refine ⟨h1, h2, ?_⟩
  simp only
  unfold unord
  by_cases hy : y = 1582 ∧ m = 10
  · have : lastDay y m = 31 := by rw [hy.1, hy.2]; decide
    rw [if_pos hy] at h4
    split_ifs <;> omega
  · rw [if_neg hy] at h4
    have : ¬ (y = 1582 ∧ m = 10 ∧ o > 4) := by tauto
    rw [if_neg this]
    refine ⟨h3, h4, by tauto⟩

theorem ord_unord {y m o : ℤ} : ord y m (unord y m o) = o := by
  unfold ord unord; split_ifs <;> omega

theorem unord_ord {x : Date} (h : x.Valid) : unord x.y x.m (ord x.y x.m x.d) = x.d := by
  obtain ⟨_, _, _, _, h5⟩ := h
  unfold ord unord; split_ifs <;> omega

/-- first day number of the `k`-th month, `k = 12 y + (m - 1)` -/
def MS (k : ℤ) : ℤ := monthStart (k / 12) (k % 12 + 1)

theorem MS_eq {y m : ℤ} (h1 : 1 ≤ m) (h2 : m ≤ 12) : MS (12 * y + (m - 1)) = monthStart y m := by
  unfold MS
  rw [show (12 * y + (m - 1)) / 12 = y by omega, show (12 * y + (m - 1)) % 12 + 1 = m by omega]

theorem MS_succ (k : ℤ) : MS (k + 1) = MS k + getDaysOfMonth (k / 12) (k % 12 + 1) := by
  unfold MS
  by_cases h : k % 12 = 11
  · rw [show (k + 1) / 12 = k / 12 + 1 by omega, show (k + 1) % 12 = 0 by omega, h]
    exact monthStart_year _
  · rw [show (k + 1) / 12 = k / 12 by omega, show (k + 1) % 12 = k % 12 + 1 by omega]
    exact monthStart_succ _ _ (by omega) (by omega)

theorem MS_lt_add (k : ℤ) (n : ℕ) :
    MS k + getDaysOfMonth (k / 12) (k % 12 + 1) ≤ MS (k + 1 + n) := by
  induction n with
  | zero => rw [← MS_succ]; simp
  | succ n ih =>
    have := MS_succ (k + 1 + n)
    have h2 := Solar.getDaysOfMonth_pos ((k + 1 + n) / 12) ((k + 1 + n) % 12 + 1)
    push_cast
    rw [← add_assoc, this]
    omega

/-- chronological comparison of labels -/
def DateLt (a b : Date) : Prop :=
  a.y < b.y ∨ (a.y = b.y ∧ (a.m < b.m ∨ (a.m = b.m ∧ a.d < b.d)))

theorem DateLt_trichotomy (a b : Date) : DateLt a b ∨ a = b ∨ DateLt b a := by
  unfold DateLt
  cases a; cases b
  simp only [Date.mk.injEq]
  omega

abbrev dn (x : Date) : ℤ := dayNo x.y x.m x.d

theorem dayNo_lt {a b : Date} (ha : a.Valid) (hb : b.Valid) (h : DateLt a b) : dn a < dn b := by
  have oa := valid_ord ha
  have ob := valid_ord hb
  have a1 := ha.1; have a2 := ha.2.1; have b1 := hb.1; have b2 := hb.2.1
  unfold dn dayNo
  by_cases hk : a.y = b.y ∧ a.m = b.m
  · have hd : a.d < b.d := by unfold DateLt at h; omega
    rw [← hk.1, ← hk.2]
    rw [← hk.1, ← hk.2] at ob
    have a5 := ha.2.2.2.2; have b5 := hb.2.2.2.2
    unfold ord at *
    split_ifs at * <;> omega
  · have hlt : 12 * a.y + (a.m - 1) < 12 * b.y + (b.m - 1) := by unfold DateLt at h; omega
    rw [← MS_eq a1 a2, ← MS_eq b1 b2]
    have := MS_lt_add (12 * a.y + (a.m - 1)) (12 * b.y + (b.m - 1) - (12 * a.y + (a.m - 1)) - 1).toNat
    rw [show (12 * a.y + (a.m - 1)) / 12 = a.y by omega,
      show (12 * a.y + (a.m - 1)) % 12 + 1 = a.m by omega,
      show 12 * a.y + (a.m - 1) + 1 + ((12 * b.y + (b.m - 1) - (12 * a.y + (a.m - 1)) - 1).toNat : ℤ)
        = 12 * b.y + (b.m - 1) by omega] at this
    omega

theorem dayNo_inj {a b : Date} (ha : a.Valid) (hb : b.Valid) (h : dn a = dn b) : a = b := by
  rcases DateLt_trichotomy a b with c | c | c
  · have := dayNo_lt ha hb c; omega
  · exact c
  · have := dayNo_lt hb ha c; omega

theorem dayNo_lt_iff {a b : Date} (ha : a.Valid) (hb : b.Valid) : dn a < dn b ↔ DateLt a b := by
  refine ⟨fun h => ?_, dayNo_lt ha hb⟩
  rcases DateLt_trichotomy a b with c | c | c
  · exact c
  · subst c; omega
  · have := dayNo_lt hb ha c; omega

/-- `tomorrow` stays in the calendar and advances the day number by one -/
theorem tomorrow_spec {x : Date} (h : x.Valid) : (tomorrow x).Valid ∧ dn (tomorrow x) = dn x + 1 := by
  have ho := valid_ord h
  have hlb := lastDay_bounds x.y x.m
  have hg := getDaysOfMonth_eq x.y x.m h.1 h.2.1
  obtain ⟨h1, h2, h3, h4, h5⟩ := h
  unfold tomorrow
  split_ifs with c1 c2 c3
  · subst c1; decide
  · refine ⟨⟨h1, h2, ?_, ?_, ?_⟩, ?_⟩
    · simp only; omega
    · simp only; omega
    · simp only
      intro hc
      apply c1
      cases x
      simp only at *
      simp only [Date.mk.injEq]
      omega
    · unfold dn dayNo ord
      simp only
      have : ¬ (x.y = 1582 ∧ x.m = 10 ∧ x.d = 4) := by
        intro hc; apply c1; cases x; simp_all
      split_ifs <;> omega
  · have hl : x.d = lastDay x.y x.m := by omega
    refine ⟨⟨?_, ?_, ?_, ?_, ?_⟩, ?_⟩
    · simp only; omega
    · simp only; omega
    · simp only; omega
    · simp only; have := lastDay_bounds x.y (x.m + 1); omega
    · simp only; omega
    · unfold dn dayNo
      simp only
      rw [monthStart_succ _ _ h1 (by omega), hg]
      unfold ord
      have : x.y = 1582 ∧ x.m = 10 → lastDay x.y x.m = 31 := by
        rintro ⟨a, b⟩; rw [a, b]; decide
      split_ifs <;> omega
  · have hm : x.m = 12 := by omega
    refine ⟨⟨?_, ?_, ?_, ?_, ?_⟩, ?_⟩
    · simp only; omega
    · simp only; omega
    · simp only; omega
    · simp only; have := lastDay_bounds (x.y + 1) 1; omega
    · simp only; omega
    · unfold dn dayNo
      simp only
      rw [monthStart_year, ← hm, hg]
      unfold ord
      split_ifs <;> omega

theorem iterate_tomorrow {x : Date} (h : x.Valid) (n : ℕ) :
    (tomorrow^[n] x).Valid ∧ dn (tomorrow^[n] x) = dn x + n := by
  induction n with
  | zero => exact ⟨h, by simp⟩
  | succ n ih =>
    rw [Function.iterate_succ_apply']
    have := tomorrow_spec ih.1
    refine ⟨this.1, ?_⟩
    rw [this.2, ih.2]; push_cast; ring

/-- on existing dates, `DaysAfter n` is day-number difference `n` -/
theorem daysAfter_iff {a b : Date} (ha : a.Valid) (hb : b.Valid) (n : ℤ) :
    DaysAfter n a b ↔ dn b = dn a + n := by
  unfold DaysAfter
  constructor
  · rintro (⟨h0, h⟩ | ⟨h0, h⟩)
    · rw [← h, (iterate_tomorrow ha _).2]; omega
    · rw [← h, (iterate_tomorrow hb _).2]; omega
  · intro h
    rcases le_total 0 n with h0 | h0
    · left
      refine ⟨h0, ?_⟩
      have := iterate_tomorrow ha n.toNat
      exact dayNo_inj this.1 hb (by rw [this.2]; omega)
    · right
      refine ⟨h0, ?_⟩
      have := iterate_tomorrow hb (-n).toNat
      exact dayNo_inj this.1 ha (by rw [this.2]; omega)

end Cal
