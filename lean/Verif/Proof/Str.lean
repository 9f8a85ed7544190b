import Verif.Proof.SolarBasic
import Mathlib.Tactic.IntervalCases

/-! Fixed-width decimal strings compare like numbers. -/

namespace Str

/-- the last `w` decimal digits -/
def pad : ℕ → ℕ → PyStr
  | 0, _ => []
  | w + 1, n => pad w (n / 10) ++ [(n % 10).digitChar]

theorem pad_length (w n : ℕ) : (pad w n).length = w := by
  induction w generalizing n with
  | zero => rfl
  | succ w ih => simp [pad, ih]

theorem pad_zero (w : ℕ) : pad w 0 = List.replicate w '0' := by
  induction w with
  | zero => rfl
  | succ w ih =>
    show pad w (0 / 10) ++ [Nat.digitChar (0 % 10)] = _
    rw [Nat.zero_div, ih, List.replicate_succ']
    rfl

theorem padZero_eq (w n : ℕ) (h : n < 10 ^ (w + 1)) :
    padZero (w + 1) (Nat.toDigits 10 n) = pad (w + 1) n := by
  induction w generalizing n with
  | zero =>
    have hn : n < 10 := by simpa using h
    rw [Nat.toDigits_of_lt_base hn]
    simp [padZero, pad, Nat.mod_eq_of_lt hn]
  | succ w ih =>
    by_cases hn : n < 10
    · rw [Nat.toDigits_of_lt_base hn]
      show padZero (w + 1 + 1) _ = pad (w + 1) (n / 10) ++ [(n % 10).digitChar]
      rw [Nat.div_eq_of_lt hn, Nat.mod_eq_of_lt hn, pad_zero]
      rfl
    · have hn' : 10 ≤ n := by omega
      rw [Nat.toDigits_of_base_le (by norm_num) hn']
      show _ = pad (w + 1) (n / 10) ++ [(n % 10).digitChar]
      rw [← ih (n / 10) (by rw [pow_succ] at h; omega)]
      unfold padZero
      rw [List.length_append, List.length_singleton, Nat.add_sub_add_right, List.append_assoc]

theorem fmtD_eq (w : ℕ) (n : ℤ) (h0 : 0 ≤ n) (h : n < 10 ^ (w + 1)) :
    fmtD (w + 1) n = pad (w + 1) n.toNat := by
  unfold fmtD
  rw [if_neg (by omega), show n.natAbs = n.toNat by omega]
  apply padZero_eq
  have : ((n.toNat : ℕ) : ℤ) < ((10 ^ (w + 1) : ℕ) : ℤ) := by push_cast; rw [Int.toNat_of_nonneg h0]; exact h
  exact_mod_cast this

theorem strLt_self (a : PyStr) : strLt a a = false := by
  induction a with
  | nil => rfl
  | cons a as ih => simp [strLt, ih]

theorem strLt_append {a c b d : PyStr} (h : a.length = c.length) :
    strLt (a ++ b) (c ++ d) = if a = c then strLt b d else strLt a c := by
  induction a generalizing c with
  | nil =>
    have : c = [] := by simpa using h.symm
    subst this; simp
  | cons x xs ih =>
    obtain ⟨y, ys, rfl⟩ : ∃ y ys, c = y :: ys := by
      cases c with
      | nil => simp at h
      | cons y ys => exact ⟨y, ys, rfl⟩
    have hl : xs.length = ys.length := by simpa using h
    simp only [List.cons_append, strLt, ih hl, List.cons.injEq]
    by_cases hxy : x = y
    · subst hxy; simp
    · have hne : x.toNat ≠ y.toNat := fun e => hxy (Char.toNat_inj.1 e)
      simp only [hxy, false_and, if_false]
      split_ifs with h1 h2 h3 <;> try rfl
      all_goals omega

theorem append_inj_iff' {a c b d : PyStr} (h : a.length = c.length) :
    a ++ b = c ++ d ↔ a = c ∧ b = d :=
  ⟨fun e => List.append_inj e h, by rintro ⟨rfl, rfl⟩; rfl⟩

theorem digitChar_lt {a b : ℕ} (ha : a < 10) (hb : b < 10) :
    strLt [a.digitChar] [b.digitChar] = decide (a < b) ∧ (a.digitChar = b.digitChar ↔ a = b) := by
  interval_cases a <;> interval_cases b <;> decide

theorem pad_cmp (w : ℕ) (a b : ℕ) (ha : a < 10 ^ w) (hb : b < 10 ^ w) :
    strLt (pad w a) (pad w b) = decide (a < b) ∧ (pad w a = pad w b ↔ a = b) := by
  induction w generalizing a b with
  | zero =>
    have : a = 0 := by simpa using ha
    have : b = 0 := by simpa using hb
    subst_vars
    simp [pad, strLt]
  | succ w ih =>
    rw [pow_succ] at ha hb
    obtain ⟨i1, i2⟩ := ih (a / 10) (b / 10) (by omega) (by omega)
    obtain ⟨j1, j2⟩ := digitChar_lt (Nat.mod_lt a (by norm_num : 0 < 10)) (Nat.mod_lt b (by norm_num : 0 < 10))
    have hl : (pad w (a / 10)).length = (pad w (b / 10)).length := by rw [pad_length, pad_length]
    constructor
    · show strLt (pad w (a / 10) ++ _) (pad w (b / 10) ++ _) = _
      rw [strLt_append hl, i1, j1]
      by_cases hq : a / 10 = b / 10
      · rw [if_pos (i2.2 hq)]
        rw [decide_eq_decide]; omega
      · rw [if_neg (fun e => hq (i2.1 e)), decide_eq_decide]; omega
    · show (pad w (a / 10) ++ _ = pad w (b / 10) ++ _) ↔ _
      rw [append_inj_iff' hl, i2, List.cons.injEq, j2]
      constructor
      · rintro ⟨h1, h2, _⟩; omega
      · rintro rfl; exact ⟨rfl, rfl, rfl⟩

theorem fmtD_cmp (w : ℕ) {a b : ℤ} (a0 : 0 ≤ a) (a1 : a < 10 ^ (w + 1)) (b0 : 0 ≤ b) (b1 : b < 10 ^ (w + 1)) :
    (fmtD (w + 1) a).length = (fmtD (w + 1) b).length ∧
    strLt (fmtD (w + 1) a) (fmtD (w + 1) b) = decide (a < b) ∧
    (fmtD (w + 1) a = fmtD (w + 1) b ↔ a = b) := by
  rw [fmtD_eq w a a0 a1, fmtD_eq w b b0 b1, pad_length, pad_length]
  have ha : a.toNat < 10 ^ (w + 1) := by
    have : ((a.toNat : ℕ) : ℤ) < ((10 ^ (w + 1) : ℕ) : ℤ) := by push_cast; rw [Int.toNat_of_nonneg a0]; exact a1
    exact_mod_cast this
  have hb : b.toNat < 10 ^ (w + 1) := by
    have : ((b.toNat : ℕ) : ℤ) < ((10 ^ (w + 1) : ℕ) : ℤ) := by push_cast; rw [Int.toNat_of_nonneg b0]; exact b1
    exact_mod_cast this
  obtain ⟨h1, h2⟩ := pad_cmp (w + 1) a.toNat b.toNat ha hb
  refine ⟨rfl, ?_, ?_⟩
  · rw [h1, decide_eq_decide]; omega
  · rw [h2]; omega

open Spec

/-- bounds that make the strings fixed width -/
def Four (s : Solar) : Prop := 0 ≤ s.year ∧ s.year ≤ 9999

instance (s : Solar) : Decidable (Four s) := by unfold Four; infer_instance

theorem valid_field_bounds {s : Solar} (h : s.Valid) :
    1 ≤ s.month ∧ s.month ≤ 12 ∧ 1 ≤ s.day ∧ s.day ≤ 31 := by
  have hlb := Cal.lastDay_bounds s.year s.month
  obtain ⟨⟨h1, h2, h3, h4, _⟩, _⟩ := h
  simp only [Solar.date] at *
  omega

theorem append_lt {a c b d : PyStr} {p q p' q' : Prop} [Decidable p] [Decidable q] [Decidable p'] [Decidable q']
    (h : a.length = c.length ∧ strLt a c = decide p ∧ (a = c ↔ q))
    (h' : b.length = d.length ∧ strLt b d = decide p' ∧ (b = d ↔ q')) :
    (a ++ b).length = (c ++ d).length ∧
    strLt (a ++ b) (c ++ d) = decide (if q then p' else p) ∧ (a ++ b = c ++ d ↔ q ∧ q') := by
  obtain ⟨h1, h2, h3⟩ := h
  obtain ⟨g1, g2, g3⟩ := h'
  refine ⟨by simp [h1, g1], ?_, ?_⟩
  · rw [strLt_append h1, h2, g2]
    by_cases hq : q
    · simp [hq, h3.2 hq]
    · have : ¬ a = c := fun e => hq (h3.1 e)
      simp [hq, this]
  · rw [append_inj_iff' h1, h3, g3]

theorem cons_lt {b d : PyStr} {p' q' : Prop} [Decidable p'] (x : Char)
    (h' : b.length = d.length ∧ strLt b d = decide p' ∧ (b = d ↔ q')) :
    (x :: b).length = (x :: d).length ∧ strLt (x :: b) (x :: d) = decide p' ∧ (x :: b = x :: d ↔ q') := by
  obtain ⟨h1, h2, h3⟩ := h'
  refine ⟨by simp [h1], ?_, by simp [h3]⟩
  simp [strLt, h2]

theorem toYmd_cmp {a b : Solar} (ha : a.Valid) (hb : b.Valid) (fa : Four a) (fb : Four b) :
    a.toYmd.length = b.toYmd.length ∧
    strLt a.toYmd b.toYmd = decide (Cal.dn a.date < Cal.dn b.date) ∧
    (a.toYmd = b.toYmd ↔ a.date = b.date) := by
  obtain ⟨m1, m2, d1, d2⟩ := valid_field_bounds ha
  obtain ⟨m3, m4, d3, d4⟩ := valid_field_bounds hb
  obtain ⟨y1, y2⟩ := fa
  obtain ⟨y3, y4⟩ := fb
  have Y := fmtD_cmp 3 (a := a.year) (b := b.year) y1 (by norm_num; omega) y3 (by norm_num; omega)
  have M := fmtD_cmp 1 (a := a.month) (b := b.month) (by omega) (by norm_num; omega) (by omega) (by norm_num; omega)
  have D := fmtD_cmp 1 (a := a.day) (b := b.day) (by omega) (by norm_num; omega) (by omega) (by norm_num; omega)
  have key := append_lt (append_lt Y (cons_lt '-' M)) (cons_lt '-' D)
  obtain ⟨k1, k2, k3⟩ := key
  refine ⟨by simpa [Solar.toYmd] using k1, ?_, ?_⟩
  · have e : ∀ s : Solar, s.toYmd = fmtD 4 s.year ++ '-' :: fmtD 2 s.month ++ '-' :: fmtD 2 s.day := by
      intro s; simp [Solar.toYmd]
    rw [e, e, k2, decide_eq_decide, Cal.dayNo_lt_iff ha.1 hb.1]
    unfold Cal.DateLt
    simp only [Solar.date]
    split_ifs <;> omega
  · have e : ∀ s : Solar, s.toYmd = fmtD 4 s.year ++ '-' :: fmtD 2 s.month ++ '-' :: fmtD 2 s.day := by
      intro s; simp [Solar.toYmd]
    rw [e, e, k3]
    simp only [Solar.date, Date.mk.injEq]
    tauto

theorem toYmdHms_cmp {a b : Solar} (ha : a.Valid) (hb : b.Valid) (fa : Four a) (fb : Four b) :
    strLt a.toYmdHms b.toYmdHms = decide (Cal.secNo a < Cal.secNo b) ∧
    (a.toYmdHms = b.toYmdHms ↔ a = b) := by
  have Y := toYmd_cmp ha hb fa fb
  obtain ⟨c1, c2, c3, c4, c5, c6⟩ := ha.2
  obtain ⟨e1, e2, e3, e4, e5, e6⟩ := hb.2
  have H := fmtD_cmp 1 (a := a.hour) (b := b.hour) (by omega) (by norm_num; omega) (by omega) (by norm_num; omega)
  have M := fmtD_cmp 1 (a := a.minute) (b := b.minute) (by omega) (by norm_num; omega) (by omega) (by norm_num; omega)
  have S := fmtD_cmp 1 (a := a.second) (b := b.second) (by omega) (by norm_num; omega) (by omega) (by norm_num; omega)
  have key := append_lt (append_lt (append_lt Y (cons_lt ' ' H)) (cons_lt ':' M)) (cons_lt ':' S)
  obtain ⟨k1, k2, k3⟩ := key
  have e : ∀ s : Solar, s.toYmdHms = s.toYmd ++ ' ' :: fmtD 2 s.hour ++ ':' :: fmtD 2 s.minute ++ ':' :: fmtD 2 s.second := by
    intro s; simp [Solar.toYmdHms]
  constructor
  · rw [e, e, k2, decide_eq_decide]
    unfold Cal.secNo
    by_cases hd : a.date = b.date
    · rw [hd]; simp only [and_true, true_and]
      split_ifs <;> omega
    · have hne : Cal.dn a.date ≠ Cal.dn b.date := fun h => hd (Cal.dayNo_inj ha.1 hb.1 h)
      simp only [hd, false_and, if_false]
      omega
  · rw [e, e, k3]
    constructor
    · rintro ⟨⟨⟨h1, h2⟩, h3⟩, h4⟩
      exact Cal.ext_of h1 ⟨h2.symm, h3.symm, h4.symm⟩
    · rintro rfl; exact ⟨⟨⟨rfl, rfl⟩, rfl⟩, rfl⟩

theorem ymd_lt {a b : Solar} (ha : a.Valid) (hb : b.Valid) (fa : Four a) (fb : Four b) :
    strLt a.toYmd b.toYmd = decide (Cal.dn a.date < Cal.dn b.date) := (toYmd_cmp ha hb fa fb).2.1

theorem ymd_le {a b : Solar} (ha : a.Valid) (hb : b.Valid) (fa : Four a) (fb : Four b) :
    strLe a.toYmd b.toYmd = decide (Cal.dn a.date ≤ Cal.dn b.date) := by
  unfold strLe
  rw [ymd_lt hb ha fb fa, ← decide_not, decide_eq_decide, not_lt]

theorem hms_lt {a b : Solar} (ha : a.Valid) (hb : b.Valid) (fa : Four a) (fb : Four b) :
    strLt a.toYmdHms b.toYmdHms = decide (Cal.secNo a < Cal.secNo b) := (toYmdHms_cmp ha hb fa fb).1

theorem hms_le {a b : Solar} (ha : a.Valid) (hb : b.Valid) (fa : Four a) (fb : Four b) :
    strLe a.toYmdHms b.toYmdHms = decide (Cal.secNo a ≤ Cal.secNo b) := by
  unfold strLe
  rw [hms_lt hb ha fb fa, ← decide_not, decide_eq_decide, not_lt]

end Str
