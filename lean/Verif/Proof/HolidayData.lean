import Verif.Model.HolidayData
import Verif.Proof.WorkDay
import Mathlib.Data.Nat.ModEq

/-! # The built-in holiday records: digits and checks -/

open Spec HolidayUtil Hol

namespace HData

/-- the last digit, as a character -/
def ch (n : ℕ) : Char := Char.ofNat (48 + n % 10)

theorem ch_toNat (n : ℕ) : (ch n).toNat = 48 + n % 10 := by
  have key : ∀ x < 10, (Char.ofNat (48 + x)).toNat = 48 + x := by decide
  exact key _ (Nat.mod_lt _ (by norm_num))

theorem ch_dash (n : ℕ) : ch n ≠ '-' := by
  intro h
  have e := ch_toNat n
  rw [h] at e
  have : ('-' : Char).toNat = 45 := by decide
  omega

theorem digits_succ (w n : ℕ) : digits (w + 1) n = digits w (n / 10) ++ [ch n] := by
  unfold digits
  rw [List.range_succ, List.map_append, List.map_singleton]
  congr 1
  · apply List.map_congr_left
    intro i hi
    rw [List.mem_range] at hi
    rw [Nat.div_div_eq_div_mul, ← pow_succ', show w - 1 - i + 1 = w + 1 - 1 - i by omega]
  · simp [ch]

theorem digits_length (w n : ℕ) : (digits w n).length = w := by simp [digits]

theorem digits_split (a b n : ℕ) : digits (a + b) n = digits a (n / 10 ^ b) ++ digits b n := by
  induction b generalizing n with
  | zero => simp [digits]
  | succ b ih =>
    rw [← add_assoc, digits_succ, ih, digits_succ b, Nat.div_div_eq_div_mul, ← pow_succ', List.append_assoc]

theorem digits_head (w n : ℕ) : digits (w + 1) n = ch (n / 10 ^ w) :: digits w n := by
  rw [add_comm, digits_split, show digits 1 (n / 10 ^ w) = [ch (n / 10 ^ w)] from by simp [digits, ch]]
  rfl

theorem digits_one (n : ℕ) : digits 1 n = [ch n] := by simp [digits, ch]

theorem digits_dash (w n : ℕ) : '-' ∉ digits w n := by
  induction w generalizing n with
  | zero => simp [digits]
  | succ w ih =>
    rw [digits_succ, List.mem_append, List.mem_singleton]
    rintro (h | h)
    · exact ih _ h
    · exact ch_dash _ h.symm

/-- the number written by digits -/
def val (l : PyStr) : ℕ := l.foldl (fun a c => a * 10 + (c.toNat - 48)) 0

theorem val_concat (l : PyStr) (c : Char) : val (l ++ [c]) = val l * 10 + (c.toNat - 48) := by
  unfold val; rw [List.foldl_append]; rfl

theorem val_append (l r : PyStr) : val (l ++ r) = val l * 10 ^ r.length + val r := by
  induction r using List.reverseRecOn with
  | nil => simp [val]
  | append_singleton r c ih =>
    rw [← List.append_assoc, val_concat, ih, val_concat, List.length_append, List.length_singleton, pow_succ]
    ring

theorem val_digits (w n : ℕ) : val (digits w n) = n % 10 ^ w := by
  induction w generalizing n with
  | zero => simp [digits, val, Nat.mod_one]
  | succ w ih =>
    rw [digits_succ, val_concat, ih, ch_toNat, pow_succ', Nat.mod_mul]
    omega

theorem digits_inj {w a b : ℕ} (ha : a < 10 ^ w) (hb : b < 10 ^ w) (h : digits w a = digits w b) : a = b := by
  have := congrArg val h
  rwa [val_digits, val_digits, Nat.mod_eq_of_lt ha, Nat.mod_eq_of_lt hb] at this

theorem digits_mod (w n : ℕ) : digits w n = digits w (n % 10 ^ w) := by
  induction w generalizing n with
  | zero => rfl
  | succ w ih =>
    rw [digits_succ, digits_succ, ih (n / 10), ih (n % 10 ^ (w + 1) / 10)]
    congr 2
    · rw [pow_succ', Nat.mod_mul_right_div_self, Nat.mod_mod]
    · unfold ch; rw [pow_succ', Nat.mod_mul_right_mod]

theorem strLt_digits (w a b : ℕ) : strLt (digits w a) (digits w b) = decide (a % 10 ^ w < b % 10 ^ w) := by
  induction w with
  | zero => simp [digits, strLt, Nat.mod_one]
  | succ w ih =>
    rw [digits_head, digits_head]
    unfold strLt
    rw [ch_toNat, ch_toNat, ih, pow_succ, Nat.mod_mul, Nat.mod_mul]
    have p : 0 < 10 ^ w := by positivity
    have ra := Nat.mod_lt a p
    have rb := Nat.mod_lt b p
    generalize a / 10 ^ w % 10 = x
    generalize b / 10 ^ w % 10 = y
    generalize a % 10 ^ w = u at *
    generalize b % 10 ^ w = v at *
    generalize 10 ^ w = P at *
    by_cases c : x < y
    · rw [if_pos (by omega), eq_comm, decide_eq_true_iff]
      have := Nat.mul_le_mul_left P (show x + 1 ≤ y by omega)
      rw [Nat.mul_add] at this
      omega
    · rw [if_neg (by omega)]
      by_cases c' : y < x
      · rw [if_pos (by omega), eq_comm, decide_eq_false_iff_not]
        have := Nat.mul_le_mul_left P (show y + 1 ≤ x by omega)
        rw [Nat.mul_add] at this
        omega
      · obtain rfl : x = y := by omega
        rw [if_neg (by omega)]
        congr 1
        exact propext (by constructor <;> intro h <;> omega)

theorem ymd8_digits {y m d : ℤ} (y0 : 0 ≤ y) (y1 : y ≤ 9999) (m0 : 0 ≤ m) (m1 : m ≤ 99) (d0 : 0 ≤ d) (d1 : d ≤ 99) :
    ymd8 y m d = digits 8 (y * 10000 + m * 100 + d).toNat := by
  unfold ymd8 digitCh digits
  simp only [show List.range 8 = [0, 1, 2, 3, 4, 5, 6, 7] from rfl, List.map_cons, List.map_nil, List.cons.injEq, and_true]
  refine ⟨?_, ?_, ?_, ?_, ?_, ?_, ?_, ?_⟩ <;> (congr 2; norm_num; try omega)

/-- a piece of 18 digits as a record -/
def recOf (n : ℕ) : HRec := ⟨digits 8 (n / 10 ^ 10), ch (n / 10 ^ 9), ch (n / 10 ^ 8), digits 8 n⟩

/-- the built-in records -/
def builtin : List HRec := RECORDS.map recOf

theorem recOf_text (n : ℕ) : (recOf n).text = digits 18 n := by
  unfold recOf HRec.text
  rw [show (18 : ℕ) = 8 + 1 + 1 + 8 from rfl, digits_split, digits_split, digits_split, List.append_assoc, List.append_assoc]
  simp only [Nat.div_div_eq_div_mul, digits_one, ← pow_add]
  rfl

theorem data_text : DATA = tableText builtin := by
  unfold DATA tableText builtin
  rw [List.map_map]
  congr 2
  funext n
  exact (recOf_text n).symm

/-- the day of a record -/
def day (n : ℕ) : Date := ⟨(n / 100000000000000 : ℕ), (n / 1000000000000 % 100 : ℕ), (n / 10000000000 % 100 : ℕ)⟩
/-- the day of the festival of a record -/
def target (n : ℕ) : Date := ⟨(n / 10000 % 10000 : ℕ), (n / 100 % 100 : ℕ), (n % 100 : ℕ)⟩

theorem day_key {n : ℕ} (h : n < 10 ^ 18) : digits 8 (n / 10 ^ 10) = ymd8 (day n).y (day n).m (day n).d := by
  unfold day
  dsimp only
  rw [ymd8_digits (by omega) (by omega) (by omega) (by omega) (by omega) (by omega)]
  congr 1
  omega

theorem target_key (n : ℕ) : digits 8 n = ymd8 (target n).y (target n).m (target n).d := by
  unfold target
  dsimp only
  rw [ymd8_digits (by omega) (by omega) (by omega) (by omega) (by omega) (by omega), digits_mod]
  congr 1
  omega

/-! ## Checks of the whole table -/

/-- the day number of a date of 2001-2099 -/
def dayNum (y m d : ℕ) : ℕ :=
  bif Nat.ble m 2 then Nat.div (1461 * (y + 4715)) 4 + Nat.div (306001 * (m + 13)) 10000 + d
  else Nat.div (1461 * (y + 4716)) 4 + Nat.div (306001 * (m + 1)) 10000 + d

/-- a date of 2001-2099 exists -/
def dateOk (y m d : ℕ) : Bool :=
  Nat.ble 2001 y && Nat.ble y 2026 && Nat.ble 1 m && Nat.ble m 12 && Nat.ble 1 d &&
  Nat.ble d (bif Nat.beq m 2 then bif Nat.beq (Nat.mod y 4) 0 then 29 else 28
    else bif Nat.beq m 4 || Nat.beq m 6 || Nat.beq m 9 || Nat.beq m 11 then 30 else 31)

/-- the check of the parts of a record -/
def goodP (k f d t y m e y' m' e' : ℕ) : Bool :=
  Nat.blt k 9 && Nat.blt f 2 && dateOk y m e && dateOk y' m' e' &&
  Nat.ble (dayNum y m e) (dayNum y' m' e' + 11) && Nat.ble (dayNum y' m' e') (dayNum y m e + 8) &&
  (Nat.beq f 1 || Nat.ble 5 (Nat.mod (dayNum y m e + 3) 7) || Nat.beq d 20120502 || Nat.beq d 20121008) &&
  (match k with
  | 0 => Nat.beq m' 1 && Nat.beq e' 1
  | 2 => Nat.beq m' 4 && (Nat.beq e' 4 || Nat.beq e' 5)
  | 3 => Nat.beq m' 5 && Nat.beq e' 1
  | 6 => (Nat.beq m' 10 && Nat.beq e' 1) || Nat.beq t 20141004 || Nat.beq t 20151004
  | 7 => Nat.beq m' 10 && Nat.beq e' 1
  | 8 => Nat.beq t 20150903
  | _ => true)

/-- the check of one record -/
def good (n : ℕ) : Bool :=
  Nat.blt n 1000000000000000000 &&
  goodP (Nat.mod (Nat.div n 1000000000) 10) (Nat.mod (Nat.div n 100000000) 10) (Nat.div n 10000000000) (Nat.mod n 100000000)
    (Nat.div n 100000000000000) (Nat.mod (Nat.div n 1000000000000) 100) (Nat.mod (Nat.div n 10000000000) 100)
    (Nat.mod (Nat.div n 10000) 10000) (Nat.mod (Nat.div n 100) 100) (Nat.mod n 100)

theorem all_good : RECORDS.all good = true := by decide +kernel

/-- the day number of a record -/
def num (n : ℕ) : ℕ := dayNum (Nat.div n 100000000000000) (Nat.mod (Nat.div n 1000000000000) 100) (Nat.mod (Nat.div n 10000000000) 100)

/-- days increase -/
def incr : List ℕ → Bool
  | a :: b :: l => Nat.blt (Nat.div a 10000000000) (Nat.div b 10000000000) && Nat.blt (num a) (num b) && incr (b :: l)
  | _ => true

theorem all_incr : incr RECORDS = true := by decide +kernel

/-- the festivals of the National Day weeks 2014, 2015, 2017 in one -/
def week (t : ℕ) : ℕ := bif Nat.beq t 20141004 || Nat.beq t 20151004 || Nat.beq t 20171004 then Nat.sub t 3 else t

/-- the festivals increase -/
def grow : List ℕ → Bool
  | a :: b :: l => Nat.ble (week (Nat.mod a 100000000)) (week (Nat.mod b 100000000)) && grow (b :: l)
  | _ => true

theorem all_grow : grow RECORDS = true := by decide +kernel

/-- the records of a festival -/
def ofTarget (t : ℕ) : List ℕ := RECORDS.filter (fun n => Nat.beq (Nat.mod n 100000000) t)

theorem single4 : ofTarget 20141004 = [201410046120141004] ∧ ofTarget 20151004 = [201510046120151004] ∧
    ofTarget 20171004 = [201710045120171004] := by decide +kernel

/-- the 18 digits from the border `q = 10 ^ (18 - o)`, `p = 10 ^ o` on of two neighbouring records -/
def window (a b q p : ℕ) : ℕ := Nat.add (Nat.mul (Nat.mod a q) p) (Nat.div b q)

/-- the powers -/
def POWERS : List (ℕ × ℕ) := [
  (100000000000000000, 10), (10000000000000000, 100), (1000000000000000, 1000), (100000000000000, 10000), (10000000000000, 100000),
  (1000000000000, 1000000), (100000000000, 10000000), (10000000000, 100000000), (1000000000, 1000000000), (100000000, 10000000000),
  (10000000, 100000000000), (1000000, 1000000000000), (100000, 10000000000000), (10000, 100000000000000), (1000, 1000000000000000),
  (100, 10000000000000000), (10, 100000000000000000)]

/-- no window across a border could be a record -/
def borders : List ℕ → Bool
  | a :: b :: l => POWERS.all (fun o => !(Nat.beq (Nat.div (window a b o.1 o.2) 10000000000000000) 20 && good (window a b o.1 o.2))) && borders (b :: l)
  | _ => true

theorem all_borders : borders RECORDS = true := by decide +kernel

/-- the day of the festival is among the given records as a day off -/
def among (t : ℕ) (l : List ℕ) : Bool := l.any (fun c => Nat.beq (Nat.div c 10000000000) t && Nat.beq (Nat.mod (Nat.div c 100000000) 10) 1)

/-- the festival day of every record is itself a day off of the table; `p` are the records before, `q` the festival found last -/
def festive (q : ℕ) (p : List ℕ) : List ℕ → Bool
  | a :: l => (Nat.beq (Nat.mod a 100000000) q || among (Nat.mod a 100000000) (a :: l.take 12) || among (Nat.mod a 100000000) (p.take 12)) &&
      festive (Nat.mod a 100000000) (a :: p) l
  | [] => true

theorem all_festive : festive 0 [] RECORDS = true := by decide +kernel

/-- a working day comes within `f` days, beginning with day `c`, where the records from `c` on are given -/
def soon : ℕ → ℕ → List ℕ → Bool
  | 0, _, _ => false
  | f + 1, c, [] => Nat.blt (Nat.mod (c + 3) 7) 5 || soon f (c + 1) []
  | f + 1, c, n :: l =>
    bif Nat.beq (num n) c
    then Nat.beq (Nat.mod (Nat.div n 100000000) 10) 0 || soon f (c + 1) l
    else Nat.blt (Nat.mod (c + 3) 7) 5 || soon f (c + 1) (n :: l)

/-- the number of days looked at from a record on: 9 from Mondays, 10 from Sundays, else 11 -/
def span (c : ℕ) : ℕ := bif Nat.beq (Nat.mod (c + 3) 7) 0 then 9 else bif Nat.beq (Nat.mod (c + 3) 7) 6 then 10 else 11

/-- from every record on a working day comes soon -/
def soons : List ℕ → Bool
  | n :: l => soon (span (num n)) (num n) (n :: l) && soons l
  | [] => true

theorem all_soons : soons RECORDS = true := by decide +kernel

/-! ## What the checks say -/

theorem dateOk_spec {y m d : ℕ} (h : dateOk y m d = true) : (⟨y, m, d⟩ : Date).Valid ∧ 2001 ≤ y ∧ y ≤ 2026 := by
  unfold dateOk at h
  simp only [Bool.and_eq_true, Nat.ble_eq] at h
  obtain ⟨⟨⟨⟨⟨h1, h2⟩, h3⟩, h4⟩, h5⟩, h6⟩ := h
  refine ⟨⟨by dsimp only; omega, by dsimp only; omega, by dsimp only; omega, ?_, by dsimp only; omega⟩, h1, h2⟩
  dsimp only
  unfold lastDay
  by_cases c : m = 2
  · subst c
    by_cases c' : y % 4 = 0
    · have : Nat.mod y 4 = 0 := c'
      rw [if_pos (by rfl), if_pos (show Leap y by unfold Leap; rw [if_neg (by omega)]; exact ⟨by omega, fun _ => by omega⟩)]
      simp [this] at h6
      omega
    · have : Nat.beq (Nat.mod y 4) 0 = false := by
        rw [Bool.eq_false_iff, ne_eq, Nat.beq_eq]; exact c'
      rw [if_pos (by rfl), if_neg (show ¬ Leap y by unfold Leap; rw [if_neg (by omega)]; omega)]
      simp [this] at h6
      omega
  · have c2 : Nat.beq m 2 = false := by rw [Bool.eq_false_iff, ne_eq, Nat.beq_eq]; exact c
    rw [if_neg (by omega)]
    rw [c2, cond_false] at h6
    by_cases c4 : m = 4 ∨ m = 6 ∨ m = 9 ∨ m = 11
    · rw [if_pos (by omega)]
      rw [show (Nat.beq m 4 || Nat.beq m 6 || Nat.beq m 9 || Nat.beq m 11) = true by simp only [Bool.or_eq_true, Nat.beq_eq]; omega, cond_true] at h6
      omega
    · rw [if_neg (by omega)]
      rw [show (Nat.beq m 4 || Nat.beq m 6 || Nat.beq m 9 || Nat.beq m 11) = false by
        rw [Bool.eq_false_iff]; simp only [ne_eq, Bool.or_eq_true, Nat.beq_eq]; omega, cond_false] at h6
      omega

theorem dayNum_spec {y m d : ℕ} (h : dateOk y m d = true) : (dayNum y m d : ℤ) = Cal.dn ⟨y, m, d⟩ + 1722594 := by
  obtain ⟨v, h1, h2⟩ := dateOk_spec h
  have e := JD.jdn_eq v
  obtain ⟨v1, v2, v3, v4, -⟩ := v
  dsimp only at v1 v2 v3 v4
  unfold JD.jdn JD.corr JD.my JD.mm at e
  dsimp only at e
  unfold dayNum
  have d1 : ∀ a, Nat.div a 4 = a / 4 := fun _ => rfl
  have d2 : ∀ a, Nat.div a 10000 = a / 10000 := fun _ => rfl
  rw [d1, d2, d1, d2]
  have q : (y : ℤ) / 100 = 20 ∧ ((y : ℤ) - 1) / 100 = 20 := by omega
  by_cases c : m ≤ 2
  · rw [Nat.ble_eq_true_of_le c, cond_true]
    rw [if_pos (by omega), if_pos (by omega), if_pos (by omega), q.2] at e
    have e1 : ((1461 * (y + 4715) / 4 : ℕ) : ℤ) = 1461 * ((y : ℤ) - 1 + 4716) / 4 := by rw [Int.natCast_ediv]; push_cast; ring_nf
    have e2 : ((306001 * (m + 13) / 10000 : ℕ) : ℤ) = 306001 * ((m : ℤ) + 12 + 1) / 10000 := by rw [Int.natCast_ediv]; push_cast; ring_nf
    push_cast [e1, e2]
    omega
  · rw [show Nat.ble m 2 = false by rw [Bool.eq_false_iff, ne_eq, Nat.ble_eq]; exact c, cond_false]
    rw [if_neg (by omega), if_neg (by omega), if_pos (by omega), q.1] at e
    have e1 : ((1461 * (y + 4716) / 4 : ℕ) : ℤ) = 1461 * ((y : ℤ) + 4716) / 4 := by rw [Int.natCast_ediv]; push_cast; ring_nf
    have e2 : ((306001 * (m + 1) / 10000 : ℕ) : ℤ) = 306001 * ((m : ℤ) + 1) / 10000 := by rw [Int.natCast_ediv]; push_cast; ring_nf
    push_cast [e1, e2]
    omega

/-- what is known of a record -/
structure Facts (n : ℕ) : Prop where
  lt : n < 10 ^ 18
  name : n / 10 ^ 9 % 10 < 9
  work : n / 10 ^ 8 % 10 < 2
  day : (day n).Valid
  target : (target n).Valid
  year : 2001 ≤ (HData.day n).y ∧ (HData.day n).y ≤ 2026
  year' : 2001 ≤ (HData.target n).y ∧ (HData.target n).y ≤ 2026
  near : Cal.dn (HData.day n) ≤ Cal.dn (HData.target n) + 11 ∧ Cal.dn (HData.target n) ≤ Cal.dn (HData.day n) + 8
  week : n / 10 ^ 8 % 10 = 1 ∨ IsWeekday 0 (HData.day n) ∨ IsWeekday 6 (HData.day n) ∨ n / 10 ^ 10 = 20120502 ∨ n / 10 ^ 10 = 20121008
  num : (num n : ℤ) = Cal.dn (HData.day n) + 1722594
  fixed : (n / 10 ^ 9 % 10 = 0 → n % 10000 = 101) ∧ (n / 10 ^ 9 % 10 = 2 → n % 10000 = 404 ∨ n % 10000 = 405) ∧
    (n / 10 ^ 9 % 10 = 3 → n % 10000 = 501) ∧ (n / 10 ^ 9 % 10 = 6 → n % 10000 = 1001 ∨ n % 10 ^ 8 = 20141004 ∨ n % 10 ^ 8 = 20151004) ∧
    (n / 10 ^ 9 % 10 = 7 → n % 10000 = 1001) ∧ (n / 10 ^ 9 % 10 = 8 → n % 10 ^ 8 = 20150903)

theorem good_facts {n : ℕ} (h : good n = true) : Facts n := by
  have dv : ∀ a b, Nat.div a b = a / b := fun _ _ => rfl
  have md : ∀ a b, Nat.mod a b = a % b := fun _ _ => rfl
  unfold good goodP at h
  simp only [dv, md, Bool.and_eq_true, Bool.or_eq_true, Nat.ble_eq, Nat.blt_eq, Nat.beq_eq] at h
  obtain ⟨h0, ⟨⟨⟨⟨⟨⟨h1, h2⟩, h3⟩, h4⟩, h5⟩, h6⟩, h7⟩, h8⟩ := h
  obtain ⟨v, y1, y2⟩ := dateOk_spec h3
  obtain ⟨v', y1', y2'⟩ := dateOk_spec h4
  have e := dayNum_spec h3
  have e' := dayNum_spec h4
  refine ⟨by omega, by omega, by omega, v, v', ⟨by unfold day; dsimp only; omega, by unfold day; dsimp only; omega⟩,
    ⟨by unfold target; dsimp only; omega, by unfold target; dsimp only; omega⟩, ?_, ?_, e, ?_⟩
  · unfold day target
    omega
  · unfold day
    rw [Cal.isWeekday_iff v, Cal.isWeekday_iff v, show (10 ^ 8 : ℕ) = 100000000 by norm_num, show (10 ^ 10 : ℕ) = 10000000000 by norm_num]
    omega
  · clear h7 h6 h5 e e' h3 h4 v v'
    rw [show (10 ^ 8 : ℕ) = 100000000 by norm_num, show (10 ^ 9 : ℕ) = 1000000000 by norm_num]
    generalize n / 1000000000 % 10 = k at *
    have : k = 0 ∨ k = 1 ∨ k = 2 ∨ k = 3 ∨ k = 4 ∨ k = 5 ∨ k = 6 ∨ k = 7 ∨ k = 8 := by omega
    rcases this with rfl | rfl | rfl | rfl | rfl | rfl | rfl | rfl | rfl <;> simp at h8 ⊢ <;> omega

theorem facts {n : ℕ} (h : n ∈ RECORDS) : Facts n := good_facts (List.all_eq_true.1 all_good n h)

theorem incr_pairwise {l : List ℕ} (h : incr l = true) : l.Pairwise (fun a b => a / 10 ^ 10 < b / 10 ^ 10 ∧ num a < num b) := by
  induction l with
  | nil => exact List.Pairwise.nil
  | cons a l ih =>
    cases l with
    | nil => exact List.pairwise_singleton _ _
    | cons b l =>
      unfold incr at h
      simp only [Bool.and_eq_true, Nat.blt_eq] at h
      obtain ⟨⟨h1, h2⟩, h3⟩ := h
      have p := ih h3
      replace h1 : a / 10 ^ 10 < b / 10 ^ 10 := h1
      refine List.Pairwise.cons ?_ p
      intro c hc
      rcases List.mem_cons.1 hc with rfl | hc
      · exact ⟨h1, h2⟩
      · have := List.rel_of_pairwise_cons p hc
        exact ⟨by omega, by omega⟩

theorem sorted : RECORDS.Pairwise (fun a b => a / 10 ^ 10 < b / 10 ^ 10 ∧ num a < num b) := incr_pairwise all_incr

theorem grow_pairwise {l : List ℕ} (h : grow l = true) : l.Pairwise (fun a b => week (a % 100000000) ≤ week (b % 100000000)) := by
  induction l with
  | nil => exact List.Pairwise.nil
  | cons a l ih =>
    cases l with
    | nil => exact List.pairwise_singleton _ _
    | cons b l =>
      unfold grow at h
      simp only [Bool.and_eq_true, Nat.ble_eq] at h
      obtain ⟨h1, h3⟩ := h
      have p := ih h3
      replace h1 : week (a % 100000000) ≤ week (b % 100000000) := h1
      refine List.Pairwise.cons ?_ p
      intro c hc
      rcases List.mem_cons.1 hc with rfl | hc
      · exact h1
      · exact h1.trans (List.rel_of_pairwise_cons p hc)

/-- the records are well-formed -/
theorem tok : TOk NAMES builtin := by
  intro r hr
  obtain ⟨n, hn, rfl⟩ := List.mem_map.1 hr
  have f := facts hn
  refine ⟨digits_length _ _, digits_length _ _, digits_dash _ _, digits_dash _ _, ?_, ?_⟩
  · show 48 ≤ (ch _).toNat
    rw [ch_toNat]; omega
  · show (ch _).toNat < 48 + 9
    rw [ch_toNat]; have := f.name; omega

theorem days_nodup : (builtin.map HRec.day).Nodup := by
  unfold builtin
  rw [List.map_map, List.nodup_iff_pairwise_ne, List.pairwise_map]
  refine (sorted.imp_of_mem ?_)
  intro a b ha hb h e
  have fa := (facts ha).lt
  have fb := (facts hb).lt
  have := digits_inj (w := 8) (by omega) (by omega) e
  omega

theorem work_flag {n : ℕ} (hn : n ∈ RECORDS) : (recOf n).workCh = '0' ∧ n / 10 ^ 8 % 10 = 0 ∨ (recOf n).workCh = '1' ∧ n / 10 ^ 8 % 10 = 1 := by
  have f := (facts hn).work
  unfold recOf ch
  have : n / 10 ^ 8 % 10 = 0 ∨ n / 10 ^ 8 % 10 = 1 := by omega
  rcases this with h | h <;> simp only [h]
  · exact Or.inl ⟨by decide, trivial⟩
  · exact Or.inr ⟨by decide, trivial⟩

/-- the text of a record does not occur across a border -/
theorem no_border {c : ℕ} (gc : good c = true) : ∀ {l : List ℕ}, (∀ x ∈ l, x < 10 ^ 18) → borders l = true → ∀ p : ℕ, ¬ 18 ∣ p →
    ¬ digits 18 c <+: ((l.map (digits 18)).flatten).drop p := by
  intro l
  induction l with
  | nil =>
    intro _ _ p _ h
    have := h.length_le
    simp [digits_length] at this
  | cons a l ih =>
    intro hl hb p hp h
    rw [List.map_cons, List.flatten_cons] at h
    by_cases c18 : 18 ≤ p
    · have e : ((digits 18 a) ++ (l.map (digits 18)).flatten).drop p = ((l.map (digits 18)).flatten).drop (p - 18) := by
        rw [List.drop_append, List.drop_of_length_le (by rw [digits_length]; exact c18), List.nil_append, digits_length]
      rw [e] at h
      refine ih (fun x hx => hl x (List.mem_cons_of_mem _ hx)) ?_ (p - 18) (by omega) h
      cases l with
      | nil => rfl
      | cons b l => unfold borders at hb; exact (Bool.and_eq_true _ _ ▸ hb).2
    · cases l with
      | nil =>
        have := h.length_le
        simp [digits_length] at this
        omega
      | cons b l =>
        unfold borders at hb
        simp only [Bool.and_eq_true, List.all_eq_true] at hb
        rw [List.map_cons, List.flatten_cons, List.drop_append_of_le_length (by rw [digits_length]; omega)] at h
        obtain ⟨o, ho⟩ : ∃ o, o + p = 18 := ⟨18 - p, by omega⟩
        have sa : digits 18 a = digits p (a / 10 ^ o) ++ digits o a := by rw [← digits_split, add_comm, ho]
        have sb : digits 18 b = digits p (b / 10 ^ o) ++ digits o b := by rw [← digits_split, add_comm, ho]
        rw [sa, sb, List.drop_left' (digits_length _ _), List.append_assoc, ← List.append_assoc] at h
        have e : digits 18 c = digits o a ++ digits p (b / 10 ^ o) :=
          (List.prefix_append_right_inj [] |>.2 h |> fun h => by
            have := List.prefix_iff_eq_take.1 h
            rw [List.nil_append, List.nil_append, digits_length, List.take_left' (by rw [List.length_append, digits_length, digits_length, ho])] at this
            exact this)
        have v := congrArg val e
        have gb : b < 10 ^ 18 := hl b (by simp)
        have gcf := good_facts gc
        rw [val_digits, val_append, val_digits, val_digits, digits_length, Nat.mod_eq_of_lt gcf.lt,
          Nat.mod_eq_of_lt (show b / 10 ^ o < 10 ^ p from Nat.div_lt_of_lt_mul (by rw [← pow_add, ho]; exact gb))] at v
        have mem : (10 ^ o, 10 ^ p) ∈ POWERS := by
          have : p = 1 ∨ p = 2 ∨ p = 3 ∨ p = 4 ∨ p = 5 ∨ p = 6 ∨ p = 7 ∨ p = 8 ∨ p = 9 ∨ p = 10 ∨ p = 11 ∨ p = 12 ∨ p = 13 ∨ p = 14 ∨ p = 15 ∨ p = 16 ∨ p = 17 := by omega
          obtain rfl : o = 18 - p := by omega
          rcases this with rfl | rfl | rfl | rfl | rfl | rfl | rfl | rfl | rfl | rfl | rfl | rfl | rfl | rfl | rfl | rfl | rfl <;> decide
        have w := hb.1 _ mem
        have ew : window a b (10 ^ o) (10 ^ p) = c := v.symm
        dsimp only at w
        rw [ew, gc, Bool.and_true, Bool.not_eq_true', Bool.eq_false_iff, ne_eq, Nat.beq_eq] at w
        have yr := gcf.year
        unfold day at yr
        dsimp only at yr
        exact w (show c / 10000000000000000 = 20 by omega)

theorem aligned {r : HRec} (hr : r ∈ builtin) (p : ℕ) (hp : ¬ 18 ∣ p) : ¬ r.text <+: (tableText builtin).drop p := by
  obtain ⟨n, hn, rfl⟩ := List.mem_map.1 hr
  rw [recOf_text, ← data_text]
  exact no_border (List.all_eq_true.1 all_good n hn) (fun x hx => (facts hx).lt) all_borders p hp


theorem day_eq {n : ℕ} (hn : n ∈ RECORDS) {x : Date} (hx : x.Valid) (x0 : 1000 ≤ x.y) (x1 : x.y ≤ 9999)
    (h : (recOf n).day = ymd8 x.y x.m x.d) : day n = x := by
  have f := facts hn
  refine Work.ymd8_inj f.day hx (by have := f.year; omega) (by have := f.year; omega) x0 x1 ?_
  rw [← day_key f.lt]
  exact h

/-- the record of a day, if there is one -/
theorem find_rec {n : ℕ} (hn : n ∈ RECORDS) {x : Date} (h : day n = x) :
    builtin.find? (fun r => r.day = ymd8 x.y x.m x.d) = some (recOf n) := by
  have f := facts hn
  have hd : (recOf n).day = ymd8 x.y x.m x.d := by rw [← h]; exact day_key f.lt
  cases e : builtin.find? (fun r => r.day = ymd8 x.y x.m x.d) with
  | none =>
    have := List.find?_eq_none.1 e (recOf n) (List.mem_map_of_mem hn)
    simp [hd] at this
  | some r =>
    have hr := List.mem_of_find?_eq_some e
    have e' : r.day = ymd8 x.y x.m x.d := by simpa using List.find?_some e
    obtain ⟨m, hm, rfl⟩ := List.mem_map.1 hr
    congr 1
    exact List.inj_on_of_nodup_map days_nodup hr (List.mem_map_of_mem hn) (e'.trans hd.symm)

theorem find_none {x : Date} (hx : x.Valid) (x0 : 1000 ≤ x.y) (x1 : x.y ≤ 9999) (h : ∀ n ∈ RECORDS, day n ≠ x) :
    builtin.find? (fun r => r.day = ymd8 x.y x.m x.d) = none := by
  rw [List.find?_eq_none]
  intro r hr
  obtain ⟨n, hn, rfl⟩ := List.mem_map.1 hr
  simp only [decide_eq_true_iff]
  exact fun e => h n hn (day_eq hn hx x0 x1 e)

theorem working_rec {n : ℕ} (hn : n ∈ RECORDS) : Working builtin (day n) ↔ n / 10 ^ 8 % 10 = 0 := by
  unfold Working
  rw [find_rec hn rfl]
  have := work_flag hn
  constructor
  · intro h
    rcases this with ⟨a, b⟩ | ⟨a, b⟩
    · exact b
    · dsimp only at h; rw [a] at h; cases h
  · intro h
    rcases this with ⟨a, b⟩ | ⟨a, b⟩
    · exact a
    · omega

theorem working_none {x : Date} (hx : x.Valid) (x0 : 1000 ≤ x.y) (x1 : x.y ≤ 9999) (h : ∀ n ∈ RECORDS, day n ≠ x) :
    Working builtin x ↔ ¬ ((Cal.dn x + 3) % 7 = 0 ∨ (Cal.dn x + 3) % 7 = 6) := by
  unfold Working
  rw [find_none hx x0 x1 h]
  exact Work.weekday_iff hx

theorem num_day {n : ℕ} (hn : n ∈ RECORDS) {i : ℤ} (h : (num n : ℤ) = i + 1722594) : day n = Cal.ofDn i := by
  have f := facts hn
  rw [← Cal.ofDn_dn f.day]
  congr 1
  have := f.num
  omega

theorem day_num {n : ℕ} (hn : n ∈ RECORDS) {i : ℤ} (h : day n = Cal.ofDn i) : (num n : ℤ) = i + 1722594 := by
  rw [(facts hn).num, h, Cal.dn_ofDn]

/-- the check of the days after day `i` -/
theorem soon_spec : ∀ (f c : ℕ) (l : List ℕ) (i : ℤ), (c : ℤ) = i + 1722594 → l <:+ RECORDS → (∀ n ∈ RECORDS, n ∉ l → num n < c) → (∀ n ∈ l, c ≤ num n) →
    (∀ j : ℕ, j < f → 1000 ≤ (Cal.ofDn (i + j)).y ∧ (Cal.ofDn (i + j)).y ≤ 9999) → soon f c l = true →
    ∃ j : ℕ, j < f ∧ Working builtin (Cal.ofDn (i + j)) := by
  intro f
  induction f with
  | zero => intro c l i _ _ _ _ _ h; simp [soon] at h
  | succ f ih =>
    intro c l i hc hl hb hge hy h
    have y0 := hy 0 (by omega)
    rw [Nat.cast_zero, add_zero] at y0
    have wd : (∀ n ∈ RECORDS, num n ≠ c) → Nat.blt (Nat.mod (c + 3) 7) 5 = true → Working builtin (Cal.ofDn (i + (0 : ℕ))) := by
      intro hn hw
      rw [Nat.cast_zero, add_zero, working_none (Cal.ofDn_valid _) y0.1 y0.2, Cal.dn_ofDn]
      · rw [Nat.blt_eq] at hw
        have : (c + 3) % 7 < 5 := hw
        omega
      · intro n hm e
        have := day_num hm e
        exact hn n hm (by omega)
    have next : ∀ l' : List ℕ, l' <:+ RECORDS → (∀ n ∈ RECORDS, n ∉ l' → num n < c + 1) → (∀ n ∈ l', c + 1 ≤ num n) → soon f (c + 1) l' = true →
        ∃ j : ℕ, j < f + 1 ∧ Working builtin (Cal.ofDn (i + j)) := by
      intro l' a1 a2 a3 a4
      obtain ⟨j, j1, j2⟩ := ih (c + 1) l' (i + 1) (by push_cast; omega) a1 a2 a3 (fun j hj => by
        have := hy (j + 1) (by omega)
        rw [show i + ((j + 1 : ℕ) : ℤ) = i + 1 + j by push_cast; ring] at this
        exact this) a4
      exact ⟨j + 1, by omega, by rw [show i + ((j + 1 : ℕ) : ℤ) = i + 1 + j by push_cast; ring]; exact j2⟩
    cases l with
    | nil =>
      unfold soon at h
      rw [Bool.or_eq_true] at h
      rcases h with h | h
      · exact ⟨0, by omega, wd (fun n hn => by have := hb n hn (by simp); omega) h⟩
      · exact next [] hl (fun n hn c' => by have := hb n hn c'; omega) (by simp) h
    | cons n l =>
      have hn : n ∈ RECORDS := hl.subset (by simp)
      have pw := sorted.sublist hl.sublist
      unfold soon at h
      by_cases e : num n = c
      · rw [show Nat.beq (num n) c = true by rw [Nat.beq_eq]; exact e, cond_true, Bool.or_eq_true, Nat.beq_eq] at h
        rcases h with h | h
        · refine ⟨0, by omega, ?_⟩
          rw [Nat.cast_zero, add_zero, ← num_day hn (by rw [e]; exact hc), working_rec hn]
          exact h
        · refine next l ((List.suffix_cons n l).trans hl) (fun m hm c' => ?_) (fun m hm => ?_) h
          · by_cases em : m = n
            · rw [em]; omega
            · have := hb m hm (by simp [em, c']); omega
          · have := (List.rel_of_pairwise_cons pw hm).2; omega
      · have gt : ∀ m ∈ n :: l, c < num m := by
          intro m hm
          rcases List.mem_cons.1 hm with rfl | hm
          · have := hge m (by simp); omega
          · have := (List.rel_of_pairwise_cons pw hm).2
            have := hge n (by simp)
            omega
        rw [show Nat.beq (num n) c = false by rw [Bool.eq_false_iff, ne_eq, Nat.beq_eq]; exact e, cond_false, Bool.or_eq_true] at h
        rcases h with h | h
        · refine ⟨0, by omega, wd (fun m hm => ?_) h⟩
          by_cases cm : m ∈ n :: l
          · have := gt m cm; omega
          · have := hb m hm cm; omega
        · exact next (n :: l) hl (fun m hm c' => by have := hb m hm c'; omega) (fun m hm => gt m hm) h

theorem soons_spec {l : List ℕ} (hl : l <:+ RECORDS) (h : soons l = true) {n : ℕ} (hn : n ∈ l) :
    ∃ j : ℕ, j < span (num n) ∧ Working builtin (Cal.ofDn (Cal.dn (day n) + j)) := by
  induction l with
  | nil => simp at hn
  | cons m l ih =>
    unfold soons at h
    rw [Bool.and_eq_true] at h
    rcases List.mem_cons.1 hn with rfl | hn
    · have hR : n ∈ RECORDS := hl.subset (by simp)
      have f := facts hR
      have pw := sorted.sublist hl.sublist
      refine soon_spec _ _ _ _ f.num hl ?_ ?_ ?_ h.1
      · intro m hm c
        obtain ⟨t, ht⟩ := hl
        have s := sorted
        rw [← ht] at s hm
        rw [List.mem_append] at hm
        rcases hm with hm | hm
        · exact ((List.pairwise_append.1 s).2.2 m hm n (by simp)).2
        · exact absurd hm c
      · intro m hm
        rcases List.mem_cons.1 hm with rfl | hm
        · exact le_refl _
        · exact (List.rel_of_pairwise_cons pw hm).2.le
      · intro j hj
        have y := f.year
        have hs : span (num n) ≤ 11 := by unfold span; cases Nat.beq _ 0 <;> cases Nat.beq _ 6 <;> simp
        have lo := Work.year_mono f.day (Cal.ofDn_valid (Cal.dn (day n) + j)) (by rw [Cal.dn_ofDn]; omega)
        have hi := Work.year_mono (Cal.ofDn_valid (Cal.dn (day n) + j)) (show (⟨2027, 12, 31⟩ : Date).Valid by decide) (by
          rw [Cal.dn_ofDn]
          have : ¬ Cal.dn ⟨2027, 1, 1⟩ ≤ Cal.dn (day n) := fun c => by
            have := Work.year_mono (show (⟨2027, 1, 1⟩ : Date).Valid by decide) f.day c
            dsimp only at this
            omega
          have e : Cal.dn ⟨2027, 12, 31⟩ = Cal.dn ⟨2027, 1, 1⟩ + 364 := by decide
          omega)
        exact ⟨by omega, by dsimp only at hi; omega⟩
    · exact ih ((List.suffix_cons m l).trans hl) h.2 hn

theorem rec_soon {n : ℕ} (hn : n ∈ RECORDS) : ∃ j : ℕ, j < span (num n) ∧ Working builtin (Cal.ofDn (Cal.dn (day n) + j)) :=
  soons_spec (List.suffix_refl _) all_soons hn

theorem span_le (c : ℕ) : span c ≤ 11 := by unfold span; cases Nat.beq _ 0 <;> cases Nat.beq _ 6 <;> simp

/-- one of any eleven days on end is a working day -/
theorem eleven (i : ℤ) (hy : ∀ j : ℕ, j ≤ 10 → 1000 ≤ (Cal.ofDn (i + j)).y ∧ (Cal.ofDn (i + j)).y ≤ 9999) :
    ∃ j : ℕ, j ≤ 10 ∧ Working builtin (Cal.ofDn (i + j)) := by
  have wd : ∀ k : ℕ, k ≤ 10 → (∀ n ∈ RECORDS, day n ≠ Cal.ofDn (i + k)) → ¬ ((i + k + 3) % 7 = 0 ∨ (i + k + 3) % 7 = 6) →
      Working builtin (Cal.ofDn (i + k)) := by
    intro k hk hn hw
    rw [working_none (Cal.ofDn_valid _) (hy k hk).1 (hy k hk).2 hn, Cal.dn_ofDn]
    exact hw
  have rc : ∀ k : ℕ, k ≤ 2 → ∀ n ∈ RECORDS, day n = Cal.ofDn (i + k) → ∀ w : ℕ, span (num n) ≤ w → w + k ≤ 11 →
      ∃ j : ℕ, j ≤ 10 ∧ Working builtin (Cal.ofDn (i + j)) := by
    intro k hk n hn e w hw hwk
    obtain ⟨j, j1, j2⟩ := rec_soon hn
    rw [e, Cal.dn_ofDn, add_assoc] at j2
    exact ⟨k + j, by omega, by push_cast; exact j2⟩
  have sp : ∀ n ∈ RECORDS, ∀ k : ℕ, day n = Cal.ofDn (i + k) → ((i + k + 3) % 7 = 1 → span (num n) = 9) ∧ ((i + k + 3) % 7 = 0 → span (num n) = 10) := by
    intro n hn k e
    have en := day_num hn e
    have md : ∀ a b, Nat.mod a b = a % b := fun _ _ => rfl
    unfold span
    rw [md]
    constructor
    · intro h
      rw [show Nat.beq ((num n + 3) % 7) 0 = true by rw [Nat.beq_eq]; omega]
      rfl
    · intro h
      rw [show Nat.beq ((num n + 3) % 7) 0 = false by rw [Bool.eq_false_iff, ne_eq, Nat.beq_eq]; omega,
        show Nat.beq ((num n + 3) % 7) 6 = true by rw [Nat.beq_eq]; omega]
      rfl
  by_cases c0 : ∃ n ∈ RECORDS, day n = Cal.ofDn (i + (0 : ℕ))
  · obtain ⟨n, hn, e⟩ := c0
    exact rc 0 (by omega) n hn e 11 (span_le _) (by omega)
  push Not at c0
  by_cases w0 : (i + 3) % 7 = 0 ∨ (i + 3) % 7 = 6
  · by_cases c1 : ∃ n ∈ RECORDS, day n = Cal.ofDn (i + (1 : ℕ))
    · obtain ⟨n, hn, e⟩ := c1
      have s := sp n hn 1 e
      refine rc 1 (by omega) n hn e 10 ?_ (by omega)
      rcases w0 with w0 | w0
      · rw [s.1 (by push_cast; omega)]; omega
      · rw [s.2 (by push_cast; omega)]
    push Not at c1
    rcases w0 with w0 | w0
    · exact ⟨1, by omega, wd 1 (by omega) c1 (by push_cast; omega)⟩
    · by_cases c2 : ∃ n ∈ RECORDS, day n = Cal.ofDn (i + (2 : ℕ))
      · obtain ⟨n, hn, e⟩ := c2
        exact rc 2 (by omega) n hn e 9 (by rw [(sp n hn 2 e).1 (by push_cast; omega)]) (by omega)
      push Not at c2
      exact ⟨2, by omega, wd 2 (by omega) c2 (by push_cast; omega)⟩
  · exact ⟨0, by omega, wd 0 (by omega) c0 (by push_cast; simpa using w0)⟩

/-- the festival of every record is a day off of the table -/
theorem festive_spec {q : ℕ} {p l : List ℕ} (hp : ∀ x ∈ p, x ∈ RECORDS) (hl : ∀ x ∈ l, x ∈ RECORDS)
    (hq : q = 0 ∨ ∃ c ∈ RECORDS, c / 10000000000 = q ∧ c / 100000000 % 10 = 1) (h : festive q p l = true) {a : ℕ} (ha : a ∈ l) :
    a % 100000000 = 0 ∨ ∃ c ∈ RECORDS, c / 10000000000 = a % 100000000 ∧ c / 100000000 % 10 = 1 := by
  induction l generalizing q p with
  | nil => simp at ha
  | cons b l ih =>
    unfold festive at h
    rw [Bool.and_eq_true, Bool.or_eq_true, Bool.or_eq_true, Nat.beq_eq] at h
    have md : ∀ a b, Nat.mod a b = a % b := fun _ _ => rfl
    have am : ∀ l' : List ℕ, (∀ x ∈ l', x ∈ RECORDS) → among (b % 100000000) l' = true → ∃ c ∈ RECORDS, c / 10000000000 = b % 100000000 ∧ c / 100000000 % 10 = 1 := by
      intro l' hl' e
      unfold among at e
      rw [List.any_eq_true] at e
      obtain ⟨c, c1, c2⟩ := e
      rw [Bool.and_eq_true, Nat.beq_eq, Nat.beq_eq] at c2
      exact ⟨c, hl' c c1, c2.1, c2.2⟩
    rw [md] at h
    have hb : b % 100000000 = 0 ∨ ∃ c ∈ RECORDS, c / 10000000000 = b % 100000000 ∧ c / 100000000 % 10 = 1 := by
      rcases h.1 with (e | e) | e
      · rw [e]; exact hq
      · refine Or.inr (am _ (fun x hx => ?_) e)
        rcases List.mem_cons.1 hx with rfl | hx
        · exact hl x (by simp)
        · exact hl x (List.mem_cons_of_mem _ (List.mem_of_mem_take hx))
      · exact Or.inr (am _ (fun x hx => hp x (List.mem_of_mem_take hx)) e)
    rcases List.mem_cons.1 ha with rfl | ha
    · exact hb
    · refine ih (fun x hx => ?_) (fun x hx => hl x (List.mem_cons_of_mem _ hx)) hb h.2 ha
      rcases List.mem_cons.1 hx with rfl | hx
      · exact hl x (by simp)
      · exact hp x hx

theorem feast {n : ℕ} (hn : n ∈ RECORDS) : ∃ c ∈ RECORDS, day c = target n ∧ c / 10 ^ 8 % 10 = 1 := by
  have f := facts hn
  rcases festive_spec (by simp) (fun _ h => h) (Or.inl rfl) all_festive hn with h | ⟨c, c1, c2, c3⟩
  · have := f.year'
    unfold target at this
    dsimp only at this
    omega
  · refine ⟨c, c1, ?_, c3⟩
    have lc := (facts c1).lt
    unfold day target
    simp only [Date.mk.injEq]
    omega

/-- records of one festival are next to each other, but for three of them -/
theorem together {a b c : HRec} (hs : [a, b, c].Sublist builtin) {t : ℕ} (ht : t < 100000000) (h1 : t ≠ 20141001) (h2 : t ≠ 20151001) (h3 : t ≠ 20171001)
    (ha : a.target = digits 8 t) (hc : c.target = digits 8 t) : b.target = digits 8 t := by
  obtain ⟨l, hl, e⟩ := List.sublist_map_iff.1 hs
  match l, e with
  | [x, y, z], e =>
    simp only [List.map_cons, List.map_nil, List.cons.injEq, and_true] at e
    obtain ⟨rfl, rfl, rfl⟩ := e
    have key : ∀ m, (recOf m).target = digits 8 t → m % 100000000 = t := by
      intro m e
      have e : digits 8 m = digits 8 t := e
      rw [digits_mod] at e
      exact digits_inj (w := 8) (by norm_num; omega) (by norm_num; omega) e
    have kx := key x ha
    have kz := key z hc
    have pw := (grow_pairwise all_grow).sublist hl
    simp only [List.pairwise_cons, List.mem_cons, List.not_mem_nil, or_false, forall_eq_or_imp, forall_eq] at pw
    have p1 := pw.1.1
    have p2 := pw.2.1
    have one : ∀ u r, ofTarget u = [r] → t ≠ u := by
      rintro u r hu rfl
      have s := hl.filter (fun n => Nat.beq (Nat.mod n 100000000) t)
      have md : ∀ a b, Nat.mod a b = a % b := fun _ _ => rfl
      unfold ofTarget at hu
      rw [hu] at s
      have := s.length_le
      simp only [List.filter_cons, md, kx, kz, Nat.beq_refl, if_true] at this
      split_ifs at this <;> simp at this
    obtain ⟨s1, s2, s3⟩ := single4
    have n1 := one _ _ s1
    have n2 := one _ _ s2
    have n3 := one _ _ s3
    rw [kx] at p1
    rw [kz] at p2
    have wt : week t = t := by
      unfold week
      rw [show (Nat.beq t 20141004 || Nat.beq t 20151004 || Nat.beq t 20171004) = false by
        rw [Bool.eq_false_iff]; simp only [ne_eq, Bool.or_eq_true, Nat.beq_eq]; omega]
      rfl
    have wy := le_antisymm p2 p1
    rw [wt] at wy
    have hy : y % 100000000 = t := by
      unfold week at wy
      by_cases c : (Nat.beq (y % 100000000) 20141004 || Nat.beq (y % 100000000) 20151004 || Nat.beq (y % 100000000) 20171004) = true
      · rw [c, cond_true] at wy
        simp only [Bool.or_eq_true, Nat.beq_eq] at c
        have : Nat.sub (y % 100000000) 3 = y % 100000000 - 3 := rfl
        omega
      · rw [Bool.not_eq_true] at c
        rw [c, cond_false] at wy
        exact wy
    show digits 8 y = digits 8 t
    rw [digits_mod, ← hy]
    norm_num

end HData
