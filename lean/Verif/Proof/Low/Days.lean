import Verif.Proof.Low.Data

/-! # The days of the tables are right: what is checked -/

open Aff0 ShouXing FloatLike Block High

namespace Low

@[inherit_doc] local infixl:65 " +ₙ " => Nat.add
@[inherit_doc] local infixl:65 " -ₙ " => Nat.sub
@[inherit_doc] local infixl:70 " *ₙ " => Nat.mul
@[inherit_doc] local infixl:70 " /ₙ " => Nat.div
@[inherit_doc] local infixl:70 " %ₙ " => Nat.mod

/-- the Julian day of term `m - 10000`, `m < 9107` -/
def termJD (m : ℕ) : ℕ := 15218425 *ₙ m /ₙ 1000000 +ₙ 2299073 +ₙ digit termDigits m

/-- the Julian day of new moon `j - 5200`, `j < 4736` -/
def moonJD (j : ℕ) : ℕ := 295306 *ₙ j /ₙ 10000 +ₙ 2297990 +ₙ digit moonDigits j

/-- the day before the correction -/
def uncorr (d x : ℕ) : ℕ := bif Nat.beq d 1 then x -ₙ 1 else bif Nat.beq d 2 then Nat.succ x else x

theorem uncorr_eq {d x : ℕ} (hx : 1 ≤ x) : (uncorr d x : ℤ) + corrOf d = x := by
  unfold uncorr corrOf
  cases Nat.beq d 1
  · cases Nat.beq d 2
    · simp
    · simp only [cond_false, cond_true]; push_cast; ring
  · simp only [cond_true]
    show ((x - 1 : ℕ) : ℤ) + 1 = x
    omega

theorem termJD_pos (m : ℕ) : 1 ≤ termJD m := by
  show 1 ≤ 15218425 * m / 1000000 + 2299073 + digit termDigits m
  omega

theorem moonJD_pos (j : ℕ) : 1 ≤ moonJD j := by
  show 1 ≤ 295306 * j / 10000 + 2297990 + digit moonDigits j
  omega

/-! ## From 1645 on -/

/-- term `m - 10000`, with `rows` of the years about it -/
def termStep (rows : List Row) (m : ℕ) : Bool :=
  forceN (m +ₙ 38000) fun z => forceN (z /ₙ 24) fun Y => forceN (z %ₙ 24) fun s =>
  forceN (uncorr (digit4 qbPacked (m -ₙ 1516)) (termJD m)) fun N => dayOk (rows.getD s ⟨0, 0, 0⟩) Y s N

theorem termStep_mem {M : Libm} (hM : M.Good) {c : ℤ} {h θ : ℕ} {rows : List Row} (H : blockOk (lowOk c h θ) 0 (rows.map (rowAt c)) = true)
    (hl : rows.length = 24) {m : ℕ} (hm : m ≤ 20000) (h1 : 24 * (c - h) + 10000 ≤ m) (h2 : (m : ℤ) ≤ 24 * (c + h) + 10023)
    (hs : termStep rows m = true) :
    ⌊lowU M (m - 10000)⌋ + corrOf (digit4 qbPacked (m - 1516)) = (termJD m : ℤ) - 2451545 := by
  unfold termStep at hs
  simp only [forceN_eq] at hs
  change dayOk (rows.getD ((m + 38000) % 24) ⟨0, 0, 0⟩) ((m + 38000) / 24) ((m + 38000) % 24) (uncorr (digit4 qbPacked (m - 1516)) (termJD m)) = true at hs
  have hi : (m + 38000) % 24 < rows.length := by omega
  have e1 : rows[(m + 38000) % 24]? = some (rows.getD ((m + 38000) % 24) ⟨0, 0, 0⟩) := by
    rw [List.getD_eq_getElem?_getD, List.getElem?_eq_getElem hi]
    rfl
  have r := rowOf (u := lowU M) (fun {y s A B R} a b => low_mem hM a b) H e1 (Y1 := (m + 38000) / 24) (Y2 := (m + 38000) / 24)
    (by omega) (by omega) (by omega)
  have := dayOk_mem hM r le_rfl le_rfl (by omega) hs
  have e2 : 24 * (((m + 38000) / 24 : ℕ) - 2000 : ℤ) + ((m + 38000) % 24 : ℕ) = (m : ℤ) - 10000 := by omega
  rw [e2] at this
  have e3 := uncorr_eq (d := digit4 qbPacked (m - 1516)) (termJD_pos m)
  omega

/-- new moon `j - 5200` -/
def moonStep (j : ℕ) : Bool :=
  forceN (uncorr (digit4 sbPacked (j +ₙ 11880)) (moonJD j)) fun N => shuoPointOk (Int.ofNat j - 5200) (Int.ofNat N - 2451545)

theorem moonStep_mem {M : Libm} (hM : M.Good) {j : ℕ} (hj : j ≤ 20000) (H : moonStep j = true) :
    ⌊lowM M (j - 5200)⌋ + corrOf (digit4 sbPacked (j + 11880)) = (moonJD j : ℤ) - 2451545 := by
  unfold moonStep at H
  rw [forceN_eq] at H
  have e := shuoPoint_mem hM (by rw [abs_le]; constructor <;> simp only [Int.ofNat_eq_natCast] <;> omega) H
  simp only [Int.ofNat_eq_natCast, Nat.add_eq] at e
  rw [e]
  have e3 := uncorr_eq (d := digit4 sbPacked (j + 11880)) (moonJD_pos j)
  omega

/-! ## After 1960 -/

/-- term `m - 10000` by the later series -/
def termHigh (m : ℕ) : Bool := sunPointOk (Int.ofNat m - 10000) (Int.ofNat (termJD m) - 2451545)

theorem termHigh_mem {M : Libm} (hM : M.Good) {m : ℕ} (hm : m ≤ 20000) (H : termHigh m = true) :
    termDay M (m - 10000) = (termJD m : ℤ) - 2451545 :=
  sunPoint_mem hM (by rw [abs_le]; constructor <;> omega) H

/-- new moon `j - 5200` by the later series -/
def moonHigh (j : ℕ) : Bool := moonPointOk (Int.ofNat j - 5200) (Int.ofNat (moonJD j) - 2451545)

theorem moonHigh_mem {M : Libm} (hM : M.Good) {j : ℕ} (hj : j ≤ 20000) (H : moonHigh j = true) :
    moonDay M (j - 5200) = (moonJD j : ℤ) - 2451545 :=
  moonPoint_mem hM (by rw [abs_le]; constructor <;> omega) H

/-! ## Before 1645 -/

/-- term `m - 10000` by the last pair of `__QI_KB`, in thousandths of a microday, plus half a day -/
def pairAt (m : ℕ) : ℕ := 2188621191481000 +ₙ 15218437494 *ₙ (m +ₙ 7258) +ₙ 500000000

/-- the day is clear -/
def pairStep (m : ℕ) : Bool :=
  forceN (pairAt m) fun v => forceN (v %ₙ 1000000000) fun f =>
    Nat.beq (v /ₙ 1000000000) (termJD m) && Nat.ble 10000 f && Nat.ble f 999990000

theorem pairStep_mem {m : ℕ} (H : pairStep m = true) :
    (termJD m : ℤ) * 1000000000 + 10000 ≤ 2188621191481000 + 15218437494 * ((m : ℤ) + 7258) + 500000000 ∧
    2188621191481000 + 15218437494 * ((m : ℤ) + 7258) + 500000000 + 10000 ≤ ((termJD m : ℤ) + 1) * 1000000000 := by
  unfold pairStep at H
  simp only [forceN_eq, Bool.and_eq_true, Nat.ble_eq, Nat.beq_eq] at H
  obtain ⟨⟨a, b⟩, c⟩ := H
  have e : pairAt m = 2188621191481000 + 15218437494 * (m + 7258) + 500000000 := rfl
  change pairAt m / 1000000000 = termJD m at a
  change 10000 ≤ pairAt m % 1000000000 at b
  change pairAt m % 1000000000 ≤ 999990000 at c
  rw [e] at a b c
  omega

end Low
