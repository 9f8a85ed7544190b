import Verif.Proof.Ephem.Rounding
import Verif.Proof.Low.Codes

/-! # `calcQi` and `calcShuo` from 1583 to 1960 -/

namespace Low
open F64 ShouXing Ephem LunarYear FloatLike

theorem J2000_cast : ((J2000 : ℤ) : ℚ) = 2451545 := by norm_num [J2000]

theorem qiEnd_near : |qiEnd - 2322147.76| ≤ 1 / 10 ^ 9 := by
  have := rnd_near (x := (QI_KB_END : ℚ) / 10 ^ 2) (by rw [abs_le]; constructor <;> norm_num [QI_KB_END])
  unfold qiEnd
  refine le_trans (le_of_eq ?_) this
  norm_num [QI_KB_END]

theorem shuoEnd_near : |shuoEnd - 1947168| ≤ 1 / 10 ^ 9 := by
  have := rnd_near (x := (SHUO_KB_END : ℚ) / 10 ^ 2) (by rw [abs_le]; constructor <;> norm_num [SHUO_KB_END])
  unfold shuoEnd
  refine le_trans (le_of_eq ?_) this
  norm_num [SHUO_KB_END]

theorem qiHead : (qiPairs.headD (0, 1)).1 ≤ 1700000 := by
  have e : (qiPairs.headD (0, 1)).1 = rnd ((1640650479938 : ℤ) / 10 ^ 6) := rfl
  have := abs_le.1 (rnd_near (x := ((1640650479938 : ℤ) : ℚ) / 10 ^ 6) (by rw [abs_le]; constructor <;> norm_num))
  rw [e]
  norm_num at this ⊢
  linarith [this.2]

theorem shuoHead : (shuoPairs.headD (0, 1)).1 ≤ 1700000 := by
  have e : (shuoPairs.headD (0, 1)).1 = rnd ((1457698231017 : ℤ) / 10 ^ 6) := rfl
  have := abs_le.1 (rnd_near (x := ((1457698231017 : ℤ) : ℚ) / 10 ^ 6) (by rw [abs_le]; constructor <;> norm_num))
  rw [e]
  norm_num at this ⊢
  linarith [this.2]

theorem findPair_last {x : ℚ} {p : ℚ × ℚ} {l : List (ℚ × ℚ)} (hl : l.getLast? = some p) (h : ∀ q ∈ l.tail, q.1 ≤ x) : findPair x l = p := by
  induction l with
  | nil => cases hl
  | cons a l ih =>
    cases l with
    | nil => simp only [List.getLast?_singleton, Option.some.injEq] at hl; exact hl
    | cons b l =>
      unfold findPair
      have hb := h b (by simp)
      rw [if_neg (not_lt.2 hb)]
      apply ih
      · rwa [List.getLast?_cons_cons] at hl
      · intro q hq
        exact h q (by simp only [List.tail_cons] at hq ⊢; exact List.mem_cons_of_mem _ hq)

theorem pairs_last {x : ℚ} (h : 2188622 ≤ x) : findPair x qiPairs = (rnd ((2188621191481 : ℤ) / 10 ^ 6), rnd ((15218437494 : ℤ) / 10 ^ 9)) := by
  apply findPair_last
  · have : QI_KB.getLast? = some (2188621191481, 15218437494) := by decide +kernel
    unfold qiPairs
    rw [List.getLast?_map, this]
    rfl
  · intro q hq
    unfold qiPairs at hq
    rw [← List.map_tail, List.mem_map] at hq
    obtain ⟨p, hp, rfl⟩ := hq
    have hb : ∀ p ∈ QI_KB, 0 ≤ p.1 ∧ p.1 ≤ 2188621191481 := by decide +kernel
    obtain ⟨b1, b2⟩ := hb p (List.mem_of_mem_tail hp)
    have c1 : (0 : ℚ) ≤ p.1 := by exact_mod_cast b1
    have c2 : (p.1 : ℚ) ≤ 2188621191481 := by exact_mod_cast b2
    have := abs_le.1 (rnd_near (x := (p.1 : ℚ) / 10 ^ 6) (by rw [abs_le]; constructor <;> norm_num <;> linarith))
    norm_num at this ⊢
    linarith [this.2]

/-- the days of the terms from 1583 to 1645 -/
theorem calcQi_pair {M : Libm} {m : ℕ} {x : ℚ} (h1 : 15.218425 * ((m : ℚ) - 10000) - 284.18 ≤ x)
    (h2 : x ≤ 15.218425 * ((m : ℚ) - 10000) - 284.17) (hm : m < 1516) (H : pairStep m = true) :
    calcQi M x = (termJD m : ℤ) - 2451545 := by
  have m1 : (0 : ℚ) ≤ m := by positivity
  have m2 : (m : ℚ) ≤ 1515 := by exact_mod_cast (by omega : m ≤ 1515)
  have e := abs_le.1 (rnd_near (x := x + 2451545) (by rw [abs_le]; constructor <;> linarith))
  have ej : add x J2000 = rnd (x + 2451545) := by unfold add; rw [J2000_cast]
  have g1 := abs_le.1 (rnd_near (x := (qiPairs.headD (0, 1)).1 - 7) (by
    have : (0 : ℚ) ≤ (qiPairs.headD (0, 1)).1 := by
      have e : (qiPairs.headD (0, 1)).1 = rnd ((1640650479938 : ℤ) / 10 ^ 6) := rfl
      have := abs_le.1 (rnd_near (x := ((1640650479938 : ℤ) : ℚ) / 10 ^ 6) (by rw [abs_le]; constructor <;> norm_num))
      rw [e]
      norm_num at this ⊢
      linarith [this.1]
    rw [abs_le]; constructor <;> linarith [qiHead]))
  have g2 := abs_le.1 (rnd_near (x := qiEnd - 7) (by have := abs_le.1 qiEnd_near; rw [abs_le]; constructor <;> linarith [this.1, this.2]))
  have g3 := abs_le.1 qiEnd_near
  have a1 := abs_le.1 (rnd_near (x := rnd (x + 2451545) + 7) (by rw [abs_le]; constructor <;> linarith [e.1, e.2]))
  unfold calcQi
  simp only [ej]
  rw [if_neg (by
    unfold sub
    rintro (h | h)
    · linarith [e.1, e.2, g1.1, g1.2, qiHead]
    · linarith [e.1, e.2])]
  rw [if_pos (by unfold sub; linarith [e.1, e.2, g2.1, g2.2, g3.1, g3.2])]
  unfold pairDay add
  rw [pairs_last (by linarith [a1.1, e.1])]
  simp only
  have p1 := abs_le.1 (rnd_near (x := ((2188621191481 : ℤ) : ℚ) / 10 ^ 6) (by rw [abs_le]; constructor <;> norm_num))
  have p2 := abs_le.1 ((abs_rnd_sub_le (x := ((15218437494 : ℤ) : ℚ) / 10 ^ 9) (B := 16) (by rw [abs_le]; constructor <;> norm_num)).trans
    (by norm_num : (16 : ℚ) / 2 ^ 53 ≤ 1 / 10 ^ 13))
  push_cast at p1 p2 ⊢
  generalize rnd (2188621191481 / 10 ^ 6) = P at p1 ⊢
  generalize rnd (15218437494 / 10 ^ 9) = Q at p2 ⊢
  generalize rnd (rnd (x + 2451545) + 7) = y at a1 ⊢
  have Q0 : 0 < Q := by linarith [p2.1]
  have s := abs_le.1 (rnd_near (x := y - P) (by rw [abs_le]; constructor <;> linarith [a1.1, a1.2, e.1, e.2, p1.1, p1.2]))
  have eq : ⌊div (sub y P) Q⌋ = (m : ℤ) + 7258 := by
    unfold sub div
    generalize rnd (y - P) = z at s ⊢
    have z1 : 15.218425 * ((m : ℚ) - 10000) + 262646.6 ≤ z := by linarith [a1.1, a1.2, e.1, e.2, p1.1, p1.2, s.1]
    have z2 : z ≤ 15.218425 * ((m : ℚ) - 10000) + 262646.7 := by linarith [a1.1, a1.2, e.1, e.2, p1.1, p1.2, s.2]
    have b1 : ((m : ℚ) + 7258 + 0.1) ≤ z / Q := by
      rw [le_div_iff₀ Q0]; nlinarith [p2.2]
    have b2 : z / Q ≤ (m : ℚ) + 7258 + 0.9 := by
      rw [div_le_iff₀ Q0]; nlinarith [p2.1]
    have := abs_le.1 (rnd_tiny (x := z / Q) (by rw [abs_le]; constructor <;> linarith))
    rw [Int.floor_eq_iff]
    push_cast
    constructor <;> linarith [this.1, this.2]
  rw [eq]
  have q1 := abs_le.1 (rnd_near (x := Q * ((m : ℤ) + 7258 : ℤ)) (by push_cast; rw [abs_le]; constructor <;> nlinarith [p2.1, p2.2]))
  unfold mul
  push_cast at q1 ⊢
  have qm : |Q * ((m : ℚ) + 7258) - 15.218437494 * ((m : ℚ) + 7258)| ≤ 1 / 10 ^ 9 := by
    rw [← sub_mul, abs_mul, abs_of_nonneg (by linarith : (0 : ℚ) ≤ m + 7258)]
    have : |Q - 15.218437494| ≤ 1 / 10 ^ 13 := by rw [abs_le]; constructor <;> linarith [p2.1, p2.2]
    nlinarith [abs_nonneg (Q - 15.218437494)]
  have qm' := abs_le.1 qm
  generalize rnd (Q * ((m : ℚ) + 7258)) = R at q1 ⊢
  have q2 := abs_le.1 (rnd_near (x := P + R) (by rw [abs_le]; constructor <;> linarith [q1.1, q1.2, qm'.1, qm'.2, p1.1, p1.2]))
  generalize rnd (P + R) = S at q2 ⊢
  have q3 := abs_le.1 (rnd_near (x := S + 1 / 2) (by rw [abs_le]; constructor <;> linarith [q1.1, q1.2, q2.1, q2.2, qm'.1, qm'.2, p1.1, p1.2]))
  obtain ⟨t1, t2⟩ := pairStep_mem H
  have t1' : ((termJD m : ℤ) : ℚ) * 1000000000 + 10000 ≤ 2188621191481000 + 15218437494 * ((m : ℚ) + 7258) + 500000000 := by exact_mod_cast t1
  have t2' : 2188621191481000 + 15218437494 * ((m : ℚ) + 7258) + 500000000 + 10000 ≤ (((termJD m : ℤ) : ℚ) + 1) * 1000000000 := by exact_mod_cast t2
  have ef : ⌊rnd (S + 1 / 2)⌋ = (termJD m : ℤ) := by
    rw [Int.floor_eq_iff]
    constructor <;> linarith [q1.1, q1.2, q2.1, q2.2, q3.1, q3.2, qm'.1, qm'.2, p1.1, p1.2]
  rw [ef, if_neg (by
    intro h
    have : ((termJD m : ℤ) : ℚ) = 1683460 := by exact_mod_cast h
    linarith)]
  rfl

/-- the days of the terms from 1645 to 1960 -/
theorem calcQi_low {M : Libm} {m : ℕ} {x : ℚ} (h1 : 15.218425 * ((m : ℚ) - 10000) - 284.18 ≤ x)
    (h2 : x ≤ 15.218425 * ((m : ℚ) - 10000) - 284.17) (hm : 1516 ≤ m) (hm' : m ≤ 9058)
    (H : ⌊lowU M (m - 10000)⌋ + corrOf (digit4 qbPacked (m - 1516)) = (termJD m : ℤ) - 2451545) :
    calcQi M x = (termJD m : ℤ) - 2451545 := by
  have m1 : (1516 : ℚ) ≤ m := by exact_mod_cast hm
  have m2 : (m : ℚ) ≤ 9058 := by exact_mod_cast hm'
  have e := abs_le.1 (rnd_near (x := x + 2451545) (by rw [abs_le]; constructor <;> linarith))
  have ej : add x J2000 = rnd (x + 2451545) := by unfold add; rw [J2000_cast]
  have g3 := abs_le.1 qiEnd_near
  have g2 := abs_le.1 (rnd_near (x := qiEnd - 7) (by rw [abs_le]; constructor <;> linarith [g3.1, g3.2]))
  have g1 : sub (qiPairs.headD (0, 1)).1 7 ≤ 1700000 := by
    have e : (qiPairs.headD (0, 1)).1 = rnd ((1640650479938 : ℤ) / 10 ^ 6) := rfl
    have := abs_le.1 (rnd_near (x := ((1640650479938 : ℤ) : ℚ) / 10 ^ 6) (by rw [abs_le]; constructor <;> norm_num))
    rw [e]
    unfold sub
    norm_num at this ⊢
    generalize rnd (820325239969 / 500000) = P at this ⊢
    have := abs_le.1 (rnd_near (x := P - 7) (by rw [abs_le]; constructor <;> linarith [this.1, this.2]))
    linarith [this.2]
  have hb : InBin ((m : ℤ) - 10000) x := by
    unfold InBin
    push_cast
    constructor <;> linarith
  have b := bin_calcQi (by rw [abs_le]; constructor <;> linarith) hb
  have ej' : rnd (x + 2451545) = add x J2000 := ej.symm
  unfold calcQi
  simp only [b]
  rw [if_neg (by
    rw [ej]
    rintro (h | h)
    · linarith [e.1, e.2]
    · linarith [e.1, e.2])]
  rw [if_neg (by rw [ej]; unfold sub; linarith [e.1, e.2, g2.1, g2.2, g3.1, g3.2])]
  have i : ⌊mul (div (sub (add x J2000) (sub qiEnd 7)) c365) 24⌋ = ((m - 1516 : ℕ) : ℤ) := by
    rw [ej]
    have s := abs_le.1 (rnd_near (x := rnd (x + 2451545) - sub qiEnd 7) (by
      unfold sub
      rw [abs_le]; constructor <;> linarith [e.1, e.2, g2.1, g2.2, g3.1, g3.2]))
    have ec : (((m - 1516 : ℕ) : ℤ) : ℚ) = (m : ℚ) - 1516 := by
      rw [Nat.cast_sub hm]; push_cast; ring
    unfold sub at s
    apply floor24
    · unfold sub
      rw [abs_le]; constructor <;> linarith [e.1, e.2, g2.1, g2.2, g3.1, g3.2, s.1, s.2]
    · unfold sub
      rw [ec]
      linarith [e.1, e.2, g2.1, g2.2, g3.1, g3.2, s.1, s.2]
    · unfold sub
      rw [ec]
      linarith [e.1, e.2, g2.1, g2.2, g3.1, g3.2, s.1, s.2]
  rw [i, qb_get, Block.add_half]
  exact H

/-- the days of the new moons from 1583 to 1960 -/
theorem calcShuo_low {M : Libm} {x : ℚ} (h1 : -153000 ≤ x) (hx : x ≤ 0) (h2 : rnd (x + 2451545) < 2436935) :
    ∃ k i : ℤ, calcShuo M x = ⌊lowM M k⌋ + correction SB i ∧ 29.5306 * (k : ℚ) - 0.01 ≤ x + 8 ∧ x + 8 ≤ 29.5306 * ((k : ℚ) + 1) + 0.01 ∧
      29.5306 * (i : ℚ) - 0.01 ≤ x + 504391 ∧ x + 504391 ≤ 29.5306 * ((i : ℚ) + 1) + 0.01 := by
  have e := abs_le.1 (rnd_near (x := x + 2451545) (by rw [abs_le]; constructor <;> linarith))
  have ej : add x J2000 = rnd (x + 2451545) := by unfold add; rw [J2000_cast]
  have g3 := abs_le.1 shuoEnd_near
  have g2 := abs_le.1 (rnd_near (x := shuoEnd - 14) (by rw [abs_le]; constructor <;> linarith [g3.1, g3.2]))
  have g1 : sub (shuoPairs.headD (0, 1)).1 14 ≤ 1700000 := by
    have e : (shuoPairs.headD (0, 1)).1 = rnd ((1457698231017 : ℤ) / 10 ^ 6) := rfl
    have := abs_le.1 (rnd_near (x := ((1457698231017 : ℤ) : ℚ) / 10 ^ 6) (by rw [abs_le]; constructor <;> norm_num))
    rw [e]
    unfold sub
    norm_num at this ⊢
    generalize rnd (1457698231017 / 1000000) = P at this ⊢
    have := abs_le.1 (rnd_near (x := P - 14) (by rw [abs_le]; constructor <;> linarith [this.1, this.2]))
    linarith [this.2]
  obtain ⟨k, b, b1, b2⟩ := bin_calcShuo (x := x) (by rw [abs_le]; constructor <;> linarith)
  refine ⟨k, ⌊div (sub (add x J2000) (sub shuoEnd 14)) c295306⌋, ?_, b1, b2, ?_⟩
  · unfold calcShuo
    simp only [b]
    rw [if_neg (by
      rw [ej]
      rintro (h | h)
      · linarith [e.1, e.2]
      · linarith)]
    rw [if_neg (by rw [ej]; unfold sub; linarith [e.1, e.2, g2.1, g2.2, g3.1, g3.2])]
    rw [Block.add_half]
    rfl
  · rw [ej]
    have s := abs_le.1 (rnd_near (x := rnd (x + 2451545) - sub shuoEnd 14) (by
      unfold sub
      rw [abs_le]; constructor <;> linarith [e.1, e.2, g2.1, g2.2, g3.1, g3.2]))
    have hc := abs_le.1 c295306_near
    change -(1 / 10 ^ 9) ≤ sub (rnd (x + 2451545)) (sub shuoEnd 14) - _ ∧ sub (rnd (x + 2451545)) (sub shuoEnd 14) - _ ≤ 1 / 10 ^ 9 at s
    have s1 : x + 504391 - 1 / 10 ^ 8 ≤ sub (rnd (x + 2451545)) (sub shuoEnd 14) := by
      unfold sub at s ⊢; linarith [e.1, e.2, g2.1, g2.2, g3.1, g3.2, s.1, s.2]
    have s2 : sub (rnd (x + 2451545)) (sub shuoEnd 14) ≤ x + 504391 + 1 / 10 ^ 8 := by
      unfold sub at s ⊢; linarith [e.1, e.2, g2.1, g2.2, g3.1, g3.2, s.1, s.2]
    generalize sub (rnd (x + 2451545)) (sub shuoEnd 14) = y at s1 s2 ⊢
    generalize c295306 = c at hc ⊢
    have hc0 : 0 < c := by linarith
    unfold div
    have hq : |y / c| ≤ 400000 := by
      rw [abs_div, abs_of_pos hc0, div_le_iff₀ hc0, abs_le]
      constructor <;> linarith
    have e4 := abs_le.1 (rnd_tiny hq)
    have f1 := Int.floor_le (rnd (y / c))
    have f2 := Int.lt_floor_add_one (rnd (y / c))
    generalize ⌊rnd (y / c)⌋ = k at f1 f2 ⊢
    obtain ⟨hq1, hq2⟩ := abs_le.1 hq
    have g : y / c * c = y := div_mul_cancel₀ _ hc0.ne'
    generalize y / c = q at *
    have a1 : (q - (k - 1 / 10 ^ 10)) * c ≥ 0 := mul_nonneg (by linarith) hc0.le
    have a2 : ((k + 1 + 1 / 10 ^ 10) - q) * c ≥ 0 := mul_nonneg (by linarith) hc0.le
    have hk1 : (-400002 : ℚ) ≤ k := by linarith
    have hk2 : (k : ℚ) ≤ 400001 := by linarith
    constructor
    · nlinarith
    · nlinarith

end Low
