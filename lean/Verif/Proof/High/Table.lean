import Verif.Proof.High.Lines
import Verif.Model.Tables

/-! # From checked tables to facts about every year -/

open Aff0 ShouXing FloatLike Spec LunarYear

/-- the list of year `Y` begins with a leap month after its first (1) or second (2) month, according to the tables
`LEAP_11` and `LEAP_12` of `lunar_python/LunarYear.py` 17-21 -/
def leapTag (Y : ℤ) : ℕ := if Y - 1 ∈ LEAP_11 then 1 else if Y - 1 ∈ LEAP_12 then 2 else 0

/-- the leap month of the list of a year is where it should be; the list begins with month `k`, its winter solstice is
term `n` -/
def GoodAt (tag : ℕ) (D N : ℤ → ℤ) (n k : ℤ) : Prop :=
  match tag with
  | 0 => D (n + 24) < N (k + 13) ∨ (D (n + 2) < N (k + 2) ∧ D (n + 4) < N (k + 3))
  | 1 => N (k + 13) ≤ D (n + 24) ∧ N (k + 2) ≤ D (n + 2)
  | _ => N (k + 13) ≤ D (n + 24) ∧ D (n + 2) < N (k + 2) ∧ N (k + 3) ≤ D (n + 4)

namespace High

/-! ## Blocks of solar terms -/

/-- the crude bounds for the rows from `s` on -/
def crudeAll (Y1 Y2 : ℕ) : ℕ → List Row → Bool
  | _, [] => true
  | s, w :: ws => Nat.ble w.r 1000000 && Nat.ble w.r w.a && crude w (Int.ofNat s) Y1 Y2 && crudeAll Y1 Y2 (s + 1) ws

theorem crudeAll_get {Y1 Y2 s i : ℕ} {ws : List Row} (H : crudeAll Y1 Y2 s ws = true) {w : Row} (hi : ws[i]? = some w) :
    w.r ≤ 1000000 ∧ w.r ≤ w.a ∧ crude w ((s + i : ℕ) : ℤ) Y1 Y2 = true := by
  induction ws generalizing s i with
  | nil => simp at hi
  | cons v ws ih =>
    simp only [crudeAll, Bool.and_eq_true, Nat.ble_eq] at H
    cases i with
    | zero =>
      simp only [List.getElem?_cons_zero, Option.some.injEq] at hi
      subst hi
      exact ⟨H.1.1.1, H.1.1.2, H.1.2⟩
    | succ i =>
      rw [List.getElem?_cons_succ] at hi
      rw [show s + (i + 1) = s + 1 + i by ring]
      exact ih H.2 hi

/-- distances of neighbouring terms -/
def pairsOk (ws : List Row) (Y1 Y2 : ℕ) : Bool :=
  match ws.drop 17 with
  | [a, b, c, d, e, f, g] =>
    pairOk b a (-1) Y1 Y2 && pairOk c d 1 Y1 Y2 && pairOk c e 2 Y1 Y2 && pairOk c f 3 Y1 Y2 && pairOk c g 4 Y1 Y2
  | _ => false

/-- the check of the rows of a block of years -/
def blockOk (c : ℤ) (h : ℕ) (ws : List Row) (Y1 Y2 : ℕ) : Bool :=
  decide (c + 2000 - Int.ofNat h ≤ Int.ofNat Y1) && decide (Int.ofNat Y2 ≤ c + 2000 + Int.ofNat h) && Nat.ble Y2 20000 &&
  Nat.beq ws.length 24 && crudeAll Y1 Y2 0 ws && pairsOk ws Y1 Y2

/-- what is known of the solar terms of year `Y` -/
structure SunFacts (M : Libm) (Y : ℕ) : Prop where
  u : ∀ s : ℕ, s < 24 → 15218425 * ((24 * ((Y : ℤ) - 2000) + s : ℤ) : ℚ) - 289700000 ≤ termU M (24 * (Y - 2000) + s) * 1000000 ∧
      termU M (24 * (Y - 2000) + s) * 1000000 ≤ 15218425 * ((24 * ((Y : ℤ) - 2000) + s : ℤ) : ℚ) - 281500000
  v : ∀ s : ℕ, s < 24 → 15218425 * ((24 * ((Y : ℤ) - 2000) + s : ℤ) : ℚ) - 289700000 ≤ termV M (24 * (Y - 2000) + s) * 1000000 ∧
      termV M (24 * (Y - 2000) + s) * 1000000 ≤ 15218425 * ((24 * ((Y : ℤ) - 2000) + s : ℤ) : ℚ) - 281500000
  uv : ∀ s : ℕ, s < 24 → |termV M (24 * (Y - 2000) + s) - termU M (24 * (Y - 2000) + s)| ≤ 2
  before : |termV M (24 * (Y - 2000) + 17) - termU M (24 * (Y - 2000) + 18) - 15.2184 * (-1)| ≤ 2.3
  after : ∀ j : ℕ, 1 ≤ j → j ≤ 4 → |termV M (24 * (Y - 2000) + (19 + j : ℕ)) - termU M (24 * (Y - 2000) + 19) - 15.2184 * j| ≤ 2.3

theorem row_facts {M : Libm} (hM : M.Good) {c : ℤ} {h θ : ℕ} {ws : List Row} (H : Block.sunBlockOk c h θ 0 (ws.map (rowAt c)) = true)
    {Y1 Y2 : ℕ} (B : blockOk c h ws Y1 Y2 = true) {s : ℕ} (hs : s < 24) :
    ∃ w, ws[s]? = some w ∧ w.r ≤ 1000000 ∧ w.r ≤ w.a ∧ crude w s Y1 Y2 = true ∧ SunRow M s w Y1 Y2 := by
  simp only [blockOk, Bool.and_eq_true, Nat.ble_eq, Nat.beq_eq, decide_eq_true_eq, Int.ofNat_eq_natCast] at B
  obtain ⟨⟨⟨⟨⟨b1, b2⟩, b3⟩, b4⟩, b5⟩, _⟩ := B
  have hw : ws[s]? = some (ws[s]'(by omega)) := List.getElem?_eq_getElem _
  obtain ⟨h1, h2, h3⟩ := crudeAll_get b5 hw
  exact ⟨_, hw, h1, h2, by simpa using h3, sunRow hM H hw b1 b2 ⟨b3, by omega⟩⟩

theorem pairsOk_get {ws : List Row} {Y1 Y2 : ℕ} (H : pairsOk ws Y1 Y2 = true) :
    (∀ a b, ws[17]? = some a → ws[18]? = some b → pairOk b a (-1) Y1 Y2 = true) ∧
    (∀ j : ℕ, 1 ≤ j → j ≤ 4 → ∀ a b, ws[19]? = some a → ws[19 + j]? = some b → pairOk a b j Y1 Y2 = true) := by
  unfold pairsOk at H
  split at H
  · next a b c d e f g hd =>
    have get : ∀ i : ℕ, ws[17 + i]? = [a, b, c, d, e, f, g][i]? := fun i => by rw [← List.getElem?_drop, hd]
    simp only [Bool.and_eq_true] at H
    constructor
    · intro x y hx hy
      have h0 := get 0
      have h1 := get 1
      simp only [add_zero, Nat.reduceAdd, hx, hy, List.getElem?_cons_zero, List.getElem?_cons_succ, Option.some.injEq] at h0 h1
      rw [h0, h1]
      exact H.1.1.1.1
    · intro j hj hj' x y hx hy
      have h2 := get 2
      have h3 := get (2 + j)
      rw [show 17 + (2 + j) = 19 + j by ring, hy] at h3
      simp only [Nat.reduceAdd, hx, List.getElem?_cons_zero, List.getElem?_cons_succ, Option.some.injEq] at h2
      subst h2
      interval_cases j <;>
        simp only [Nat.reduceAdd, List.getElem?_cons_zero, List.getElem?_cons_succ, Option.some.injEq] at h3 <;> subst h3
      · exact H.1.1.1.2
      · exact H.1.1.2
      · exact H.1.2
      · exact H.2
  · cases H

theorem sunFacts {M : Libm} (hM : M.Good) {c : ℤ} {h θ : ℕ} {ws : List Row} (H : Block.sunBlockOk c h θ 0 (ws.map (rowAt c)) = true)
    {Y1 Y2 : ℕ} (B : blockOk c h ws Y1 Y2 = true) {Y : ℕ} (h1 : Y1 ≤ Y) (h2 : Y ≤ Y2) : SunFacts M Y := by
  have F := fun {s : ℕ} (hs : s < 24) => row_facts hM H B hs
  simp only [blockOk, Bool.and_eq_true, Nat.beq_eq] at B
  obtain ⟨p1, p2⟩ := pairsOk_get B.2
  refine ⟨fun s hs => ?_, fun s hs => ?_, fun s hs => ?_, ?_, fun j hj hj' => ?_⟩
  · obtain ⟨w, _, _, _, h3, h4⟩ := F hs
    exact crude_mem h3 h1 h2 (h4 Y h1 h2).1
  · obtain ⟨w, _, _, _, h3, h4⟩ := F hs
    exact crude_mem h3 h1 h2 (h4 Y h1 h2).2
  · obtain ⟨w, _, h5, _, _, h4⟩ := F hs
    have a := abs_le.1 (h4 Y h1 h2).1
    have b := abs_le.1 (h4 Y h1 h2).2
    have h6 : (w.r : ℚ) ≤ 1000000 := by exact_mod_cast h5
    rw [abs_le]
    constructor <;> linarith [a.1, a.2, b.1, b.2]
  · obtain ⟨w, e, _, _, _, h4⟩ := F (s := 17) (by norm_num)
    obtain ⟨w', e', _, _, _, h4'⟩ := F (s := 18) (by norm_num)
    have := pairOk_mem (p1 _ _ e e') h1 h2 (h4' Y h1 h2).1 (h4 Y h1 h2).2
    exact_mod_cast this
  · obtain ⟨w, e, _, _, _, h4⟩ := F (s := 19) (by norm_num)
    obtain ⟨w', e', _, _, _, h4'⟩ := F (s := 19 + j) (by omega)
    have := pairOk_mem (p2 j hj hj' _ _ e e') h1 h2 (h4 Y h1 h2).1 (h4' Y h1 h2).2
    exact_mod_cast this

/-! ## Stretches of years -/

/-- the parts of the tables of leap months are right for the years `Y1 ..< Y1 + n` -/
def leapOk (l11 l12 : List ℕ) (n Y1 : ℕ) : Bool :=
  LEAP_11.all (fun x => decide (x < Int.ofNat Y1 - 1) || decide (Int.ofNat Y1 + Int.ofNat n - 1 ≤ x) || l11.any (fun y => Int.ofNat y == x)) &&
  l11.all (fun x => LEAP_11.any (fun y => y == Int.ofNat x)) &&
  LEAP_12.all (fun x => decide (x < Int.ofNat Y1 - 1) || decide (Int.ofNat Y1 + Int.ofNat n - 1 ≤ x) || l12.any (fun y => Int.ofNat y == x)) &&
  l12.all (fun x => LEAP_12.any (fun y => y == Int.ofNat x))

theorem leapOk_mem {l11 l12 : List ℕ} {n Y1 : ℕ} (H : leapOk l11 l12 n Y1 = true) {Y : ℕ} (h1 : Y1 ≤ Y) (h2 : Y < Y1 + n) (h0 : 1 ≤ Y1) :
    tagOf l11 l12 Y = leapTag Y := by
  simp only [leapOk, Bool.and_eq_true, List.all_eq_true, Bool.or_eq_true, decide_eq_true_eq, List.any_eq_true, beq_iff_eq,
    Int.ofNat_eq_natCast] at H
  obtain ⟨⟨⟨a1, a2⟩, a3⟩, a4⟩ := H
  have e : ((Y - 1 : ℕ) : ℤ) = (Y : ℤ) - 1 := by omega
  have k1 : Y - 1 ∈ l11 ↔ (Y : ℤ) - 1 ∈ LEAP_11 := by
    constructor
    · intro h
      obtain ⟨y, hy, rfl⟩ := a2 _ h
      rwa [e] at hy
    · intro h
      rcases a1 _ h with (h' | h') | ⟨y, hy, hy'⟩
      · omega
      · omega
      · have : y = Y - 1 := by omega
        rwa [this] at hy
  have k2 : Y - 1 ∈ l12 ↔ (Y : ℤ) - 1 ∈ LEAP_12 := by
    constructor
    · intro h
      obtain ⟨y, hy, rfl⟩ := a4 _ h
      rwa [e] at hy
    · intro h
      rcases a3 _ h with (h' | h') | ⟨y, hy, hy'⟩
      · omega
      · omega
      · have : y = Y - 1 := by omega
        rwa [this] at hy
  have m1 : mem (Y - 1) l11 = decide ((Y : ℤ) - 1 ∈ LEAP_11) := by
    rw [Bool.eq_iff_iff, mem_iff, k1, decide_eq_true_eq]
  have m2 : mem (Y - 1) l12 = decide ((Y : ℤ) - 1 ∈ LEAP_12) := by
    rw [Bool.eq_iff_iff, mem_iff, k2, decide_eq_true_eq]
  unfold tagOf leapTag
  show (bif mem (Y - 1) l11 then 1 else bif mem (Y - 1) l12 then 2 else 0) = _
  rw [m1, m2]
  by_cases c1 : (Y : ℤ) - 1 ∈ LEAP_11 <;> by_cases c2 : (Y : ℤ) - 1 ∈ LEAP_12 <;> simp [c1, c2]

/-- the other checks of a stretch -/
def rowsOk (w : Rows) (n Y1 : ℕ) : Bool :=
  Nat.ble w.r0.r w.r0.a && Nat.ble w.r2.r w.r2.a && Nat.ble w.r4.r w.r4.a && Nat.ble w.m.r w.m.a && Nat.ble 500 w.k1 && Nat.ble w.k2 100000 &&
  Nat.ble 1 Y1 && Nat.ble (Y1 + n) 20000 && leapOk w.l11 w.l12 n Y1

/-- what is known of the months of the list of year `Y` -/
structure MoonFacts (M : Libm) (Y : ℕ) (k : ℤ) : Prop where
  range : -500 ≤ k ∧ k + 13 ≤ 99000
  first : moonDay M k ≤ termDay M (24 * (Y - 2000) + 18)
  second : termDay M (24 * (Y - 2000) + 18) < moonDay M (k + 1)
  good : GoodAt (leapTag Y) (termDay M) (moonDay M) (24 * (Y - 2000) + 18) k

theorem run_facts {M : Libm} (hM : M.Good) {w : Rows} {n Y1 : ℕ} {exc : List Exc} (R : runOk w n Y1 exc = true) (C : rowsOk w n Y1 = true)
    (S0 : SunRow M 18 w.r0 Y1 (Y1 + n)) (S2 : SunRow M 20 w.r2 Y1 (Y1 + n)) (S4 : SunRow M 22 w.r4 Y1 (Y1 + n))
    (Mo : MoonRow M w.m w.k1 w.k2) (E : exc.all excOk = true) (E' : exc.all small = true)
    {Y : ℕ} (h1 : Y1 ≤ Y) (h2 : Y < Y1 + n) : ∃ k, MoonFacts M Y k := by
  simp only [rowsOk, Bool.and_eq_true, Nat.ble_eq] at C
  obtain ⟨⟨⟨⟨⟨⟨⟨⟨r0, r2⟩, r4⟩, rm⟩, hk0⟩, hk⟩, hY⟩, hY'⟩, hl⟩ := C
  obtain ⟨i, rfl⟩ : ∃ i, Y = Y1 + i := ⟨Y - Y1, by omega⟩
  have main : ∀ mp sp : List (ℕ × ℕ), stepOk w (Y1 + i) mp sp = true → (∀ p ∈ mp, (p.2 : ℤ) = ⌊moonU M (p.1 - 1000)⌋ + 2451545) →
      (∀ p ∈ sp, (p.2 : ℤ) = ⌊termU M (24 * (((Y1 + i : ℕ) : ℤ) - 2000) + 18 + p.1)⌋ + 2451545) → ∃ k, MoonFacts M (Y1 + i) k := by
    intro mp sp hs hmp hsp
    have b0 := (S0 (Y1 + i) (by omega) (by omega)).1
    have b2 := (S2 (Y1 + i) (by omega) (by omega)).1
    have b4 := (S4 (Y1 + i) (by omega) (by omega)).1
    have b24 := (S0 (Y1 + i + 1) (by omega) (by omega)).1
    obtain ⟨k, hk1, hk2, h5, h6, h7⟩ := stepOk_mem hs (u := fun j => termU M (24 * (((Y1 + i : ℕ) : ℤ) - 2000) + 18 + j))
      (v := fun K => moonU M (K - 1000)) ⟨r0, r2, r4, rm⟩ (by simpa using b0)
      (by convert b2 using 2; push_cast; ring) (by convert b4 using 2; push_cast; ring)
      (by convert b24 using 2; push_cast; ring) (fun K a b => Mo K a b) hmp hsp
    refine ⟨(k : ℤ) - 1000, by omega, ?_, ?_, ?_⟩
    · rw [moonDay_eq, termDay_eq]; simpa using h5
    · rw [moonDay_eq, termDay_eq]
      convert h6 using 3
      · simp
      · push_cast; ring
    · rw [leapOk_mem hl (by omega) h2 hY] at h7
      generalize leapTag ((Y1 + i : ℕ) : ℤ) = t at h7
      have cM : ∀ j : ℕ, ⌊moonU M (((k + j : ℕ) : ℤ) - 1000)⌋ = moonDay M ((k : ℤ) - 1000 + j) := by
        intro j
        rw [moonDay_eq]
        congr 2
        push_cast; ring
      unfold Good at h7
      unfold GoodAt
      split at h7 <;> simp only [add_lt_add_iff_right, add_le_add_iff_right, cM, ← termDay_eq, Nat.cast_ofNat] at h7 ⊢ <;> exact h7
  rcases runOk_get R (i := i) (by omega) with h | ⟨e, he, h3, h4⟩
  · exact main [] [] h (by simp) (by simp)
  · have x1 := List.all_eq_true.1 E e he
    have x2 := List.all_eq_true.1 E' e he
    simp only [excOk, Bool.and_eq_true, List.all_eq_true, Int.ofNat_eq_natCast] at x1
    simp only [small, Bool.and_eq_true, List.all_eq_true, Nat.ble_eq] at x2
    obtain ⟨⟨x2, x3⟩, x4⟩ := x2
    refine main _ _ h4 (fun p hp => ?_) (fun p hp => ?_)
    · have := Block.moonPoint_mem hM (by have := x3 p hp; rw [abs_le]; constructor <;> omega) (x1.1 p hp)
      rw [moonDay_eq] at this
      omega
    · have := Block.sunPoint_mem hM (by have := x4 p hp; rw [abs_le]; constructor <;> omega) (x1.2 p hp)
      rw [termDay_eq, h3] at this
      omega

end High
