import Verif.Proof.Blocks

/-! # Checks on the tables of days

The days of solar terms and new moons are known from `Block` up to a day or two.  The checks below, evaluated by the
kernel for every year, show that this is enough to know which month a year's list begins with, and where its leap
month is.  They count Julian days, years after Christ and months from `K = 1000` at the new moon after J2000, so that all
numbers are natural. -/

open Aff0 ShouXing FloatLike

namespace High

@[inherit_doc] local infixl:65 " +ₙ " => Nat.add
@[inherit_doc] local infixl:65 " -ₙ " => Nat.sub
@[inherit_doc] local infixl:70 " *ₙ " => Nat.mul
@[inherit_doc] local infixl:70 " /ₙ " => Nat.div

/-- a row of a table: numbers of the form `(a + b x ± r) / 10 ^ 6` -/
structure Row where
  a : ℕ
  b : ℕ
  r : ℕ
  deriving DecidableEq

/-- the first day that a number of row `w` can lie in -/
def Row.lo (w : Row) (x : ℕ) : ℕ := (w.a +ₙ w.b *ₙ x -ₙ w.r) /ₙ nat_lit 1000000

/-- the last day -/
def Row.hi (w : Row) (x : ℕ) : ℕ := (w.a +ₙ w.b *ₙ x +ₙ w.r) /ₙ nat_lit 1000000

/-- the day of `k` if it is in the list of known days, else `d` -/
def sel (k : ℕ) (d : ℕ) : List (ℕ × ℕ) → ℕ
  | [] => d
  | p :: ps => bif Nat.beq p.1 k then p.2 else sel k d ps

/-- `a < b` -/
def lt (a b : ℕ) : Bool := Nat.ble (Nat.succ a) b

/-- the list beginning with month `k` has its leap month where it should be: with `tag = 0` not among its first two
months, with `tag = 1` after the first, else after the second.  `Nl k`, `Nh k` are bounds for new moon `k`, `Dl i`, `Dh i`
for solar term `i` of the list. -/
def good (tag : ℕ) (Dl Dh Nl Nh : ℕ → ℕ) (k : ℕ) : Bool :=
  match tag with
  | 0 => lt (Dh 24) (Nl (k +ₙ 13)) || (lt (Dh 2) (Nl (k +ₙ 2)) && lt (Dh 4) (Nl (k +ₙ 3)))
  | 1 => Nat.ble (Nh (k +ₙ 13)) (Dl 24) && Nat.ble (Nh (k +ₙ 2)) (Dl 2)
  | _ => Nat.ble (Nh (k +ₙ 13)) (Dl 24) && lt (Dh 2) (Nl (k +ₙ 2)) && Nat.ble (Nh (k +ₙ 3)) (Dl 4)

/-- the list begins with month `c` or `c + 1` and is good -/
def yearOk (tag : ℕ) (Dl Dh Nl Nh : ℕ → ℕ) (c : ℕ) : Bool :=
  forceN (Dl 0) fun dl => forceN (Dh 0) fun dh =>
  Nat.ble (Nh c) dl && lt dh (Nl (c +ₙ 2)) &&
  (Nat.ble (Nh (c +ₙ 1)) dl || good tag Dl Dh Nl Nh c) && (lt dh (Nl (c +ₙ 1)) || good tag Dl Dh Nl Nh (c +ₙ 1))

/-- is `x` in the list -/
def mem (x : ℕ) : List ℕ → Bool
  | [] => false
  | a :: l => Nat.beq a x || mem x l

/-- the tag of the list of year `Y`, from the parts of `LEAP_11` and `LEAP_12` that matter -/
def tagOf (l11 l12 : List ℕ) (Y : ℕ) : ℕ := bif mem (Y -ₙ 1) l11 then 1 else bif mem (Y -ₙ 1) l12 then 2 else 0

/-- rows for a stretch of years -/
structure Rows where
  /-- the winter solstice and the next two terms of the same kind -/
  r0 : Row
  r2 : Row
  r4 : Row
  /-- the new moons, for `k1 ≤ K ≤ k2` -/
  m : Row
  k1 : ℕ
  k2 : ℕ
  /-- the parts of `LEAP_11` and `LEAP_12` -/
  l11 : List ℕ
  l12 : List ℕ

/-- the row of term `i` (0, 2, 4 or 24) of the list of year `Y` -/
def Rows.sun (w : Rows) (f : Row → ℕ → ℕ) (Y : ℕ) (i : ℕ) : ℕ :=
  bif Nat.beq i 0 then f w.r0 Y else bif Nat.beq i 2 then f w.r2 Y else bif Nat.beq i 4 then f w.r4 Y else f w.r0 (Y +ₙ 1)

/-- the check for year `Y`, with the known days of new moons `mp` and of solar terms `sp` -/
def stepOk (w : Rows) (Y : ℕ) (mp sp : List (ℕ × ℕ)) : Bool :=
  forceN (w.r0.lo Y) fun d =>
  forceN (((d +ₙ 1) *ₙ nat_lit 1000000 -ₙ 1 -ₙ w.m.r -ₙ w.m.a) /ₙ w.m.b) fun c =>
  Nat.ble w.k1 c && Nat.ble (c +ₙ 14) w.k2 &&
  yearOk (tagOf w.l11 w.l12 Y) (fun i => sel i (w.sun Row.lo Y i) sp) (fun i => sel i (w.sun Row.hi Y i) sp)
    (fun k => sel k (w.m.lo k) mp) (fun k => sel k (w.m.hi k) mp) c

/-- an exceptional year: `Y`, known new moons, known solar terms -/
abbrev Exc := ℕ × List (ℕ × ℕ) × List (ℕ × ℕ)

/-- the known days are right -/
def excOk (e : Exc) : Bool :=
  e.2.1.all (fun p => Block.moonPointOk (Int.ofNat p.1 - 1000) (Int.ofNat p.2 - 2451545)) &&
  e.2.2.all (fun p => Block.sunPointOk (24 * (Int.ofNat e.1 - 2000) + 18 + Int.ofNat p.1) (Int.ofNat p.2 - 2451545))

/-- the numbers of an exceptional year are not too big -/
def small (e : Exc) : Bool := Nat.ble e.1 20000 && e.2.1.all (fun p => Nat.ble p.1 200000) && e.2.2.all (fun p => Nat.ble p.1 100)

/-- the check for `n` years from `Y` on -/
def runOk (w : Rows) : ℕ → ℕ → List Exc → Bool :=
  Nat.rec (fun _ _ => true) fun _ ih Y exc => forceN Y fun Y =>
    match exc with
    | [] => stepOk w Y [] [] && ih (Nat.succ Y) []
    | e :: rest => bif Nat.beq e.1 Y then stepOk w Y e.2.1 e.2.2 && ih (Nat.succ Y) rest else stepOk w Y [] [] && ih (Nat.succ Y) (e :: rest)

/-! ## What the checks mean -/

/-- row `w` bounds `u` (in days after J2000) at `x` -/
def Row.Bd (w : Row) (x : ℕ) (u : ℚ) : Prop := |(u + 2451545) * 1000000 - (w.a + w.b * x)| ≤ w.r

theorem Row.Bd.lo {w : Row} {x : ℕ} {u : ℚ} (H : w.Bd x u) (hr : w.r ≤ w.a) : (w.lo x : ℤ) ≤ ⌊u⌋ + 2451545 := by
  have e : (w.lo x : ℤ) = ((w.a : ℤ) + w.b * x - w.r) / 1000000 := by
    show (((w.a + w.b * x - w.r) / 1000000 : ℕ) : ℤ) = _
    have h1 : w.r ≤ w.a + w.b * x := hr.trans (Nat.le_add_right _ _)
    push_cast [Nat.cast_sub h1]
    rfl
  have h1 := (abs_le.1 H).1
  rw [e, ← sub_le_iff_le_add, Int.le_floor]
  have h2 : (((w.a : ℤ) + w.b * x - w.r) / 1000000 : ℤ) * 1000000 ≤ (w.a : ℤ) + w.b * x - w.r := Int.ediv_mul_le _ (by norm_num)
  have h3 : ((((w.a : ℤ) + w.b * x - w.r) / 1000000 : ℤ) : ℚ) * 1000000 ≤ (w.a : ℚ) + w.b * x - w.r := by exact_mod_cast h2
  push_cast at h3 ⊢
  linarith

theorem Row.Bd.hi {w : Row} {x : ℕ} {u : ℚ} (H : w.Bd x u) : ⌊u⌋ + 2451545 ≤ (w.hi x : ℤ) := by
  have e : (w.hi x : ℤ) = ((w.a : ℤ) + w.b * x + w.r) / 1000000 := by
    show (((w.a + w.b * x + w.r) / 1000000 : ℕ) : ℤ) = _
    push_cast
    rfl
  have h1 := (abs_le.1 H).2
  rw [e, Int.le_ediv_iff_mul_le (by norm_num)]
  have h2 := Int.floor_le u
  have h3 : (((⌊u⌋ + 2451545) * 1000000 : ℤ) : ℚ) ≤ ((w.a : ℤ) + w.b * x + w.r : ℤ) := by push_cast; linarith
  exact_mod_cast h3

theorem lt_iff {a b : ℕ} : lt a b = true ↔ a < b := by
  unfold lt
  rw [Nat.ble_eq]
  exact Iff.rfl

/-- the leap month of the list beginning with month `k` is where it should be -/
def Good (tag : ℕ) (D N : ℕ → ℤ) (k : ℕ) : Prop :=
  match tag with
  | 0 => D 24 < N (k + 13) ∨ (D 2 < N (k + 2) ∧ D 4 < N (k + 3))
  | 1 => N (k + 13) ≤ D 24 ∧ N (k + 2) ≤ D 2
  | _ => N (k + 13) ≤ D 24 ∧ D 2 < N (k + 2) ∧ N (k + 3) ≤ D 4

theorem good_mem {tag : ℕ} {Dl Dh Nl Nh : ℕ → ℕ} {k : ℕ} (H : good tag Dl Dh Nl Nh k = true) {D N : ℕ → ℤ}
    (hD : ∀ i, (i = 0 ∨ i = 2 ∨ i = 4 ∨ i = 24) → (Dl i : ℤ) ≤ D i ∧ D i ≤ Dh i)
    (hN : ∀ j, 2 ≤ j → j ≤ 13 → (Nl (k + j) : ℤ) ≤ N (k + j) ∧ N (k + j) ≤ Nh (k + j)) : Good tag D N k := by
  have d2 := hD 2 (by simp)
  have d4 := hD 4 (by simp)
  have d24 := hD 24 (by simp)
  have n2 := hN 2 (by norm_num) (by norm_num)
  have n3 := hN 3 (by norm_num) (by norm_num)
  have n13 := hN 13 (by norm_num) (by norm_num)
  unfold good at H
  unfold Good
  split at H <;> simp only [Bool.or_eq_true, Bool.and_eq_true, lt_iff, Nat.ble_eq, Nat.add_eq] at H ⊢ <;> omega

theorem yearOk_mem {tag : ℕ} {Dl Dh Nl Nh : ℕ → ℕ} {c : ℕ} (H : yearOk tag Dl Dh Nl Nh c = true) {D N : ℕ → ℤ}
    (hD : ∀ i, (i = 0 ∨ i = 2 ∨ i = 4 ∨ i = 24) → (Dl i : ℤ) ≤ D i ∧ D i ≤ Dh i)
    (hN : ∀ j, j ≤ 14 → (Nl (c + j) : ℤ) ≤ N (c + j) ∧ N (c + j) ≤ Nh (c + j)) :
    ∃ k, (k = c ∨ k = c + 1) ∧ N k ≤ D 0 ∧ D 0 < N (k + 1) ∧ Good tag D N k := by
  unfold yearOk at H
  simp only [forceN_eq, Bool.and_eq_true, Bool.or_eq_true, lt_iff, Nat.ble_eq, Nat.add_eq] at H
  obtain ⟨⟨⟨h1, h2⟩, h3⟩, h4⟩ := H
  have d0 := hD 0 (by simp)
  have n0 := hN 0 (by norm_num)
  have n1 := hN 1 (by norm_num)
  have n2 := hN 2 (by norm_num)
  rw [add_zero] at n0
  by_cases hc : N (c + 1) ≤ D 0
  · refine ⟨c + 1, Or.inr rfl, hc, ?_, ?_⟩
    · show D 0 < N (c + 2)
      omega
    · rcases h4 with h4 | h4
      · omega
      · refine good_mem h4 hD fun j _ h => ?_
        rw [add_assoc]
        exact hN (1 + j) (by omega)
  · refine ⟨c, Or.inl rfl, by omega, by omega, ?_⟩
    rcases h3 with h3 | h3
    · omega
    · exact good_mem h3 hD fun j _ h => hN j (by omega)

theorem sel_mem {k d : ℕ} {ps : List (ℕ × ℕ)} {v : ℤ} (h : ∀ p ∈ ps, p.1 = k → (p.2 : ℤ) = v) :
    ((d : ℤ) ≤ v → (sel k d ps : ℤ) ≤ v) ∧ (v ≤ d → v ≤ sel k d ps) := by
  induction ps with
  | nil => exact ⟨id, id⟩
  | cons p ps ih =>
    simp only [sel]
    by_cases hp : p.1 = k
    · have hb : Nat.beq p.1 k = true := by rw [Nat.beq_eq]; exact hp
      rw [hb, cond_true, h p List.mem_cons_self hp]
      exact ⟨fun _ => le_rfl, fun _ => le_rfl⟩
    · have hb : Nat.beq p.1 k = false := by rw [← Bool.not_eq_true, Nat.beq_eq]; exact hp
      rw [hb, cond_false]
      exact ih fun q hq => h q (List.mem_cons_of_mem _ hq)

theorem mem_iff {x : ℕ} {l : List ℕ} : mem x l = true ↔ x ∈ l := by
  induction l with
  | nil => simp [mem]
  | cons a l ih =>
    rw [mem, Bool.or_eq_true, ih, List.mem_cons, Nat.beq_eq]
    exact or_congr_left eq_comm

theorem stepOk_mem {w : Rows} {Y : ℕ} {mp sp : List (ℕ × ℕ)} (H : stepOk w Y mp sp = true) {u : ℕ → ℚ} {v : ℕ → ℚ}
    (hr : w.r0.r ≤ w.r0.a ∧ w.r2.r ≤ w.r2.a ∧ w.r4.r ≤ w.r4.a ∧ w.m.r ≤ w.m.a)
    (h0 : w.r0.Bd Y (u 0)) (h2 : w.r2.Bd Y (u 2)) (h4 : w.r4.Bd Y (u 4)) (h24 : w.r0.Bd (Y + 1) (u 24))
    (hm : ∀ k, w.k1 ≤ k → k ≤ w.k2 → w.m.Bd k (v k))
    (hmp : ∀ p ∈ mp, (p.2 : ℤ) = ⌊v p.1⌋ + 2451545) (hsp : ∀ p ∈ sp, (p.2 : ℤ) = ⌊u p.1⌋ + 2451545) :
    ∃ k, w.k1 ≤ k ∧ k + 13 ≤ w.k2 ∧ ⌊v k⌋ ≤ ⌊u 0⌋ ∧ ⌊u 0⌋ < ⌊v (k + 1)⌋ ∧
      Good (tagOf w.l11 w.l12 Y) (fun i => ⌊u i⌋ + 2451545) (fun k => ⌊v k⌋ + 2451545) k := by
  unfold stepOk at H
  simp only [forceN_eq, Bool.and_eq_true, Nat.ble_eq, Nat.add_eq] at H
  obtain ⟨⟨hc1, hc2⟩, H⟩ := H
  generalize Nat.div _ _ = c at H hc1 hc2
  obtain ⟨k, hk, h5, h6, h7⟩ := yearOk_mem H (D := fun i => ⌊u i⌋ + 2451545) (N := fun k => ⌊v k⌋ + 2451545) (by
    rintro i hi
    have key : ((w.sun Row.lo Y i : ℕ) : ℤ) ≤ ⌊u i⌋ + 2451545 ∧ ⌊u i⌋ + 2451545 ≤ (w.sun Row.hi Y i : ℕ) := by
      rcases hi with rfl | rfl | rfl | rfl
      · exact ⟨h0.lo hr.1, h0.hi⟩
      · exact ⟨h2.lo hr.2.1, h2.hi⟩
      · exact ⟨h4.lo hr.2.2.1, h4.hi⟩
      · exact ⟨h24.lo hr.1, h24.hi⟩
    exact ⟨(sel_mem fun p hp e => e ▸ hsp p hp).1 key.1, (sel_mem fun p hp e => e ▸ hsp p hp).2 key.2⟩) (by
    intro j hj
    have hb := hm (c + j) (by omega) (by omega)
    exact ⟨(sel_mem fun p hp e => e ▸ hmp p hp).1 (hb.lo hr.2.2.2), (sel_mem fun p hp e => e ▸ hmp p hp).2 hb.hi⟩)
  exact ⟨k, by omega, by omega, by simpa using h5, by simpa using h6, h7⟩

theorem runOk_nil (w : Rows) (n Y : ℕ) : runOk w (n + 1) Y [] = (stepOk w Y [] [] && runOk w n (Y + 1) []) := by
  cases Y <;> rfl

theorem runOk_cons (w : Rows) (n Y : ℕ) (e : Exc) (rest : List Exc) : runOk w (n + 1) Y (e :: rest) =
    (bif Nat.beq e.1 Y then stepOk w Y e.2.1 e.2.2 && runOk w n (Y + 1) rest
      else stepOk w Y [] [] && runOk w n (Y + 1) (e :: rest)) := by
  cases Y <;> rfl

theorem runOk_get {w : Rows} {n Y : ℕ} {exc : List Exc} (H : runOk w n Y exc = true) {i : ℕ} (hi : i < n) :
    stepOk w (Y + i) [] [] = true ∨ ∃ e ∈ exc, e.1 = Y + i ∧ stepOk w (Y + i) e.2.1 e.2.2 = true := by
  induction n generalizing Y exc i with
  | zero => omega
  | succ n ih =>
    cases exc with
    | nil =>
      rw [runOk_nil, Bool.and_eq_true] at H
      cases i with
      | zero => exact Or.inl H.1
      | succ i =>
        have := ih H.2 (i := i) (by omega)
        rwa [show Y + (i + 1) = Y + 1 + i by ring]
    | cons e rest =>
      rw [runOk_cons] at H
      by_cases he : e.1 = Y
      · have hb : Nat.beq e.1 Y = true := by rw [Nat.beq_eq]; exact he
        rw [hb, cond_true, Bool.and_eq_true] at H
        cases i with
        | zero => exact Or.inr ⟨e, List.mem_cons_self, he, H.1⟩
        | succ i =>
          have := ih H.2 (i := i) (by omega)
          rw [show Y + (i + 1) = Y + 1 + i by ring]
          rcases this with h | ⟨e', h, h'⟩
          · exact Or.inl h
          · exact Or.inr ⟨e', List.mem_cons_of_mem _ h, h'⟩
      · have hb : Nat.beq e.1 Y = false := by rw [← Bool.not_eq_true, Nat.beq_eq]; exact he
        rw [hb, cond_false, Bool.and_eq_true] at H
        cases i with
        | zero => exact Or.inl H.1
        | succ i =>
          have := ih H.2 (i := i) (by omega)
          rwa [show Y + (i + 1) = Y + 1 + i by ring]

end High
