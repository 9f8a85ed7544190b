import Verif.Proof.High.Lines

/-! # Solar terms and new moons before 1960: checks

Before 1960 the library takes the days of solar terms and new moons from simpler series, with corrections from two packed
tables, and before 1645 the terms from a table of mean terms.  The days found are put into two tables of our own, and the checks
below show that they are right. -/

open Aff0 ShouXing FloatLike Block High

/-- the instant of solar term `n` whose day is used from 1645 to 1960, plus half a day
(`lunar_python/util/ShouXingUtil.py` 637) -/
def lowU (M : Libm) (n : ℤ) : ℚ := (qiLow (qiArg (int n)) + lit 5 1 : Fl M).v

/-- the instant of new moon `k` whose day is used from 619 to 1960, plus half a day
(`lunar_python/util/ShouXingUtil.py` 602) -/
def lowM (M : Libm) (k : ℤ) : ℚ := (shuoLow (shuoArg (int k)) + lit 5 1 : Fl M).v

namespace Low

@[inherit_doc] local infixl:65 " +ₙ " => Nat.add
@[inherit_doc] local infixl:65 " -ₙ " => Nat.sub
@[inherit_doc] local infixl:70 " *ₙ " => Nat.mul
@[inherit_doc] local infixl:70 " /ₙ " => Nat.div
@[inherit_doc] local infixl:70 " %ₙ " => Nat.mod

/-! ## Stretches of numbers -/

/-- `p` holds for the `n` numbers from `m` on -/
def allFrom (p : ℕ → Bool) : ℕ → ℕ → Bool :=
  Nat.rec (fun _ => true) fun _ ih m => forceN m fun m => p m && ih (Nat.succ m)

theorem allFrom_get {p : ℕ → Bool} {n m : ℕ} (H : allFrom p n m = true) {x : ℕ} (h1 : m ≤ x) (h2 : x < m + n) : p x = true := by
  induction n generalizing m with
  | zero => omega
  | succ n ih =>
    have e : allFrom p (n + 1) m = (p m && allFrom p n (m + 1)) := by cases m <;> rfl
    rw [e, Bool.and_eq_true] at H
    obtain rfl | h : m = x ∨ m + 1 ≤ x := by omega
    · exact H.1
    · exact ih H.2 h (by omega)

theorem allFrom_add {p : ℕ → Bool} {a b n m m' : ℕ} (e : m' = m + a) (h1 : allFrom p a m = true) (h2 : allFrom p b m' = true)
    (hn : n = a + b := by norm_num) : allFrom p n m = true := by
  subst e hn
  induction a generalizing m with
  | zero => simpa using h2
  | succ a ih =>
    have e1 : allFrom p (a + 1) m = (p m && allFrom p a (m + 1)) := by cases m <;> rfl
    have e2 : allFrom p (a + 1 + b) m = (p m && allFrom p (a + b) (m + 1)) := by
      rw [show a + 1 + b = a + b + 1 by ring]; cases m <;> rfl
    rw [e1, Bool.and_eq_true] at h1
    rw [e2, Bool.and_eq_true]
    exact ⟨h1.1, ih h1.2 (by rwa [show m + 1 + a = m + (a + 1) by ring])⟩

/-! ## Digits -/

/-- digit `i` of `T` to base 16 -/
def digit (T i : ℕ) : ℕ := T /ₙ Nat.pow 16 i %ₙ 16

/-- digit `i` of `T` to base 4 -/
def digit4 (T i : ℕ) : ℕ := T /ₙ Nat.pow 4 i %ₙ 4

/-- how the characters of the tables are packed -/
def charCode (c : Char) : ℕ := bif Nat.beq c.toNat 49 then 1 else bif Nat.beq c.toNat 50 then 2 else 0

/-- the correction for a packed character -/
def corrOf (d : ℕ) : ℤ := bif Nat.beq d 1 then 1 else bif Nat.beq d 2 then -1 else 0

/-- `T` is the packed list -/
def packed (l : List Char) : ℕ → Bool :=
  List.rec (motive := fun _ => ℕ → Bool) (fun T => Nat.beq T 0)
    (fun c _ ih T => Nat.beq (T %ₙ 4) (charCode c) && forceN (T /ₙ 4) ih) l

theorem charCode_eq (c : Char) : charCode c = if c = '1' then 1 else if c = '2' then 2 else 0 := by
  unfold charCode
  have key : ∀ d : Char, Nat.beq c.toNat d.toNat = decide (c = d) := by
    intro d
    rw [Bool.eq_iff_iff, decide_eq_true_iff, Nat.beq_eq]
    exact ⟨fun h => Char.toNat_inj.1 h, fun h => h ▸ rfl⟩
  have h1 := key '1'
  have h2 := key '2'
  rw [show ('1' : Char).toNat = 49 from rfl] at h1
  rw [show ('2' : Char).toNat = 50 from rfl] at h2
  rw [h1, h2]
  simp only [Bool.cond_decide]

theorem charCode_lt (c : Char) : charCode c < 4 := by
  rw [charCode_eq]
  split_ifs <;> norm_num

theorem correction_cons (c : Char) (l : List Char) : correction (c :: l) 0 = corrOf (charCode c) := by
  rw [charCode_eq]
  unfold correction
  simp only [Int.toNat_zero, List.getElem?_cons_zero]
  by_cases h1 : c = '1'
  · subst h1; rfl
  by_cases h2 : c = '2'
  · subst h2; rfl
  rw [if_neg h1, if_neg h2]
  split
  · next h => exact absurd (Option.some.inj h) h1
  · next h => exact absurd (Option.some.inj h) h2
  · rfl

theorem packed_get {l : List Char} {T : ℕ} (H : packed l T = true) (i : ℕ) : correction l i = corrOf (digit4 T i) := by
  induction l generalizing T i with
  | nil =>
    have : T = 0 := by
      change Nat.beq T 0 = true at H
      exact Nat.eq_of_beq_eq_true H
    subst this
    have : digit4 0 i = 0 := by
      show 0 / 4 ^ i % 4 = 0
      simp
    rw [this]
    unfold correction
    simp only [List.getElem?_nil]
    rfl
  | cons c l ih =>
    have e : packed (c :: l) T = (Nat.beq (T % 4) (charCode c) && packed l (T / 4)) := by
      show (_ && forceN (T / 4) _) = _
      rw [forceN_eq]
      rfl
    rw [e, Bool.and_eq_true] at H
    cases i with
    | zero =>
      have h0 : digit4 T 0 = T % 4 := by show T / 4 ^ 0 % 4 = _; simp
      rw [h0, Nat.eq_of_beq_eq_true H.1]
      exact correction_cons c l
    | succ i =>
      have h1 : digit4 T (i + 1) = digit4 (T / 4) i := by
        show T / 4 ^ (i + 1) % 4 = T / 4 / 4 ^ i % 4
        rw [Nat.div_div_eq_div_mul, pow_succ, Nat.mul_comm]
      rw [h1, ← ih H.2 i]
      unfold correction
      rw [show ((i + 1 : ℕ) : ℤ).toNat = i + 1 by omega, show ((i : ℕ) : ℤ).toNat = i by omega, List.getElem?_cons_succ]

theorem packed_cons (x : Char) (d : List Char) (T : ℕ) :
    packed (x :: d) T = (Nat.beq (T % 4) (charCode x) && packed d (T / 4)) := by
  show (_ && forceN _ _) = _
  rw [forceN_eq]
  rfl

/-- a packed list as a number -/
def value (d : List Char) : ℕ := d.foldr (fun c a => charCode c +ₙ 4 *ₙ a) 0

theorem packed_append {d l : List Char} {T : ℕ} (h1 : T % 4 ^ d.length = value d) (h2 : packed l (T / 4 ^ d.length) = true) :
    packed (d ++ l) T = true := by
  induction d generalizing T with
  | nil => simpa using h2
  | cons x d ih =>
    have hx := charCode_lt x
    have e : value (x :: d) = charCode x + 4 * value d := rfl
    rw [List.length_cons, pow_succ, Nat.mul_comm, Nat.mod_mul, e] at h1
    rw [List.length_cons, pow_succ, Nat.mul_comm, ← Nat.div_div_eq_div_mul] at h2
    have h3 := Nat.mod_lt T (by norm_num : 4 > 0)
    have h4 : T % 4 = charCode x := by omega
    rw [List.cons_append, packed_cons, Bool.and_eq_true, Nat.beq_eq]
    exact ⟨h4, ih (by omega) h2⟩

/-- `T` begins with the packed list `d`, and `k` holds for the rest -/
def packedThen (d : List Char) (k : ℕ → Bool) (T : ℕ) : Bool :=
  forceN (Nat.pow 4 d.length) fun q => Nat.beq (T %ₙ q) (value d) && forceN (T /ₙ q) k

theorem packedThen_eq (d : List Char) (k : ℕ → Bool) (T : ℕ) :
    packedThen d k T = (Nat.beq (T % 4 ^ d.length) (value d) && k (T / 4 ^ d.length)) := by
  unfold packedThen
  rw [forceN_eq, forceN_eq]
  rfl

/-- `T` is the packed list that the characters of `l` stand for -/
def packedCode (l : List Char) : ℕ → Bool :=
  List.rec (motive := fun _ => ℕ → Bool) (fun T => Nat.beq T 0)
    (fun c _ ih => packedThen (decode [c]) ih) l

theorem replaceChar_flatMap (c : Char) (d : List Char) (f : Char → List Char) (l : List Char) :
    replaceChar c d (l.flatMap f) = l.flatMap (fun x => replaceChar c d (f x)) := by
  unfold replaceChar
  rw [List.flatMap_assoc]

theorem foldl_flatMap (steps : List (Char × List Char)) (f : Char → List Char) (l : List Char) :
    steps.foldl (fun s p => replaceChar p.1 p.2 s) (l.flatMap f) = l.flatMap (fun x => steps.foldl (fun s p => replaceChar p.1 p.2 s) (f x)) := by
  induction steps generalizing f with
  | nil => rfl
  | cons p steps ih => rw [List.foldl_cons, replaceChar_flatMap, ih]; rfl

theorem decode_eq (l : List Char) : decode l = l.flatMap (fun x => decode [x]) := by
  have := foldl_flatMap decodeSteps (fun x => [x]) l
  rwa [List.flatMap_singleton'] at this

theorem packedCode_mem {l : List Char} {T : ℕ} (H : packedCode l T = true) : packed (decode l) T = true := by
  rw [decode_eq]
  induction l generalizing T with
  | nil => exact H
  | cons c l ih =>
    have e : packedCode (c :: l) = packedThen (decode [c]) (packedCode l) := rfl
    rw [e, packedThen_eq, Bool.and_eq_true, Nat.beq_eq] at H
    rw [List.flatMap_cons]
    exact packed_append H.1 (ih H.2)

/-! ## Lines -/

/-- a block of rows `(A, B, R)` for `s = 0, 1, ...` -/
def blockOk (ok : ℤ → ℤ → ℤ → ℕ → Bool) : ℤ → List (ℤ × ℤ × ℕ) → Bool
  | _, [] => true
  | s, (A, B, R) :: rows => ok s A B R && blockOk ok (s + 1) rows

theorem blockOk_get {ok : ℤ → ℤ → ℤ → ℕ → Bool} {s : ℤ} {rows : List (ℤ × ℤ × ℕ)} (H : blockOk ok s rows = true) {i : ℕ} {A B : ℤ} {R : ℕ}
    (hi : rows[i]? = some (A, B, R)) : ok (s + i) A B R = true := by
  induction rows generalizing s i with
  | nil => simp at hi
  | cons r rows ih =>
    obtain ⟨A', B', R'⟩ := r
    simp only [blockOk, Bool.and_eq_true] at H
    cases i with
    | zero =>
      simp only [List.getElem?_cons_zero, Option.some.injEq, Prod.mk.injEq] at hi
      obtain ⟨rfl, rfl, rfl⟩ := hi
      simpa using H.1
    | succ i =>
      rw [List.getElem?_cons_succ] at hi
      have := ih H.2 hi
      rw [show s + ((i + 1 : ℕ) : ℤ) = s + 1 + i by push_cast; ring]
      exact this

/-- `qiAccurate` for the terms `24 y + s` of a block of years -/
def accOk (c : ℤ) (h θ : ℕ) (s A B : ℤ) (R : ℕ) : Bool :=
  Aff.forceA (sunArg s : Aff c h θ) fun w => Aff.forceA (saLonT w) fun Z => covers (acc Z + lit 5 1) A B R

/-- `qiLow` for the terms `24 y + s` of a block of years -/
def lowOk (c : ℤ) (h θ : ℕ) (s A B : ℤ) (R : ℕ) : Bool :=
  Aff.forceA (sunArg s : Aff c h θ) fun w => covers (qiLow w + lit 5 1) A B R

variable {M : Libm} {c : ℤ} {h θ : ℕ}

theorem acc_mem (hM : M.Good) {y s A B : ℤ} {R : ℕ} (hy : |y - c| ≤ h) (hk : |s + 24 * y| ≤ 2 ^ 53)
    (H : accOk c h θ s A B R = true) : |termV M (s + 24 * y) * 1000000 - (A + B * (y - c))| ≤ R := by
  obtain ⟨-, h2⟩ := sunArg_mem (c := c) (h := h) (θ := θ) hy (int_v M hk)
  unfold accOk at H
  simp only [Aff.forceA_eq] at H
  have h3 := Encl.mul hy (Encl.saLonT hy hM h2) (Encl.int hy 36525)
  have e2 := Encl.add hy (Encl.sub hy h3 (Encl.dtT hy h3)) (Encl.ONE_THIRD hy)
  exact covers_mem hy (Encl.add hy e2 (Encl.lit hy 5 1)) H

theorem low_mem (hM : M.Good) {y s A B : ℤ} {R : ℕ} (hy : |y - c| ≤ h) (hk : |s + 24 * y| ≤ 2 ^ 53)
    (H : lowOk c h θ s A B R = true) : |lowU M (s + 24 * y) * 1000000 - (A + B * (y - c))| ≤ R := by
  obtain ⟨h2, -⟩ := sunArg_mem (c := c) (h := h) (θ := θ) hy (int_v M hk)
  unfold lowOk at H
  simp only [Aff.forceA_eq] at H
  exact covers_mem hy (Encl.add hy (Encl.qiLow hy hM h2) (Encl.lit hy 5 1)) H

/-- what is known of the instants `u (24 (Y - 2000) + s)` of the years `Y1 .. Y2` -/
def RowOf (u : ℤ → ℚ) (s : ℤ) (w : Row) (Y1 Y2 : ℕ) : Prop := ∀ Y : ℕ, Y1 ≤ Y → Y ≤ Y2 → w.Bd Y (u (24 * (Y - 2000) + s))

theorem rowOf {u : ℤ → ℚ} {ok : ℤ → ℤ → ℤ → ℕ → Bool}
    (hok : ∀ {y s A B : ℤ} {R : ℕ}, |y - c| ≤ h → |s + 24 * y| ≤ 2 ^ 53 → ok s A B R = true → |u (s + 24 * y) * 1000000 - (A + B * (y - c))| ≤ R)
    {rows : List Row} (H : blockOk ok 0 (rows.map (rowAt c)) = true)
    {i : ℕ} {w : Row} (hi : rows[i]? = some w) {Y1 Y2 : ℕ} (h1 : c + 2000 - h ≤ Y1) (h2 : (Y2 : ℤ) ≤ c + 2000 + h)
    (hb : Y2 ≤ 20000 ∧ i ≤ 24) : RowOf u i w Y1 Y2 := by
  intro Y hY1 hY2
  have e1 : (rows.map (rowAt c))[i]? = some (rowAt c w) := by rw [List.getElem?_map, hi]; rfl
  have e2 := blockOk_get H (i := i) (A := (rowAt c w).1) (B := (rowAt c w).2.1) (R := (rowAt c w).2.2) e1
  have e3 := hok (y := (Y : ℤ) - 2000) (s := 0 + i) (by rw [abs_le]; constructor <;> omega)
    (by rw [abs_le]; constructor <;> omega) e2
  have e4 : (0 : ℤ) + i + 24 * ((Y : ℤ) - 2000) = 24 * (Y - 2000) + i := by ring
  rw [e4] at e3
  unfold Row.Bd
  simp only [rowAt, Int.ofNat_eq_natCast] at e3
  push_cast at e3
  refine le_trans (le_of_eq ?_) e3
  congr 1
  ring

/-! ## Single days -/

/-- term `n` is on day `N`, by the series used from 1645 to 1960 -/
def qiPointOk (n N : ℤ) : Bool := Aff.forceA (qiArg (Aff.var n 0)) fun w => floorIs (qiLow w + lit 5 1 : Aff 0 0 0) N

/-- new moon `k` is on day `N`, by the series used from 619 to 1960 -/
def shuoPointOk (k N : ℤ) : Bool := Aff.forceA (shuoArg (Aff.var k 0)) fun w => floorIs (shuoLow w + lit 5 1 : Aff 0 0 0) N

theorem var_encl {n : ℤ} (hk : |n| ≤ 2 ^ 53) : Encl 0 (Aff.var n 0 : Aff 0 0 0) (int n : Fl M) := by
  have := Moon.var_mem (c := 0) (h := 0) (θ := 0) 0 n 0
  show Aff.Mem 0 _ _
  rw [int_v M hk]
  simpa using this

theorem qiPoint_mem (hM : M.Good) {n N : ℤ} (hk : |n| ≤ 2 ^ 53) (H : qiPointOk n N = true) : ⌊lowU M n⌋ = N := by
  have h0 : |(0 : ℤ) - 0| ≤ ((0 : ℕ) : ℤ) := by simp
  unfold qiPointOk at H
  rw [Aff.forceA_eq] at H
  exact floorIs_mem h0 (Encl.add h0 (Encl.qiLow h0 hM (Encl.qiArg h0 (var_encl hk))) (Encl.lit h0 5 1)) H

theorem shuoPoint_mem (hM : M.Good) {k N : ℤ} (hk : |k| ≤ 2 ^ 53) (H : shuoPointOk k N = true) : ⌊lowM M k⌋ = N := by
  have h0 : |(0 : ℤ) - 0| ≤ ((0 : ℕ) : ℤ) := by simp
  unfold shuoPointOk at H
  rw [Aff.forceA_eq] at H
  exact floorIs_mem h0 (Encl.add h0 (Encl.shuoLow h0 hM (Encl.shuoArg h0 (var_encl hk))) (Encl.lit h0 5 1)) H

/-- term `24 (Y - 2000) + s` is on Julian day `N`: the row says so, or the single day -/
def dayOk (w : Row) (Y s N : ℕ) : Bool :=
  (Nat.ble w.r w.a && Nat.beq (w.lo Y) N && Nat.beq (w.hi Y) N) || qiPointOk (24 * (Int.ofNat Y - 2000) + Int.ofNat s) (Int.ofNat N - 2451545)

theorem dayOk_mem (hM : M.Good) {w : Row} {Y1 Y2 Y s N : ℕ} (hw : RowOf (lowU M) s w Y1 Y2) (h1 : Y1 ≤ Y) (h2 : Y ≤ Y2)
    (hb : Y ≤ 20000 ∧ s ≤ 24) (H : dayOk w Y s N = true) : ⌊lowU M (24 * (Y - 2000) + s)⌋ + 2451545 = N := by
  unfold dayOk at H
  simp only [Bool.or_eq_true, Bool.and_eq_true, Nat.ble_eq] at H
  rcases H with ⟨⟨a, b⟩, c⟩ | H
  · have l := (hw Y h1 h2).lo a
    have r := (hw Y h1 h2).hi
    rw [Nat.eq_of_beq_eq_true b] at l
    rw [Nat.eq_of_beq_eq_true c] at r
    omega
  · have := qiPoint_mem hM (by rw [abs_le]; constructor <;> simp only [Int.ofNat_eq_natCast] <;> omega) H
    simp only [Int.ofNat_eq_natCast] at this
    omega

end Low
