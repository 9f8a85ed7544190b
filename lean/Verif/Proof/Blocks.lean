import Verif.Proof.MoonBlock

/-! # Bounds for blocks of solar terms and months, and single days

Each check below is a `Bool` that the kernel evaluates on literals; the theorem beside it says what it means for the doubles. -/

open ShouXing FloatLike Aff0

/-- the day of solar term `n` (after J2000), as `calcQi` has it from 1960 on (`lunar_python/util/ShouXingUtil.py` 626) -/
def termDay (M : Libm) (n : ℤ) : ℤ := ⌊F64.add (qiHigh (qiArg (int n)) : Fl M).v (1 / 2)⌋

/-- the instant of solar term `n`, as `qiAccurate2` has it (`lunar_python/util/ShouXingUtil.py` 652-661) -/
def termAt (M : Libm) (n : ℤ) : ℚ := (qiAccurate (int n * (PI / int 12)) : Fl M).v

/-- the day of new moon `k`, as `calcShuo` has it from 1960 on (`lunar_python/util/ShouXingUtil.py` 591) -/
def moonDay (M : Libm) (k : ℤ) : ℤ := ⌊F64.add (shuoHigh (shuoArg (int k)) : Fl M).v (1 / 2)⌋

namespace Block
variable {c : ℤ} {h θ : ℕ}

/-- the enclosure is within `(A + B (n - c) ± R) / 10 ^ 6` -/
def covers (f : Aff c h θ) (A B : ℤ) (R : ℕ) : Bool :=
  f.ok && Nat.ble ((f.a * 1000000 - A * WI).natAbs + (f.b * 1000000 - B * WI).natAbs * h + f.r * 1000000) (R * W)

theorem covers_mem {M : Libm} {n : ℤ} (hn : |n - c| ≤ h) {f : Aff c h θ} {x : Fl M} (hf : Encl n f x) {A B : ℤ} {R : ℕ}
    (H : covers f A B R = true) : |x.v * 1000000 - (A + B * (n - c))| ≤ R := by
  unfold covers at H
  simp only [Bool.and_eq_true, Nat.ble_eq] at H
  have h1 := hf H.1
  have hd : |(n : ℚ) - c| ≤ h := by exact_mod_cast hn
  have hw := wq_pos
  have h2 : (((f.a * 1000000 - A * WI).natAbs + (f.b * 1000000 - B * WI).natAbs * h + f.r * 1000000 : ℕ) : ℚ) ≤ ((R * W : ℕ) : ℚ) := by
    exact_mod_cast H.2
  rw [Nat.cast_add, Nat.cast_add, Nat.cast_mul, Nat.cast_mul, Nat.cast_mul, Moon.nabs, Moon.nabs, W_cast] at h2
  have hWI : ((WI : ℤ) : ℚ) = wq := rfl
  push_cast at h2
  rw [hWI] at h2
  have key : (x.v * 1000000 - (A + B * (n - c))) * wq = (f.a * 1000000 - A * wq) + (f.b * 1000000 - B * wq) * (n - c) +
      (x.v * wq - (f.a + f.b * (n - c))) * 1000000 := by ring
  have h3 : |(x.v * 1000000 - (A + B * (n - c))) * wq| ≤ R * wq := by
    rw [key]
    refine (abs_add_le _ _).trans ((add_le_add (abs_add_le _ _) le_rfl).trans ?_)
    rw [abs_mul ((f.b : ℚ) * 1000000 - B * wq), abs_mul _ (1000000 : ℚ), abs_of_pos (by norm_num : (0 : ℚ) < 1000000)]
    have h4 := mul_le_mul_of_nonneg_left hd (abs_nonneg ((f.b : ℚ) * 1000000 - B * wq))
    have h5 := mul_le_mul_of_nonneg_right h1 (by norm_num : (0 : ℚ) ≤ 1000000)
    linarith
  rw [abs_mul, abs_of_pos hw] at h3
  exact le_of_mul_le_mul_right h3 hw

/-- the enclosure lies in the day `N` -/
def floorIs (f : Aff c h θ) (N : ℤ) : Bool :=
  f.ok && decide (N * WI ≤ f.a - Int.ofNat (Aff.spread f)) && decide (f.a + Int.ofNat (Aff.spread f) < (N + 1) * WI)

theorem floorIs_mem {M : Libm} {n : ℤ} (hn : |n - c| ≤ h) {f : Aff c h θ} {x : Fl M} (hf : Encl n f x) {N : ℤ}
    (H : floorIs f N = true) : ⌊x.v⌋ = N := by
  unfold floorIs at H
  simp only [Bool.and_eq_true, decide_eq_true_eq, Int.ofNat_eq_natCast] at H
  obtain ⟨⟨ok, h1⟩, h2⟩ := H
  have h3 := abs_le.1 (Aff.spread_le hn hf ok)
  have hWI : ((WI : ℤ) : ℚ) = wq := rfl
  have h1' : (N : ℚ) * wq ≤ f.a - Aff.spread f := by rw [← hWI]; exact_mod_cast h1
  have h2' : (f.a : ℚ) + Aff.spread f < (N + 1) * wq := by rw [← hWI]; exact_mod_cast h2
  have hw := wq_pos
  rw [Int.floor_eq_iff]
  constructor
  · exact le_of_mul_le_mul_right (by linarith : (N : ℚ) * wq ≤ x.v * wq) hw
  · exact lt_of_mul_lt_mul_right (by linarith : x.v * wq < ((N : ℚ) + 1) * wq) hw.le

theorem int_v (M : Libm) {k : ℤ} (hk : |k| ≤ 2 ^ 53) : (int k : Fl M).v = k := by
  show F64.rnd ((k : ℚ) / 10 ^ 0) = k
  rw [pow_zero, div_one]
  exact F64.rnd_int hk

theorem half_v (M : Libm) : (lit 5 1 : Fl M).v = 1 / 2 := by
  show F64.rnd ((5 : ℤ) / 10 ^ 1) = 1 / 2
  have : ((5 : ℤ) : ℚ) / 10 ^ 1 = 1 / 2 := by norm_num
  rw [this]
  have := F64.rnd_half (n := 1) (by norm_num)
  simpa using this

theorem add_half {M : Libm} (x : Fl M) : F64.add x.v (1 / 2) = (x + lit 5 1 : Fl M).v := by
  show _ = F64.add x.v (lit 5 1 : Fl M).v
  rw [half_v]

/-! ## Solar terms -/

/-- the arguments of `qiHigh` and `qiAccurate` for the terms `24 y + s` of a block of years `y` -/
def sunArg (s : ℤ) : Aff c h θ :=
  Aff.forceA (qiArg (Aff.var s 24) : Aff c h θ) fun f => Aff.forceA (Aff.var s 24 * (PI / int 12) : Aff c h θ) fun g =>
    ⟨f.a, f.b, f.r + (f.a - g.a).natAbs + (f.b - g.b).natAbs * h + g.r, f.ok && g.ok⟩

theorem sunArg_mem {M : Libm} {y s : ℤ} (hy : |y - c| ≤ h) {x : Fl M} (hx : x.v = ((s + 24 * y : ℤ) : ℚ)) :
    Encl y (sunArg s : Aff c h θ) (qiArg x) ∧ Encl y (sunArg s : Aff c h θ) (x * (PI / int 12)) := by
  have h0 : Encl y (Aff.var s 24 : Aff c h θ) x := by
    show Aff.Mem y _ x.v
    rw [hx]
    exact Moon.var_mem y s 24
  have h1 := Encl.qiArg hy h0
  have h2 := Encl.mul hy h0 (Encl.div hy (Encl.PI hy) (Encl.int hy 12))
  unfold sunArg
  simp only [Aff.forceA_eq]
  generalize qiArg (Aff.var s 24 : Aff c h θ) = f at h1
  generalize (Aff.var s 24 : Aff c h θ) * (PI / int 12) = g at h2
  have hd : |(y : ℚ) - c| ≤ h := by exact_mod_cast hy
  constructor
  · intro ok
    simp only [Bool.and_eq_true] at ok
    refine (h1 ok.1).trans ?_
    simp only
    push_cast
    have : (0 : ℚ) ≤ (f.b - g.b).natAbs * h := by positivity
    have : (0 : ℚ) ≤ (f.a - g.a).natAbs := by positivity
    have : (0 : ℚ) ≤ g.r := by positivity
    push_cast at *
    linarith
  · intro ok
    simp only [Bool.and_eq_true] at ok
    have h3 := h2 ok.2
    simp only
    rw [Nat.cast_add, Nat.cast_add, Nat.cast_add, Nat.cast_mul, Moon.nabs, Moon.nabs]
    push_cast
    have h4 : |((g.b : ℚ) - f.b) * (y - c)| ≤ |(f.b : ℚ) - g.b| * h := by
      rw [abs_mul, abs_sub_comm]; gcongr
    have h5 := abs_sub_comm (f.a : ℚ) g.a
    have h6 : (0 : ℚ) ≤ f.r := by positivity
    generalize (x * (PI / int 12)).v * wq = X at h3 ⊢
    calc |X - (f.a + f.b * (y - c))| = |(X - (g.a + g.b * (y - c))) + ((g.a - f.a) + (g.b - f.b) * (y - c))| := by ring_nf
      _ ≤ _ := abs_add_le _ _
      _ ≤ g.r + (|(g.a : ℚ) - f.a| + |(f.b : ℚ) - g.b| * h) := add_le_add h3 ((abs_add_le _ _).trans (add_le_add le_rfl h4))
      _ ≤ _ := by linarith

/-- the last step of `qiAccurate` (`lunar_python/util/ShouXingUtil.py` 649-650) -/
def acc {α : Type} [FloatLike α] (z : α) : α :=
  let t := z * int 36525
  t - dtT t + ONE_THIRD

/-- for the terms `24 y + s` of a block of years, both `qiHigh` and `qiAccurate`, with half a day added, are within
`(A + B (y - c) ± R) / 10 ^ 6` -/
def sunOk (c : ℤ) (h θ : ℕ) (s A B : ℤ) (R : ℕ) : Bool :=
  Aff.forceA (sunArg s : Aff c h θ) fun w =>
  Aff.forceA (saLonT w) fun Z =>
  Aff.forceA (saLonT2 w) fun T =>
  covers (Moon.fin 1200 T Z + lit 5 1) A B R && covers (acc Z + lit 5 1) A B R

theorem sun_mem {M : Libm} (hM : M.Good) {y s A B : ℤ} {R : ℕ} (hy : |y - c| ≤ h) (hk : |s + 24 * y| ≤ 2 ^ 53)
    (H : sunOk c h θ s A B R = true) :
    |(qiHigh (qiArg (int (s + 24 * y))) + lit 5 1 : Fl M).v * 1000000 - (A + B * (y - c))| ≤ R ∧
    |(qiAccurate (int (s + 24 * y) * (PI / int 12)) + lit 5 1 : Fl M).v * 1000000 - (A + B * (y - c))| ≤ R := by
  obtain ⟨h1, h2⟩ := sunArg_mem (c := c) (h := h) (θ := θ) hy (int_v M hk)
  unfold sunOk at H
  simp only [Aff.forceA_eq, Bool.and_eq_true] at H
  have e1 := Encl.high hy hM 1200 (Encl.saLonT2 hy hM h1) (Encl.saLonT hy hM h1)
  have h3 := Encl.mul hy (Encl.saLonT hy hM h2) (Encl.int hy 36525)
  have e2 := Encl.add hy (Encl.sub hy h3 (Encl.dtT hy h3)) (Encl.ONE_THIRD hy)
  exact ⟨covers_mem hy (Encl.add hy e1 (Encl.lit hy 5 1)) H.1, covers_mem hy (Encl.add hy e2 (Encl.lit hy 5 1)) H.2⟩

/-- a whole block: the rows are `(A, B, R)` for `s = 0, 1, ...` -/
def sunBlockOk (c : ℤ) (h θ : ℕ) : ℤ → List (ℤ × ℤ × ℕ) → Bool
  | _, [] => true
  | s, (A, B, R) :: rows => sunOk c h θ s A B R && sunBlockOk c h θ (s + 1) rows

theorem sunBlockOk_get {s : ℤ} {rows : List (ℤ × ℤ × ℕ)} (H : sunBlockOk c h θ s rows = true) {i : ℕ} {A B : ℤ} {R : ℕ}
    (hi : rows[i]? = some (A, B, R)) : sunOk c h θ (s + i) A B R = true := by
  induction rows generalizing s i with
  | nil => simp at hi
  | cons r rows ih =>
    obtain ⟨A', B', R'⟩ := r
    simp only [sunBlockOk, Bool.and_eq_true] at H
    cases i with
    | zero =>
      simp only [List.getElem?_cons_zero, Option.some.injEq, Prod.mk.injEq] at hi
      obtain ⟨rfl, rfl, rfl⟩ := hi
      simpa using H.1
    | succ i =>
      rw [List.getElem?_cons_succ] at hi
      have := ih H.2 hi
      rw [show s + ((i + 1 : ℕ) : ℤ) = s + 1 + i by push_cast; ring]
      exact this

/-- term `24 y + s` is on day `N` -/
def sunPointOk (n N : ℤ) : Bool := floorIs (qiHigh (qiArg (Aff.var n 0)) + lit 5 1 : Aff 0 0 0) N

theorem sunPoint_mem {M : Libm} (hM : M.Good) {n N : ℤ} (hk : |n| ≤ 2 ^ 53) (H : sunPointOk n N = true) : termDay M n = N := by
  have h0 : |(0 : ℤ) - 0| ≤ ((0 : ℕ) : ℤ) := by simp
  have h1 : Encl 0 (Aff.var n 0 : Aff 0 0 0) (int n : Fl M) := by
    have := Moon.var_mem (c := 0) (h := 0) (θ := 0) 0 n 0
    show Aff.Mem 0 _ _
    rw [int_v M hk]
    simpa using this
  unfold termDay
  rw [add_half]
  exact floorIs_mem h0 (Encl.add h0 (Encl.qiHigh h0 hM (Encl.qiArg h0 h1)) (Encl.lit h0 5 1)) H

/-! ## New moons -/

/-- for the months `k` of a block, `shuoHigh` with half a day added is within `(A + B (k - kc) ± R) / 10 ^ 6` -/
def moonOk (kc : ℤ) (kh : ℕ) (tc : ℤ) (th : ℕ) (A B : ℤ) (R : ℕ) : Bool :=
  covers (Moon.moon kc kh 1000000 tc th 500000000 + lit 5 1) A B R

theorem moon_mem {M : Libm} (hM : M.Good) {kc k tc A B : ℤ} {kh th R : ℕ} (hk : |k - kc| ≤ kh) (hk' : |k| ≤ 2 ^ 53)
    (H : moonOk kc kh tc th A B R = true) : |(shuoHigh (shuoArg (int k)) + lit 5 1 : Fl M).v * 1000000 - (A + B * (k - kc))| ≤ R :=
  covers_mem hk (Encl.add hk (Moon.moon_mem hk hM (int_v M hk')) (Encl.lit hk 5 1)) H

/-- new moon `k` is on day `N` -/
def moonPointOk (k N : ℤ) : Bool := floorIs (shuoHigh (shuoArg (Aff.var k 0)) + lit 5 1 : Aff 0 0 0) N

theorem moonPoint_mem {M : Libm} (hM : M.Good) {k N : ℤ} (hk : |k| ≤ 2 ^ 53) (H : moonPointOk k N = true) : moonDay M k = N := by
  have h0 : |(0 : ℤ) - 0| ≤ ((0 : ℕ) : ℤ) := by simp
  have h1 : Encl 0 (Aff.var k 0 : Aff 0 0 0) (int k : Fl M) := by
    have := Moon.var_mem (c := 0) (h := 0) (θ := 0) 0 k 0
    show Aff.Mem 0 _ _
    rw [int_v M hk]
    simpa using this
  unfold moonDay
  rw [add_half]
  exact floorIs_mem h0 (Encl.add h0 (Encl.shuoHigh h0 hM (Encl.shuoArg h0 h1)) (Encl.lit h0 5 1)) H

end Block
