import Verif.Proof.Closure

/-! # Bounds for the new moons of a block of months

`msaLonT` and `msaLonT2` take Newton steps `t + (w - F t) / v`.  On a block of times `t` the function `F` is a straight
line up to a bounded error, so a step brings `t` to the line `τ` on which the linear part of `F` equals `w`. -/

open ShouXing FloatLike Aff0

namespace Moon

/-- the function in the step of `msaLonT2` (`lunar_python/util/ShouXingUtil.py` 536-537) -/
def nT2 {α : Type} [FloatLike α] (t : α) : α :=
  mLon t 20 - (lit 48950632 7 + lit 6283319653318 10 * t + lit 5297 9 * (t * t) +
    lit 334166 7 * cos (lit 4669257 6 + lit 628307585 6 * t) + lit 2061 7 * cos (lit 267823 5 + lit 628307585 6 * t) * t +
    lit 349 6 * cos (lit 46261 4 + lit 125661517 5 * t) - lit 205 1 / SECOND_PER_RAD)

/-- the velocity in the step of `msaLonT2` (`lunar_python/util/ShouXingUtil.py` 538) -/
def vT2 {α : Type} [FloatLike α] (t : α) : α :=
  lit 777138 2 - int 914 * sin (lit 7848 4 + lit 8328691425 6 * t + lit 1523 7 * (t * t)) -
    int 179 * sin (lit 2543 3 + lit 155427543 4 * t) - int 160 * sin (lit 1874 4 + lit 72140629 4 * t)

/-- the start of `msaLonT` and `msaLonT2` (`lunar_python/util/ShouXingUtil.py` 515, 533) -/
def t0 {α : Type} [FloatLike α] (w : α) : α := (w + lit 108472 5) / lit 777137714500204 11

/-- the first correction of `msaLonT2` (`lunar_python/util/ShouXingUtil.py` 535) -/
def t1 {α : Type} [FloatLike α] (t : α) : α :=
  t - (lit (-3309) 8 * (t * t) + lit 10976 5 * cos (lit 784758 6 + lit 83286914246 7 * t + lit 152292 9 * (t * t)) +
    lit 2224 5 * cos (lit 18740 5 + lit 72140628654 7 * t - lit 21848 8 * (t * t)) -
    lit 3342 5 * cos (lit 4669257 6 + lit 628307585 6 * t)) / lit 777137714500204 11

theorem msaLonT2_eq {α : Type} [FloatLike α] (w : α) : msaLonT2 w = t1 (t0 w) + (w - nT2 (t1 (t0 w))) / vT2 (t1 (t0 w)) := rfl

/-! ## One step -/

/-- the three roundings of a step -/
theorem step_rnd {t w F v : ℚ} (ht : |t| ≤ 100) (hx : |w - F| ≤ 100) (hv : 1000 ≤ v) :
    |F64.add t (F64.div (F64.sub w F) v) - (t + (w - F) / v)| * wq ≤ 1000000 := by
  have v0 : 0 < v := by linarith
  have h1 : |F64.sub w F - (w - F)| ≤ 100 / 2 ^ 53 := F64.abs_rnd_sub_le hx
  have h2 : |F64.sub w F| ≤ 101 := by
    have := abs_add_le (F64.sub w F - (w - F)) (w - F)
    rw [sub_add_cancel] at this
    linarith [(by norm_num : (100 : ℚ) / 2 ^ 53 ≤ 1)]
  have h3 : |F64.sub w F / v| ≤ 1 := by
    rw [abs_div, abs_of_pos v0, div_le_one v0]; linarith
  have h4 : |F64.div (F64.sub w F) v - F64.sub w F / v| ≤ 1 / 2 ^ 53 := F64.abs_rnd_sub_le h3
  have h5 : |F64.div (F64.sub w F) v| ≤ 2 := by
    have := abs_add_le (F64.div (F64.sub w F) v - F64.sub w F / v) (F64.sub w F / v)
    rw [sub_add_cancel] at this
    linarith [(by norm_num : (1 : ℚ) / 2 ^ 53 ≤ 1)]
  have h6 : |t + F64.div (F64.sub w F) v| ≤ 102 := (abs_add_le _ _).trans (by linarith)
  have h7 : |F64.add t (F64.div (F64.sub w F) v) - (t + F64.div (F64.sub w F) v)| ≤ 102 / 2 ^ 53 := F64.abs_rnd_sub_le h6
  have h8 : |F64.sub w F / v - (w - F) / v| ≤ 100 / 2 ^ 53 := by
    rw [← sub_div, abs_div, abs_of_pos v0]
    exact (div_le_self (abs_nonneg _) (by linarith)).trans h1
  have h9 : |F64.add t (F64.div (F64.sub w F) v) - (t + (w - F) / v)| ≤ 203 / 2 ^ 53 := by
    have e : F64.add t (F64.div (F64.sub w F) v) - (t + (w - F) / v) =
      (F64.add t (F64.div (F64.sub w F) v) - (t + F64.div (F64.sub w F) v)) +
      ((F64.div (F64.sub w F) v - F64.sub w F / v) + (F64.sub w F / v - (w - F) / v)) := by ring
    rw [e]
    refine (abs_add_le _ _).trans ((add_le_add le_rfl (abs_add_le _ _)).trans ?_)
    have : (203 : ℚ) / 2 ^ 53 = 102 / 2 ^ 53 + (1 / 2 ^ 53 + 100 / 2 ^ 53) := by norm_num
    linarith
  calc _ ≤ 203 / 2 ^ 53 * wq := mul_le_mul_of_nonneg_right h9 wq_pos.le
    _ ≤ _ := by norm_num [wq]

/-- the step without roundings: `b` is the slope of `F`, `τ` the line -/
theorem step_exact {t w F v τ L b δ ε R g v1 : ℚ} (ht : |t - τ| ≤ δ) (hw : |w - L| ≤ ε) (hF : |F - (L + b * (t - τ))| ≤ R)
    (hg : |v - b| ≤ g) (hv1 : 0 < v1) (hv : v1 ≤ v) : |t + (w - F) / v - τ| ≤ (δ * g + (ε + R)) / v1 := by
  have v0 : 0 < v := by linarith
  have e : t + (w - F) / v - τ = ((t - τ) * (v - b) + ((w - L) - (F - (L + b * (t - τ))))) / v := by field_simp; ring
  rw [e, abs_div, abs_of_pos v0]
  have h1 : |(t - τ) * (v - b) + ((w - L) - (F - (L + b * (t - τ))))| ≤ δ * g + (ε + R) := by
    refine (abs_add_le _ _).trans (add_le_add ?_ ((abs_sub _ _).trans (add_le_add hw hF)))
    rw [abs_mul]
    exact mul_le_mul ht hg (abs_nonneg _) ((abs_nonneg _).trans ht)
  have n0 : 0 ≤ δ * g + (ε + R) := (abs_nonneg _).trans h1
  gcongr

/-- ten thousand million: the unit of `t` in the blocks is `TU / W` centuries -/
def TU : ℤ := 10000000000

theorem nabs (x : ℤ) : ((x.natAbs : ℕ) : ℚ) = |(x : ℚ)| := by rw [Nat.cast_natAbs, Int.cast_abs]

/-- one step: the distance from the line `τ` afterwards, and whether the bounds hold.  `w` is enclosed for `k`, `F` and `V`
for `t = TU n / W`. -/
def step {kc : ℤ} {kh : ℕ} {c : ℤ} {h θ θ' : ℕ} (ta tb : ℤ) (w : Aff kc kh θ) (F V : Aff c h θ') (d : ℕ) : ℕ × Bool :=
  forceN ((V.a - F.b * 1000000000).natAbs + Aff.spread V + F.b.natAbs) fun g =>
  forceN ((((w.a - F.a) * TU - F.b * (ta - c * TU)).natAbs + (w.b * TU - F.b * tb).natAbs * kh) / 10000000000 + 1 +
    w.r + F.r + F.b.natAbs) fun e =>
  forceN (V.a - Int.ofNat (Aff.spread V)).toNat fun v =>
  ((d * g + e * W) / v + 2000000,
    w.ok && F.ok && V.ok && Nat.ble (1000 * W) v && Nat.ble (e * 10000000000 + d * F.b.natAbs) (1000000000000 * W) &&
      Nat.ble (ta.natAbs + tb.natAbs * kh + d) (100 * W))

theorem step_mem {kc : ℤ} {kh : ℕ} {c : ℤ} {h θ θ' : ℕ} {M : Libm} {ta tb k n : ℤ} {w : Aff kc kh θ} {F V : Aff c h θ'} {d : ℕ}
    (hk : |k - kc| ≤ kh) (hn : |n - c| ≤ h) {n' : ℤ} (hn' : |n' - c| ≤ h) {t x f v : Fl M} (ht : |t.v * wq - (ta + tb * (k - kc))| ≤ d)
    (hnt : |t.v * wq - TU * n| ≤ TU) (hw : Encl k w x) (hF : Encl n F f) (hV : Encl n' V v) (ok : (step ta tb w F V d).2 = true) :
    |(t + (x - f) / v).v * wq - (ta + tb * (k - kc))| ≤ (step ta tb w F V d).1 := by
  unfold step at ok ⊢
  simp only [forceN_eq] at ok ⊢
  set g := (V.a - F.b * 1000000000).natAbs + Aff.spread V + F.b.natAbs with hg
  set e1 := ((w.a - F.a) * TU - F.b * (ta - c * TU)).natAbs + (w.b * TU - F.b * tb).natAbs * kh with he1
  set e := e1 / 10000000000 + 1 + w.r + F.r + F.b.natAbs with he
  set v1 := (V.a - Int.ofNat (Aff.spread V)).toNat with hv1
  simp only [Bool.and_eq_true, Nat.ble_eq] at ok
  obtain ⟨⟨⟨⟨⟨o1, o2⟩, o3⟩, o4⟩, o5⟩, o6⟩ := ok
  have hwq := wq_pos
  have hTU : (TU : ℚ) = 10000000000 := by norm_num [TU]
  have W1 := W_cast
  -- the enclosures as inequalities of rationals
  have a1 := hw o1
  have a2 := hF o2
  have a3 := Aff.spread_le hn' hV o3
  rw [hTU] at hnt
  have hd : |(k : ℚ) - kc| ≤ kh := by exact_mod_cast hk
  set κ : ℚ := (k : ℚ) - kc with hκ
  set τ : ℚ := (ta + tb * κ) / wq with hτ
  set b : ℚ := (F.b : ℚ) / 10000000000 with hb
  set L : ℚ := (F.a + b * (τ * wq - c * 10000000000)) / wq with hL
  have b1 : |t.v - τ| ≤ d / wq := by
    rw [show t.v - τ = (t.v * wq - (ta + tb * κ)) / wq by rw [hτ]; field_simp, abs_div, abs_of_pos hwq]
    gcongr
  have hFb : |(F.b : ℚ)| = (F.b.natAbs : ℚ) := by rw [Nat.cast_natAbs, Int.cast_abs]
  have b2 : |f.v - (L + b * (t.v - τ))| ≤ (F.r + F.b.natAbs) / wq := by
    have : f.v - (L + b * (t.v - τ)) = ((f.v * wq - (F.a + F.b * (n - c))) + F.b * ((n : ℚ) - t.v * wq / 10000000000)) / wq := by
      rw [hL, hb]; field_simp; ring
    rw [this, abs_div, abs_of_pos hwq]
    gcongr
    refine (abs_add_le _ _).trans (add_le_add a2 ?_)
    rw [abs_mul, hFb]
    refine mul_le_of_le_one_right (by positivity) ?_
    rw [show (n : ℚ) - t.v * wq / 10000000000 = -((t.v * wq - 10000000000 * n) / 10000000000) by ring, abs_neg, abs_div,
      abs_of_pos (by norm_num : (0 : ℚ) < 10000000000), div_le_one (by norm_num)]
    exact hnt
  have b3 : |x.v - L| ≤ (e1 / 10000000000 + w.r) / wq := by
    have : x.v - L = ((x.v * wq - (w.a + w.b * κ)) +
        (((w.a - F.a) * 10000000000 - F.b * (ta - c * 10000000000)) + (w.b * 10000000000 - F.b * tb) * κ) / 10000000000) / wq := by
      rw [hL, hτ, hb]; field_simp; ring
    rw [this, abs_div, abs_of_pos hwq]
    gcongr
    refine (abs_add_le _ _).trans ?_
    rw [add_comm ((e1 : ℚ) / 10000000000)]
    refine add_le_add a1 ?_
    rw [abs_div, abs_of_pos (by norm_num : (0 : ℚ) < 10000000000)]
    gcongr
    rw [he1]
    rw [Nat.cast_add, Nat.cast_mul, nabs, nabs]
    push_cast
    rw [hTU]
    refine (abs_add_le _ _).trans (add_le_add le_rfl ?_)
    rw [abs_mul]
    gcongr
  have v1q : ((v1 : ℕ) : ℚ) ≤ v.v * wq := by
    have h1 := (abs_le.1 a3).1
    have hpos : 1000 * W ≤ v1 := o4
    have h2 : (v1 : ℤ) = V.a - Aff.spread V := by
      have hWp : 0 < W := by decide
      have : 0 < v1 := by omega
      rw [hv1] at this ⊢
      rw [Int.ofNat_eq_natCast] at this ⊢
      omega
    have h3 : (v1 : ℚ) = V.a - Aff.spread V := by exact_mod_cast h2
    linarith
  have v1k : 1000 * wq ≤ (v1 : ℚ) := by rw [← W1]; exact_mod_cast o4
  have b4 : |v.v - b| ≤ g / wq := by
    have : v.v - b = ((v.v * wq - V.a) + (V.a - F.b * 1000000000) + (F.b * 1000000000 - F.b * wq / 10000000000)) / wq := by
      rw [hb]; field_simp; ring
    rw [this, abs_div, abs_of_pos hwq]
    gcongr
    have h1 : |(F.b : ℚ) * 1000000000 - F.b * wq / 10000000000| ≤ F.b.natAbs := by
      rw [show (F.b : ℚ) * 1000000000 - F.b * wq / 10000000000 = F.b * (1000000000 - wq / 10000000000) by ring, abs_mul, hFb]
      refine mul_le_of_le_one_right (by positivity) ?_
      rw [abs_le]; norm_num [wq]
    rw [hg, Nat.cast_add, Nat.cast_add, nabs (V.a - _)]
    refine (abs_add_le _ _).trans ((add_le_add (abs_add_le _ _) h1).trans ?_)
    push_cast
    linarith
  have v1q0 : (0 : ℚ) < v1 := by linarith
  have ex := step_exact b1 b3 b2 b4 (v1 := (v1 : ℚ) / wq) (div_pos v1q0 hwq) (by rw [div_le_iff₀ hwq]; exact v1q)
  -- sizes
  have s1 : |t.v| ≤ 100 := by
    have h1 : |t.v * wq| ≤ 100 * wq := by
      have h2 : |(ta : ℚ) + tb * κ| ≤ ta.natAbs + tb.natAbs * kh := by
        refine (abs_add_le _ _).trans ?_
        rw [abs_mul, Nat.cast_natAbs, Nat.cast_natAbs, Int.cast_abs, Int.cast_abs]
        gcongr
      have h3 : ((ta.natAbs + tb.natAbs * kh + d : ℕ) : ℚ) ≤ 100 * wq := by rw [← W1]; exact_mod_cast o6
      rw [Nat.cast_add, Nat.cast_add, Nat.cast_mul] at h3
      have h4 := abs_add_le (t.v * wq - (ta + tb * κ)) (ta + tb * κ)
      rw [sub_add_cancel] at h4
      linarith
    rw [abs_mul, abs_of_pos hwq] at h1
    exact le_of_mul_le_mul_right h1 hwq
  have eq : (e1 : ℚ) / 10000000000 ≤ (e1 / 10000000000 : ℕ) + 1 := Aff.ndiv_le _ _ (by norm_num)
  have heq : (e : ℚ) = (e1 / 10000000000 : ℕ) + 1 + w.r + F.r + F.b.natAbs := by rw [he]; push_cast; ring
  have s2 : |x.v - f.v| ≤ 100 := by
    have h1 : x.v - f.v = (x.v - L) - (f.v - (L + b * (t.v - τ))) - b * (t.v - τ) := by ring
    have h2 : |b * (t.v - τ)| ≤ F.b.natAbs / 10000000000 * (d / wq) := by
      rw [abs_mul, hb, abs_div, hFb, abs_of_pos (by norm_num : (0 : ℚ) < 10000000000)]
      gcongr
    have h3 : ((e * 10000000000 + d * F.b.natAbs : ℕ) : ℚ) ≤ 1000000000000 * wq := by rw [← W1]; exact_mod_cast o5
    have h4 : (e1 / 10000000000 + w.r) / wq + (F.r + F.b.natAbs) / wq + F.b.natAbs / 10000000000 * (d / wq) ≤ 100 := by
      rw [show ((e1 : ℚ) / 10000000000 + w.r) / wq + (F.r + F.b.natAbs) / wq + F.b.natAbs / 10000000000 * (d / wq) =
        (e1 / 10000000000 + w.r + F.r + F.b.natAbs + d * F.b.natAbs / 10000000000) / wq by ring, div_le_iff₀ hwq]
      rw [Nat.cast_add, Nat.cast_mul, Nat.cast_mul, heq] at h3
      push_cast at h3
      linarith
    rw [h1]
    refine (abs_sub _ _).trans ((add_le_add (abs_sub _ _) le_rfl).trans ?_)
    linarith
  have rn := step_rnd s1 s2 (v := v.v) (by
    have : 1000 * wq ≤ v.v * wq := v1k.trans v1q
    exact le_of_mul_le_mul_right this hwq)
  have fin : (t + (x - f) / v).v = F64.add t.v (F64.div (F64.sub x.v f.v) v.v) := rfl
  rw [fin]
  have split : F64.add t.v (F64.div (F64.sub x.v f.v) v.v) * wq - (ta + tb * κ) =
    (F64.add t.v (F64.div (F64.sub x.v f.v) v.v) - (t.v + (x.v - f.v) / v.v)) * wq + (t.v + (x.v - f.v) / v.v - τ) * wq := by
    rw [hτ]; field_simp; ring
  rw [split]
  refine (abs_add_le _ _).trans ?_
  rw [abs_mul, abs_mul, abs_of_pos hwq]
  have v1p : 0 < v1 := by
    have hWp : 0 < W := by decide
    omega
  have dv := Aff.ndiv_le (d * g + e * W) v1 v1p
  rw [Nat.cast_add, Nat.cast_mul, Nat.cast_mul, W1] at dv
  have main : |t.v + (x.v - f.v) / v.v - τ| * wq ≤ (d * g + e * wq) / v1 := by
    refine (mul_le_mul_of_nonneg_right ex hwq.le).trans ?_
    rw [show ((d : ℚ) / wq * (g / wq) + ((e1 / 10000000000 + w.r) / wq + (F.r + F.b.natAbs) / wq)) / (v1 / wq) * wq =
      (d * g + (e1 / 10000000000 + w.r + F.r + F.b.natAbs) * wq) / v1 by field_simp; ring]
    gcongr
    rw [heq]
    linarith
  rw [Nat.cast_add]
  generalize ((d * g + e * W) / v1 : ℕ) = Q at dv ⊢
  push_cast
  linarith

/-! ## A block -/

/-- the variable of a block of times: `t = TU n / W`, to within `TU / W` -/
def tvar {c : ℤ} {h θ : ℕ} : Aff c h θ := ⟨c * TU, TU, 10000000000, true⟩

/-- a double of a block of times is enclosed by `tvar` -/
theorem tvar_mem {c : ℤ} {h θ : ℕ} {M : Libm} {t : Fl M} (ht : |t.v * wq - c * TU| ≤ h * TU) :
    ∃ n : ℤ, |n - c| ≤ h ∧ |t.v * wq - TU * n| ≤ TU ∧ Encl n (tvar : Aff c h θ) t := by
  have hTU : (TU : ℚ) = 10000000000 := by norm_num [TU]
  have h0 : (0 : ℚ) < TU := by rw [hTU]; norm_num
  have h1 := Int.floor_le (t.v * wq / TU)
  have h2 := Int.lt_floor_add_one (t.v * wq / TU)
  have key : |t.v * wq - TU * (⌊t.v * wq / TU⌋ : ℤ)| ≤ TU := by
    rw [le_div_iff₀ h0] at h1
    rw [div_lt_iff₀ h0] at h2
    rw [abs_le]; constructor <;> linarith
  obtain ⟨h3, h4⟩ := abs_le.1 ht
  refine ⟨⌊t.v * wq / TU⌋, ?_, key, ?_⟩
  · rw [abs_le]
    constructor
    · have : c - (h : ℤ) ≤ ⌊t.v * wq / TU⌋ := by
        rw [Int.le_floor, le_div_iff₀ h0]; push_cast; linarith
      omega
    · have : ⌊t.v * wq / TU⌋ < c + (h : ℤ) + 1 := by
        rw [Int.floor_lt, div_lt_iff₀ h0]; push_cast; linarith
      omega
  · intro _
    show |t.v * wq - (((c * TU : ℤ) : ℚ) + (TU : ℤ) * ((⌊t.v * wq / TU⌋ : ℤ) - c))| ≤ ((10000000000 : ℕ) : ℚ)
    rw [show t.v * wq - (((c * TU : ℤ) : ℚ) + (TU : ℤ) * ((⌊t.v * wq / TU⌋ : ℤ) - c)) = t.v * wq - TU * (⌊t.v * wq / TU⌋ : ℤ) by
      push_cast; ring]
    exact key.trans (by rw [hTU]; norm_num)

/-- the times within `d` of the line lie in the block -/
def inside (c : ℤ) (h : ℕ) (kh : ℕ) (ta tb : ℤ) (d : ℕ) : Bool :=
  Nat.ble ((ta - c * TU).natAbs + tb.natAbs * kh + d) (h * 10000000000)

theorem inside_mem {kc c : ℤ} {kh h θ : ℕ} {M : Libm} {t : Fl M} {ta tb k : ℤ} {d : ℕ} (hk : |k - kc| ≤ kh)
    (ht : |t.v * wq - (ta + tb * (k - kc))| ≤ d) (ok : inside c h kh ta tb d = true) :
    ∃ n : ℤ, |n - c| ≤ h ∧ |t.v * wq - TU * n| ≤ TU ∧ Encl n (tvar : Aff c h θ) t := by
  apply tvar_mem
  have hTU : (TU : ℚ) = ((10000000000 : ℕ) : ℚ) := by norm_num [TU]
  unfold inside at ok
  rw [Nat.ble_eq] at ok
  have o : (((ta - c * TU).natAbs + tb.natAbs * kh + d : ℕ) : ℚ) ≤ ((h * 10000000000 : ℕ) : ℚ) := by exact_mod_cast ok
  rw [Nat.cast_add, Nat.cast_add, Nat.cast_mul, Nat.cast_mul, nabs, nabs, ← hTU] at o
  push_cast at o
  have hd : |(k : ℚ) - kc| ≤ kh := by exact_mod_cast hk
  have h1 : |(tb : ℚ) * (k - kc)| ≤ |(tb : ℚ)| * kh := by rw [abs_mul]; gcongr
  calc |t.v * wq - c * TU| = |(t.v * wq - (ta + tb * (k - kc))) + ((ta - c * TU) + tb * (k - kc))| := by ring_nf
    _ ≤ |t.v * wq - (ta + tb * (k - kc))| + |(ta - c * TU) + (tb : ℚ) * (k - kc)| := abs_add_le _ _
    _ ≤ d + (|(ta : ℚ) - c * TU| + |(tb : ℚ)| * kh) := by
      exact add_le_add ht ((abs_add_le _ _).trans (add_le_add le_rfl h1))
    _ ≤ _ := by linarith

/-- distance of an enclosure from the line -/
def dist {kc : ℤ} {kh θ : ℕ} (ta tb : ℤ) (f : Aff kc kh θ) : ℕ := (f.a - ta).natAbs + (f.b - tb).natAbs * kh + f.r

theorem dist_mem {kc : ℤ} {kh θ : ℕ} {M : Libm} {ta tb k : ℤ} {f : Aff kc kh θ} {t : Fl M} (hk : |k - kc| ≤ kh)
    (hf : Encl k f t) (ok : f.ok = true) : |t.v * wq - (ta + tb * (k - kc))| ≤ dist ta tb f := by
  have h1 := hf ok
  have hd : |(k : ℚ) - kc| ≤ kh := by exact_mod_cast hk
  unfold dist
  rw [Nat.cast_add, Nat.cast_add, Nat.cast_mul, nabs, nabs]
  push_cast
  have h2 : |((f.b : ℚ) - tb) * (k - kc)| ≤ |(f.b : ℚ) - tb| * kh := by rw [abs_mul]; gcongr
  calc |t.v * wq - (ta + tb * (k - kc))| = |((f.a - ta) + ((f.b : ℚ) - tb) * (k - kc)) + (t.v * wq - (f.a + f.b * (k - kc)))| := by ring_nf
    _ ≤ _ := abs_add_le _ _
    _ ≤ _ := add_le_add ((abs_add_le _ _).trans (add_le_add le_rfl h2)) h1

/-- the functions of a block of times -/
structure Block (c : ℤ) (h θ : ℕ) where
  (F3 F20 F60 V N2 V2 : Aff c h θ)

/-- the functions of a block of times -/
def block (c : ℤ) (h θ : ℕ) : Block c h θ :=
  ⟨msaLon tvar 3 3, msaLon tvar 20 10, msaLon tvar (-1) 60, mv tvar - ev tvar, nT2 tvar, vT2 tvar⟩

/-- `msaLonT` for the months of a block -/
def full {kc : ℤ} {kh θk : ℕ} {c : ℤ} {h θ : ℕ} (ta tb : ℤ) (w : Aff kc kh θk) (B : Block c h θ) : Aff kc kh θk :=
  Aff.forceA (t0 w) fun T0 =>
  forceN (dist ta tb T0) fun d0 =>
  let s1 := step ta tb w B.F3 (lit 777137714500204 11) d0
  forceN s1.1 fun d1 =>
  let s2 := step ta tb w B.F20 B.V d1
  forceN s2.1 fun d2 =>
  let s3 := step ta tb w B.F60 B.V d2
  ⟨ta, tb, s3.1, T0.ok && s1.2 && s2.2 && s3.2 && inside c h kh ta tb d0 && inside c h kh ta tb d1 && inside c h kh ta tb d2⟩

/-- `msaLonT2` for the months of a block -/
def short {kc : ℤ} {kh θk : ℕ} {c : ℤ} {h θ : ℕ} (ta tb : ℤ) (w : Aff kc kh θk) (B : Block c h θ) : Aff kc kh θk :=
  Aff.forceA (t1 (t0 w)) fun T1 =>
  forceN (dist ta tb T1) fun d0 =>
  let s1 := step ta tb w B.N2 B.V2 d0
  ⟨ta, tb, s1.1, T1.ok && s1.2 && inside c h kh ta tb d0⟩

section sound
variable {kc : ℤ} {kh θk : ℕ} {c : ℤ} {h θ : ℕ} {M : Libm} {ta tb k : ℤ} {w : Aff kc kh θk} {x : Fl M}
variable (hk : |k - kc| ≤ kh) (hM : M.Good) (hw : Encl k w x)
include hk hM hw

theorem t0_mem : Encl k (t0 w) (t0 x) := by unfold t0; encl

theorem t1_mem : Encl k (t1 w) (t1 x) := by unfold t1; encl

theorem nT2_mem : Encl k (nT2 w) (nT2 x) := by
  have h1 := Encl.mLon hk hM 20 hw
  have h2 := Encl.SECOND_PER_RAD hk (θ := θk) (M := M)
  unfold nT2; encl

theorem vT2_mem : Encl k (vT2 w) (vT2 x) := by unfold vT2; encl

theorem full_mem : Encl k (full ta tb w (block c h θ)) (msaLonT x) := by
  unfold full
  simp only [Aff.forceA_eq, forceN_eq]
  generalize hs1 : step ta tb w (block c h θ).F3 (lit 777137714500204 11) (dist ta tb (t0 w)) = s1
  generalize hs2 : step ta tb w (block c h θ).F20 (block c h θ).V s1.1 = s2
  generalize hs3 : step ta tb w (block c h θ).F60 (block c h θ).V s2.1 = s3
  intro ok
  simp only [Bool.and_eq_true] at ok
  obtain ⟨⟨⟨⟨⟨⟨o0, o1⟩, o2⟩, o3⟩, i0⟩, i1⟩, i2⟩ := ok
  have m0 := dist_mem (ta := ta) (tb := tb) hk (t0_mem hk hM hw) o0
  obtain ⟨n0, a0, b0, e0⟩ := inside_mem (θ := θ) hk m0 i0
  have m1 := step_mem hk a0 a0 m0 b0 hw (Encl.msaLon a0 hM 3 3 e0) (Encl.lit a0 777137714500204 11)
    (V := lit 777137714500204 11) (F := (block c h θ).F3) (by rw [hs1]; exact o1)
  rw [hs1] at m1
  obtain ⟨n1, a1, b1, e1⟩ := inside_mem (θ := θ) hk m1 i1
  have hV := Encl.sub a1 (Encl.mv a1 hM e1) (Encl.ev a1 hM e1)
  have m2 := step_mem hk a1 a1 m1 b1 hw (Encl.msaLon a1 hM 20 10 e1) hV (V := (block c h θ).V) (F := (block c h θ).F20)
    (by rw [hs2]; exact o2)
  rw [hs2] at m2
  obtain ⟨n2, a2, b2, e2⟩ := inside_mem (θ := θ) hk m2 i2
  have m3 := step_mem hk a2 a1 m2 b2 hw (Encl.msaLon a2 hM (-1) 60 e2) hV (V := (block c h θ).V) (F := (block c h θ).F60)
    (by rw [hs3]; exact o3)
  rw [hs3] at m3
  exact m3

theorem short_mem : Encl k (short ta tb w (block c h θ)) (msaLonT2 x) := by
  rw [msaLonT2_eq]
  unfold short
  simp only [Aff.forceA_eq, forceN_eq]
  generalize hs1 : step ta tb w (block c h θ).N2 (block c h θ).V2 (dist ta tb (t1 (t0 w))) = s1
  intro ok
  simp only [Bool.and_eq_true] at ok
  obtain ⟨⟨o0, o1⟩, i0⟩ := ok
  have m0 := dist_mem (ta := ta) (tb := tb) hk (t1_mem hk hM (t0_mem hk hM hw)) o0
  obtain ⟨n0, a0, b0, e0⟩ := inside_mem (θ := θ) hk m0 i0
  have m1 := step_mem hk a0 a0 m0 b0 hw (nT2_mem a0 hM e0) (vT2_mem a0 hM e0)
    (F := (block c h θ).N2) (V := (block c h θ).V2) (by rw [hs1]; exact o1)
  rw [hs1] at m1
  exact m1

end sound

/-- the end of `qiHigh` and `shuoHigh` (`lunar_python/util/ShouXingUtil.py` 544-549, 562-567), from the two solutions; `m` seconds
from midnight the better one is used -/
def fin {α : Type} [FloatLike α] (m : ℤ) (t z : α) : α :=
  let t := t * int 36525
  let t := t - dtT t + ONE_THIRD
  let v := frac (t + lit 5 1) * SECOND_PER_DAY
  let high := z * int 36525 - dtT t + ONE_THIRD
  sel v (int m) high (sel (int (86400 - m)) v high t)

/-- `shuoHigh` for the months of a block -/
def moon (kc : ℤ) (kh θk : ℕ) (c : ℤ) (h θ : ℕ) : Aff kc kh θk :=
  Aff.forceA (shuoArg (Aff.var 0 1)) fun w =>
  let B := block c h θ
  Aff.forceA B.F3 fun F3 =>
  Aff.forceA B.F20 fun F20 =>
  Aff.forceA B.F60 fun F60 =>
  Aff.forceA B.V fun V =>
  Aff.forceA B.N2 fun N2 =>
  Aff.forceA B.V2 fun V2 =>
  let B : Block c h θ := ⟨F3, F20, F60, V, N2, V2⟩
  forceI (c * TU + (w.a - F60.a) * TU / F60.b) fun ta =>
  forceI (w.b * TU / F60.b) fun tb =>
  Aff.forceA (full ta tb w B) fun Z =>
  Aff.forceA (short ta tb w B) fun T =>
  fin 1800 T Z

theorem var_mem {c : ℤ} {h θ : ℕ} (n p q : ℤ) : Aff.Mem n (Aff.var p q : Aff c h θ) ((p + q * n : ℤ) : ℚ) := by
  intro _
  unfold Aff.var
  have hw : ((WI : ℤ) : ℚ) = wq := by norm_num [WI, wq]
  simp only [Int.cast_mul, Int.cast_add, hw]
  rw [show ((p : ℚ) + q * n) * wq - ((p + q * c) * wq + q * wq * (n - c)) = 0 by ring]
  simp

theorem moon_mem {kc : ℤ} {kh θk : ℕ} {c : ℤ} {h θ : ℕ} {M : Libm} {k : ℤ} (hk : |k - kc| ≤ kh) (hM : M.Good) {x : Fl M}
    (hx : x.v = k) : Encl k (moon kc kh θk c h θ) (shuoHigh (shuoArg x)) := by
  unfold moon
  simp only [Aff.forceA_eq, forceI_eq]
  have h0 : Encl k (Aff.var 0 1 : Aff kc kh θk) x := by
    have := var_mem (c := kc) (h := kh) (θ := θk) k 0 1
    show Aff.Mem k _ x.v
    rw [hx]
    simpa using this
  have h1 := Encl.shuoArg hk h0
  exact Encl.high hk hM 1800 (short_mem hk hM h1) (full_mem hk hM h1)

end Moon
