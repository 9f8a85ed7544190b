import Verif.Proof.JulianDay2

/-! `fromJulianDay`: date part (exact) and clock part (rounding to the second). -/

namespace JD
open F64 Spec Solar Cal

/-- the date computation of `fromJulianDay` in integers -/
def d1524 (d : ℤ) : ℤ :=
  (if d ≥ 2299161 then d + (1 + (4 * d - 7468865) / 146097 - (4 * d - 7468865) / 146097 / 4) else d) + 1524

def yr (d : ℤ) : ℤ := (20 * d1524 d - 2442) / 7305
def rest (d : ℤ) : ℤ := d1524 d - 1461 * yr d / 4
def mo (d : ℤ) : ℤ := 1000 * rest d / 30601

def jdDate (d : ℤ) : Date :=
  ⟨if mo d > 13 then yr d - 4715 else yr d - 4716, if mo d > 13 then mo d - 13 else mo d - 1,
    rest d - 30601 * mo d / 1000⟩

theorem d1524_bounds {d : ℤ} (h0 : 0 ≤ d) (h1 : d ≤ 5400000) : 1524 ≤ d1524 d ∧ d1524 d ≤ 5402000 := by
  unfold d1524; split_ifs <;> omega

theorem yr_bounds {d : ℤ} (h0 : 0 ≤ d) (h1 : d ≤ 5400000) : 3 ≤ yr d ∧ yr d ≤ 15000 := by
  have := d1524_bounds h0 h1
  unfold yr; omega

theorem rest_bounds {d : ℤ} : 122 ≤ rest d ∧ rest d ≤ 489 := by
  unfold rest yr; generalize d1524 d = e; omega

theorem mo_bounds {d : ℤ} : 3 ≤ mo d ∧ mo d ≤ 15 := by
  have := rest_bounds (d := d); unfold mo; omega

/-! ### float steps -/

theorem step_c {d : ℤ} (h : 2299161 ≤ d) (h1 : d ≤ 5400000) :
    trunc (F64.div (sub (d : ℚ) (rnd (7468865 / 4))) (146097 / 4)) = (4 * d - 7468865) / 146097 := by
  have e1 : rnd (7468865 / 4) = 7468865 / 4 := by
    have := rnd_quarter (n := 7468865) (by norm_num)
    simpa using this
  rw [e1]
  unfold sub
  have e2 : (d : ℚ) - 7468865 / 4 = ((4 * d - 7468865 : ℤ) : ℚ) / 4 := by push_cast; ring
  rw [e2, rnd_quarter (by rw [abs_le]; omega)]
  have e3 : F64.div (((4 * d - 7468865 : ℤ) : ℚ) / 4) (146097 / 4)
      = F64.div ((4 * d - 7468865 : ℤ) : ℚ) ((146097 : ℤ) : ℚ) := by
    unfold F64.div; congr 1; push_cast; field_simp
  rw [e3, trunc_div_nonneg (by omega) (by omega) (by norm_num)]

theorem step_year {e : ℤ} (h0 : 1524 ≤ e) (h1 : e ≤ 5402000) :
    trunc (F64.div (sub (e : ℚ) (rnd (1221 / 10))) (1461 / 4)) = (20 * e - 2442) / 7305 := by
  have q0 : (1524 : ℚ) ≤ e := by exact_mod_cast h0
  have q1 : (e : ℚ) ≤ 5402000 := by exact_mod_cast h1
  have c1 : |rnd (1221 / 10) - 1221 / 10| ≤ 128 / 2 ^ 53 := by
    apply abs_rnd_sub_le; rw [abs_le]; constructor <;> norm_num
  have s1 : (128 : ℚ) / 2 ^ 53 ≤ 1 / 10 ^ 12 := by norm_num
  rw [abs_le] at c1
  have c2 : |rnd ((e : ℚ) - rnd (1221 / 10)) - (e - 1221 / 10)| ≤ 1 / 10 ^ 12 + 2 ^ 23 / 2 ^ 53 := by
    apply rnd_near
    · rw [abs_le]; constructor <;> linarith
    · rw [abs_le]; constructor <;> norm_num <;> linarith
  have s2 : (1 : ℚ) / 10 ^ 12 + 2 ^ 23 / 2 ^ 53 ≤ 1 / 10 ^ 8 := by norm_num
  unfold sub
  generalize rnd ((e : ℚ) - rnd (1221 / 10)) = w at *
  rw [abs_le] at c2
  have c3 : |rnd (w / (1461 / 4)) - (e - 1221 / 10) / (1461 / 4)| ≤ 1 / 10 ^ 8 + 2 ^ 20 / 2 ^ 53 := by
    apply rnd_near
    · rw [abs_le]; constructor <;> linarith
    · rw [abs_le]; constructor <;> norm_num <;> linarith
  have s3 : (1 : ℚ) / 10 ^ 8 + 2 ^ 20 / 2 ^ 53 ≤ 1 / 10 ^ 7 := by norm_num
  have c4 := c3.trans s3
  unfold F64.div
  generalize rnd (w / (1461 / 4)) = z at *
  rw [abs_le] at c4
  obtain ⟨n, r, hn, hr0, hr1⟩ : ∃ n r : ℤ, 20 * e - 2442 = 7305 * n + r ∧ 3 ≤ r ∧ r ≤ 7303 :=
    ⟨(20 * e - 2442) / 7305, (20 * e - 2442) % 7305, by omega, by omega, by omega⟩
  have hdiv : (20 * e - 2442) / 7305 = n := by omega
  rw [hdiv]
  have hq : (20 * (e : ℚ) - 2442) = 7305 * n + r := by exact_mod_cast hn
  have r0 : (3 : ℚ) ≤ r := by exact_mod_cast hr0
  have r1 : (r : ℚ) ≤ 7303 := by exact_mod_cast hr1
  have hx : ((e : ℚ) - 1221 / 10) / (1461 / 4) = n + r / 7305 := by
    field_simp; linarith
  rw [hx] at c4
  apply trunc_eq (by omega)
  · have : (3 : ℚ) / 7305 ≤ r / 7305 := div_le_div_of_nonneg_right r0 (by norm_num)
    linarith
  · have : (r : ℚ) / 7305 ≤ 7303 / 7305 := div_le_div_of_nonneg_right r1 (by norm_num)
    linarith

theorem c30601 : |rnd (30601 / 1000) - 30601 / 1000| ≤ 1 / 10 ^ 13 := by
  have : |rnd (30601 / 1000) - 30601 / 1000| ≤ 32 / 2 ^ 53 := by
    apply abs_rnd_sub_le; rw [abs_le]; constructor <;> norm_num
  exact this.trans (by norm_num)

theorem step_month {r : ℤ} (h0 : 122 ≤ r) (h1 : r ≤ 489) :
    trunc (F64.div (r : ℚ) (rnd (30601 / 1000))) = 1000 * r / 30601 := by
  have q0 : (122 : ℚ) ≤ r := by exact_mod_cast h0
  have q1 : (r : ℚ) ≤ 489 := by exact_mod_cast h1
  have c := c30601
  unfold F64.div
  generalize rnd (30601 / 1000) = k at *
  rw [abs_le] at c
  have hk : (30 : ℚ) < k := by
    have : (1 : ℚ) / 10 ^ 13 ≤ 1 / 10 := by norm_num
    linarith
  have d1 : |(r : ℚ) / k - r / (30601 / 1000)| ≤ 1 / 10 ^ 12 := by
    have : (r : ℚ) / k - r / (30601 / 1000) = r * (30601 / 1000 - k) / (k * (30601 / 1000)) := by
      have : k ≠ 0 := by linarith
      field_simp
    rw [this, abs_div, abs_mul, abs_of_pos (by positivity : (0 : ℚ) < k * (30601 / 1000)),
      abs_of_pos (by linarith : (0 : ℚ) < r), div_le_iff₀ (by positivity)]
    have hb : |30601 / 1000 - k| ≤ 1 / 10 ^ 13 := by rw [abs_le]; constructor <;> linarith
    have h2 : (r : ℚ) * |30601 / 1000 - k| ≤ 489 * (1 / 10 ^ 13) := by
      apply mul_le_mul q1 hb (abs_nonneg _) (by norm_num)
    have h3 : (489 : ℚ) * (1 / 10 ^ 13) ≤ 1 / 10 ^ 12 * (30 * (30601 / 1000)) := by norm_num
    nlinarith
  have hb2 : |(r : ℚ) / k| ≤ 20 := by
    rw [abs_of_pos (by positivity), div_le_iff₀ (by linarith)]; linarith
  have d2 := (rnd_near d1 hb2).trans (by norm_num : (1 : ℚ) / 10 ^ 12 + 20 / 2 ^ 53 ≤ 1 / 10 ^ 11)
  generalize rnd ((r : ℚ) / k) = z at *
  rw [abs_le] at d2
  obtain ⟨n, s, hn, hs0, hs1⟩ : ∃ n s : ℤ, 1000 * r = 30601 * n + s ∧ 1 ≤ s ∧ s ≤ 30600 :=
    ⟨1000 * r / 30601, 1000 * r % 30601, by omega, by omega, by omega⟩
  have hdiv : 1000 * r / 30601 = n := by omega
  rw [hdiv]
  have hq : 1000 * (r : ℚ) = 30601 * n + s := by exact_mod_cast hn
  have r0 : (1 : ℚ) ≤ s := by exact_mod_cast hs0
  have r1 : (s : ℚ) ≤ 30600 := by exact_mod_cast hs1
  have hx : (r : ℚ) / (30601 / 1000) = n + s / 30601 := by field_simp; linarith
  rw [hx] at d2
  have a1 : (1 : ℚ) / 30601 ≤ s / 30601 := div_le_div_of_nonneg_right r0 (by norm_num)
  have a2 : (s : ℚ) / 30601 ≤ 30600 / 30601 := div_le_div_of_nonneg_right r1 (by norm_num)
  have a3 : (1 : ℚ) / 10 ^ 11 < 1 / 30601 := by norm_num
  apply trunc_eq (by omega) <;> linarith

theorem step_day {m : ℤ} (h0 : 3 ≤ m) (h1 : m ≤ 15) :
    trunc (mul (rnd (30601 / 1000)) (m : ℚ)) = 30601 * m / 1000 := by
  have q0 : (3 : ℚ) ≤ m := by exact_mod_cast h0
  have q1 : (m : ℚ) ≤ 15 := by exact_mod_cast h1
  have c := c30601
  unfold mul
  generalize rnd (30601 / 1000) = k at *
  rw [abs_le] at c
  have d1 : |k * (m : ℚ) - 30601 / 1000 * m| ≤ 15 / 10 ^ 13 := by
    rw [abs_le]; constructor <;> nlinarith
  have hb : |k * (m : ℚ)| ≤ 500 := by rw [abs_le]; constructor <;> nlinarith
  have d2 := (rnd_near d1 hb).trans (by norm_num : (15 : ℚ) / 10 ^ 13 + 500 / 2 ^ 53 ≤ 1 / 10 ^ 10)
  generalize rnd (k * (m : ℚ)) = z at *
  rw [abs_le] at d2
  interval_cases m <;> norm_num at d2 ⊢ <;> apply trunc_eq <;> norm_num <;> linarith

/-! ### the integer algorithm inverts `jdn` -/

theorem jdDate_core {e Y : ℤ} {M d : ℤ} (hm : 3 ≤ M) (hm2 : M ≤ 14) (hd : 1 ≤ d) (hd2 : d ≤ 31)
    (h30 : (M = 4 ∨ M = 6 ∨ M = 9 ∨ M = 11) → d ≤ 30)
    (hfeb : M = 14 → d ≤ 28 ∨ (d = 29 ∧ (Y + 1) % 4 = 0))
    (he : e = 1461 * (Y + 4716) / 4 + (306001 * (M + 1)) / 10000 + d) :
    (20 * e - 2442) / 7305 = Y + 4716 ∧
    1000 * (e - 1461 * (Y + 4716) / 4) / 30601 = M + 1 ∧
    e - 1461 * (Y + 4716) / 4 - 30601 * (M + 1) / 1000 = d := by
  rw [h365] at he
  have hy : (20 * e - 2442) / 7305 = Y + 4716 := by
    rcases (by omega : M = 3 ∨ M = 4 ∨ M = 5 ∨ M = 6 ∨ M = 7 ∨ M = 8 ∨ M = 9 ∨ M = 10 ∨ M = 11 ∨ M = 12 ∨ M = 13 ∨ M = 14)
      with h | h | h | h | h | h | h | h | h | h | h | h <;> subst h <;> omega
  refine ⟨hy, ?_⟩
  rw [h365]
  rcases (by omega : M = 3 ∨ M = 4 ∨ M = 5 ∨ M = 6 ∨ M = 7 ∨ M = 8 ∨ M = 9 ∨ M = 10 ∨ M = 11 ∨ M = 12 ∨ M = 13 ∨ M = 14)
      with h | h | h | h | h | h | h | h | h | h | h | h <;> subst h <;> omega

theorem jdn_lt_iff {a b : Date} (ha : a.Valid) (hb : b.Valid) : jdn a < jdn b ↔ DateLt a b := by
  rw [← dayNo_lt_iff ha hb, jdn_eq ha, jdn_eq hb]; omega

/-- the century count in the Gregorian correction; `k` = March-based day of year + 122 -/
theorem greg_c {Y k d : ℤ} (h1 : 123 ≤ k + d) (h2 : k + d ≤ 488)
    (h3 : k + d = 488 → (Y + 1) % 4 = 0 ∧ ((Y + 1) % 100 = 0 → (Y + 1) % 400 = 0)) :
    (4 * (365 * Y + Y / 4 + 1722519 + k + d + (2 - Y / 100 + Y / 100 / 4) - 1524) - 7468865) / 146097
      = Y / 100 - 4 := by
  obtain ⟨C, q, t, hY, q0, q1, t0, t1⟩ : ∃ C q t : ℤ, Y = 100 * C + (4 * q + t) ∧ 0 ≤ q ∧ q ≤ 24 ∧ 0 ≤ t ∧ t ≤ 3 :=
    ⟨Y / 100, Y % 100 / 4, Y % 100 % 4, by omega, by omega, by omega, by omega, by omega⟩
  obtain ⟨Q, s, hC, s0, s1⟩ : ∃ Q s : ℤ, C = 4 * Q + s ∧ 0 ≤ s ∧ s ≤ 3 := ⟨C / 4, C % 4, by omega, by omega, by omega⟩
  have e1 : Y / 4 = 25 * C + q := by omega
  have e2 : Y / 100 = C := by omega
  have e3 : C / 4 = Q := by omega
  rw [e1, e2, e3]
  have h3' : k + d = 488 → t = 3 ∧ (q = 24 → s = 3) := by
    intro h; have := h3 h; omega
  clear h3
  subst hY
  clear e1 e2 e3
  subst hC
  rw [Int.ediv_eq_iff_of_pos (by norm_num)]
  omega

theorem mbd_bounds {x : Date} (h : x.Valid) :
    123 ≤ 306001 * (mm x + 1) / 10000 + x.d ∧ 306001 * (mm x + 1) / 10000 + x.d ≤ 488 ∧
    (306001 * (mm x + 1) / 10000 + x.d = 488 → x.m = 2 ∧ x.d = 29) := by
  obtain ⟨h1, h2, h3, h4, h5⟩ := h
  have hf : x.m = 2 → x.d ≤ 29 := by
    intro hm; unfold lastDay at h4; rw [if_pos hm] at h4; split_ifs at h4 <;> omega
  have hlb := lastDay_bounds x.y x.m
  unfold mm
  split_ifs <;> omega

/-- after the Gregorian correction the day count is the Julian-style count -/
theorem d1524_jdn {x : Date} (h : x.Valid) :
    d1524 (jdn x) = 1461 * (my x + 4716) / 4 + (306001 * (mm x + 1)) / 10000 + x.d := by
  have hg := greg_iff h
  have hlt := jdn_lt_iff h (by decide : (⟨1582, 10, 15⟩ : Date).Valid)
  have h15 : jdn ⟨1582, 10, 15⟩ = 2299161 := by decide
  rw [h15] at hlt
  unfold DateLt at hlt
  obtain ⟨h1, h2, h3, h4, h5⟩ := id h
  simp only at hlt
  unfold d1524
  by_cases c : x.y * 372 + x.m * 31 + x.d ≥ 588829
  · have c2 := hg.1 c
    rw [if_pos (by omega)]
    have key : (4 * jdn x - 7468865) / 146097 = my x / 100 - 4 := by
      unfold jdn corr
      rw [if_pos c, h365, greg_c]
      · exact (mbd_bounds h).1
      · exact (mbd_bounds h).2.1
      · intro hc
        obtain ⟨f1, f2⟩ := (mbd_bounds h).2.2 hc
        unfold lastDay at h4
        have hmy : my x = x.y - 1 := by unfold my; rw [if_pos (by omega)]
        rw [if_pos f1] at h4
        split_ifs at h4 with hl
        · unfold Leap at hl
          rw [if_neg (by omega)] at hl
          rw [hmy]; omega
        · omega
    rw [key]
    unfold jdn corr
    rw [if_pos c]
    omega
  · have c2 : ¬ _ := fun z => c (hg.2 z)
    rw [if_neg (by omega)]
    unfold jdn corr
    rw [if_neg c]
    omega

theorem jdDate_jdn {x : Date} (h : x.Valid) : jdDate (jdn x) = x := by
  have hd := d1524_jdn h
  obtain ⟨h1, h2, h3, h4, h5⟩ := h
  have hlb := lastDay_bounds x.y x.m
  have hcore := jdDate_core (e := d1524 (jdn x)) (Y := my x) (M := mm x) (d := x.d)
    (by unfold mm; split_ifs <;> omega) (by unfold mm; split_ifs <;> omega) h3 (by omega)
    (by unfold mm lastDay at *; split_ifs at * <;> omega)
    (by unfold mm my lastDay Leap at *; split_ifs at * <;> omega) hd
  obtain ⟨k1, k2, k3⟩ := hcore
  have e1 : yr (jdn x) = my x + 4716 := k1
  have e2 : mo (jdn x) = mm x + 1 := by unfold mo rest; rw [e1]; exact k2
  have e3 : rest (jdn x) - 30601 * mo (jdn x) / 1000 = x.d := by
    rw [e2]; unfold rest; rw [e1]; exact k3
  unfold jdDate
  rw [e3, e1, e2]
  unfold my mm
  cases x
  simp only [Date.mk.injEq, and_true] at *
  split_ifs <;> omega

/-- every day number from 0 on is the number of an existing date -/
theorem exists_date (d : ℤ) (h : 0 ≤ d) : ∃ x : Date, x.Valid ∧ jdn x = d := by
  have hv : (⟨-4712, 1, 1⟩ : Date).Valid := by decide
  have := iterate_tomorrow hv d.toNat
  refine ⟨_, this.1, ?_⟩
  rw [jdn_eq this.1, this.2]
  have : dn ⟨-4712, 1, 1⟩ = -1721057 := by decide
  omega

end JD
