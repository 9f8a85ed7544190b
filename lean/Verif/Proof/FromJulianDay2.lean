import Verif.Proof.FromJulianDay

/-! Clock part of `fromJulianDay`, and the overall description of its result. -/

namespace JD
open F64 Spec Solar Cal

/-- representable as a binary64 number (unbounded exponent) -/
def Rep (x : ℚ) : Prop := ∃ m e : ℤ, x = m * 2 ^ e ∧ |m| ≤ 2 ^ 53

theorem rep_rnd (x : ℚ) : Rep (rnd x) := by
  refine ⟨roundHalfEven (x / 2 ^ ulpExp x), ulpExp x, rfl, ?_⟩
  have hp := two_zpow_pos (ulpExp x)
  have h1 : |x / 2 ^ ulpExp x| < 2 ^ 53 := by
    rw [abs_div, abs_of_pos hp, div_lt_iff₀ hp]
    have := lt_zpow_log_succ x
    have e : (2 : ℚ) ^ (Int.log 2 |x| + 1) = 2 ^ 53 * 2 ^ ulpExp x := by
      unfold ulpExp
      rw [show Int.log 2 |x| + 1 = 53 + (Int.log 2 |x| - 52) by ring, zpow_add₀ (by norm_num)]
      norm_num
    rw [e] at this
    exact this
  have h2 := abs_roundHalfEven_sub (x / 2 ^ ulpExp x)
  rw [abs_lt] at h1
  rw [abs_le] at h2
  generalize hR : roundHalfEven (x / 2 ^ ulpExp x) = R at *
  generalize x / 2 ^ ulpExp x = z at *
  have a : (R : ℚ) < ((2 ^ 53 + 1 : ℤ) : ℚ) := by push_cast; linarith
  have b : ((-2 ^ 53 - 1 : ℤ) : ℚ) < (R : ℚ) := by push_cast; linarith
  rw [Int.cast_lt] at a b
  rw [abs_le]
  constructor <;> omega

theorem rep_frac {v : ℚ} (hr : Rep v) (h0 : 0 ≤ v) : rnd (v - (⌊v⌋ : ℚ)) = v - ⌊v⌋ := by
  obtain ⟨m, e, hv, hm⟩ := hr
  rcases le_or_gt 0 e with he | he
  · obtain ⟨k, rfl⟩ := Int.eq_ofNat_of_zero_le he
    have : v = ((m * 2 ^ k : ℤ) : ℚ) := by rw [hv]; push_cast; simp
    rw [this, Int.floor_intCast, sub_self]; simpa using rnd_int 0 (by norm_num)
  · obtain ⟨k, hk⟩ : ∃ k : ℕ, e = -(k : ℤ) := ⟨(-e).toNat, by omega⟩
    have hpk : (0 : ℚ) < 2 ^ k := by positivity
    have hv2 : v = (m : ℚ) / 2 ^ k := by
      rw [hv, hk, zpow_neg, zpow_natCast]; rfl
    have hm0 : 0 ≤ m := by
      rw [hv2] at h0
      have : (0 : ℚ) ≤ m := by
        by_contra hc
        push Not at hc
        have := div_neg_of_neg_of_pos hc hpk
        linarith
      exact_mod_cast this
    have hdm := Int.emod_add_mul_ediv m (2 ^ k)
    have r0 := Int.emod_nonneg m (by positivity : (2 : ℤ) ^ k ≠ 0)
    have r1 := Int.emod_lt_of_pos m (by positivity : (0 : ℤ) < 2 ^ k)
    have hq : (m : ℚ) = ((m % 2 ^ k : ℤ) : ℚ) + 2 ^ k * ((m / 2 ^ k : ℤ) : ℚ) := by
      have : ((m % 2 ^ k + 2 ^ k * (m / 2 ^ k) : ℤ) : ℚ) = (m : ℚ) := by rw [hdm]
      push_cast at this ⊢
      linarith
    have r0' : (0 : ℚ) ≤ ((m % 2 ^ k : ℤ) : ℚ) := by exact_mod_cast r0
    have r1' : ((m % 2 ^ k : ℤ) : ℚ) < 2 ^ k := by
      have : ((m % 2 ^ k : ℤ) : ℚ) < ((2 ^ k : ℤ) : ℚ) := by exact_mod_cast r1
      simpa using this
    have hdecomp : v = ((m / 2 ^ k : ℤ) : ℚ) + ((m % 2 ^ k : ℤ) : ℚ) / 2 ^ k := by
      rw [hv2]
      conv_lhs => rw [hq]
      field_simp
      ring
    have hfl : ⌊v⌋ = m / 2 ^ k := by
      rw [Int.floor_eq_iff, hdecomp]
      refine ⟨by linarith [div_nonneg r0' hpk.le], ?_⟩
      have := (div_lt_one hpk).2 r1'
      linarith
    have hfrac : v - ⌊v⌋ = ((m % 2 ^ k : ℤ) : ℚ) / 2 ^ k := by rw [hfl]; linarith
    rw [hfrac]
    refine rnd_exact (m % 2 ^ k) (-(k : ℤ)) ?_ ?_
    · rw [zpow_neg, zpow_natCast]; rfl
    · rw [abs_of_nonneg r0]
      rw [abs_of_nonneg hm0] at hm
      have := Int.mul_nonneg (by positivity : (0:ℤ) ≤ 2 ^ k) (Int.ediv_nonneg hm0 (by positivity : (0:ℤ) ≤ 2 ^ k))
      omega

theorem rnd_nonneg {x : ℚ} (h : 0 ≤ x) : 0 ≤ rnd x := by
  have := abs_rnd_sub_le_rel x
  rw [abs_of_nonneg h, abs_le] at this
  have : x / 2 ^ 53 ≤ x := div_le_self h (by norm_num)
  linarith

theorem sub_trunc {x : ℚ} (h : 0 ≤ x) : sub (rnd x) (trunc (rnd x)) = rnd x - ⌊rnd x⌋ := by
  have h0 := rnd_nonneg h
  rw [trunc_of_nonneg h0]
  exact rep_frac (rep_rnd x) h0

/-- the three clock digits before carrying -/
def fH (F : ℚ) : ℤ := ⌊rnd (F * 24)⌋
def fM (F : ℚ) : ℤ := ⌊rnd ((rnd (F * 24) - fH F) * 60)⌋
def fS (F : ℚ) : ℤ := roundHalfEven (rnd ((rnd ((rnd (F * 24) - fH F) * 60) - fM F) * 60))

theorem clock_core {F : ℚ} (h0 : 0 ≤ F) (h1 : F < 1) :
    |((fH F * 3600 + fM F * 60 + fS F : ℤ) : ℚ) - 86400 * F| ≤ 1 / 2 + 1 / 10 ^ 9 ∧
    0 ≤ fH F ∧ fH F ≤ 24 ∧ 0 ≤ fM F ∧ fM F ≤ 60 ∧ 0 ≤ fS F ∧ fS F ≤ 60 ∧
    (fH F = 24 → fM F = 0 ∧ fS F = 0) ∧ (fM F = 60 → fS F = 0) := by
  obtain ⟨e, he⟩ : ∃ e : ℚ, e = 1 / 10 ^ 14 := ⟨_, rfl⟩
  have epos : 0 < e := by rw [he]; norm_num
  have a0 := rnd_nonneg (by linarith : 0 ≤ F * 24)
  have a1 : |rnd (F * 24) - F * 24| ≤ e := by
    refine (abs_rnd_sub_le (B := 24) (by rw [abs_le]; constructor <;> linarith)).trans ?_
    rw [he]; norm_num
  have hHdef : fH F = ⌊rnd (F * 24)⌋ := rfl
  have hMdef : fM F = ⌊rnd ((rnd (F * 24) - fH F) * 60)⌋ := rfl
  have hSdef : fS F = roundHalfEven (rnd ((rnd ((rnd (F * 24) - fH F) * 60) - fM F) * 60)) := rfl
  generalize rnd (F * 24) = u at *
  generalize fH F = H at *
  have f1 := Int.floor_le u
  have f2 := Int.lt_floor_add_one u
  rw [← hHdef] at f1 f2
  have b0 := rnd_nonneg (by linarith : 0 ≤ (u - H) * 60)
  have b1 : |rnd ((u - H) * 60) - (u - H) * 60| ≤ e := by
    refine (abs_rnd_sub_le (B := 60) (by rw [abs_le]; constructor <;> linarith)).trans ?_
    rw [he]; norm_num
  generalize rnd ((u - H) * 60) = w at *
  generalize fM F = M at *
  have f3 := Int.floor_le w
  have f4 := Int.lt_floor_add_one w
  rw [← hMdef] at f3 f4
  have c0 := rnd_nonneg (by linarith : 0 ≤ (w - M) * 60)
  have c1 : |rnd ((w - M) * 60) - (w - M) * 60| ≤ e := by
    refine (abs_rnd_sub_le (B := 60) (by rw [abs_le]; constructor <;> linarith)).trans ?_
    rw [he]; norm_num
  generalize rnd ((w - M) * 60) = z at *
  generalize fS F = S at *
  have g := abs_roundHalfEven_sub z
  rw [← hSdef] at g
  rw [abs_le] at a1 b1 c1 g
  obtain ⟨a1, a1'⟩ := a1
  obtain ⟨b1, b1'⟩ := b1
  obtain ⟨c1, c1'⟩ := c1
  obtain ⟨g, g'⟩ := g
  have he' := he
  clear he
  have e9 : 4000 * e ≤ 1 / 10 ^ 9 := by rw [he']; norm_num
  have e2 : e ≤ 1 / 100000 := by rw [he']; norm_num
  clear he'
  have H0 : 0 ≤ H := by rw [hHdef]; exact Int.floor_nonneg.2 a0
  have H1 : H ≤ 24 := by
    have : (H : ℚ) < ((25 : ℤ) : ℚ) := by push_cast; linarith
    rw [Int.cast_lt] at this; omega
  have M0 : 0 ≤ M := by rw [hMdef]; exact Int.floor_nonneg.2 b0
  have M1 : M ≤ 60 := by
    have : (M : ℚ) < ((61 : ℤ) : ℚ) := by push_cast; linarith
    rw [Int.cast_lt] at this; omega
  have S0 : 0 ≤ S := by
    have : ((-1 : ℤ) : ℚ) < (S : ℚ) := by push_cast; linarith
    rw [Int.cast_lt] at this; omega
  have S1 : S ≤ 60 := by
    have : (S : ℚ) < ((61 : ℤ) : ℚ) := by push_cast; linarith
    rw [Int.cast_lt] at this; omega
  refine ⟨?_, H0, H1, M0, M1, S0, S1, ?_, ?_⟩
  · rw [abs_le]; push_cast; constructor <;> linarith
  · intro hh
    have hq : (H : ℚ) = 24 := by rw [hh]; norm_num
    have hM : M = 0 := by
      have : (M : ℚ) < ((1 : ℤ) : ℚ) := by push_cast; linarith
      rw [Int.cast_lt] at this; omega
    refine ⟨hM, ?_⟩
    have hqM : (M : ℚ) = 0 := by rw [hM]; norm_num
    have : (S : ℚ) < ((1 : ℤ) : ℚ) := by push_cast; linarith
    rw [Int.cast_lt] at this; omega
  · intro hh
    have hq : (M : ℚ) = 60 := by rw [hh]; norm_num
    have : (S : ℚ) < ((1 : ℤ) : ℚ) := by push_cast; linarith
    rw [Int.cast_lt] at this; omega

/-- `fromJulianDay jd`, described by the day number and the rounded second of the day -/
theorem fromJulianDay_desc {jd : ℚ} {x : Date} (hx : x.Valid)
    (h0 : (0 : ℚ) ≤ jd + 1 / 2) (hd : ⌊add jd (1 / 2)⌋ = jdn x) (hmax : jdn x ≤ 5400000) :
    ∃ R : ℤ, 0 ≤ R ∧ R ≤ 86400 ∧
      |(R : ℚ) - 86400 * (add jd (1 / 2) - jdn x)| ≤ 1 / 2 + 1 / 10 ^ 9 ∧
      fromJulianDay jd = fromYmdHms x.y x.m (x.d + R / 86400) (R % 86400 / 3600) (R % 3600 / 60) (R % 60) := by
  have hv0 : 0 ≤ add jd (1 / 2) := rnd_nonneg h0
  have htr : trunc (add jd (1 / 2)) = jdn x := by rw [trunc_of_nonneg hv0, hd]
  have hF : sub (add jd (1 / 2)) ((jdn x : ℤ) : ℚ) = add jd (1 / 2) - jdn x := by
    rw [← hd]
    exact rep_frac (rep_rnd _) hv0
  have hj0 : 0 ≤ jdn x := by rw [← hd]; exact Int.floor_nonneg.2 hv0
  have hfl1 := Int.floor_le (add jd (1 / 2))
  have hfl2 := Int.lt_floor_add_one (add jd (1 / 2))
  rw [hd] at hfl1 hfl2
  have hF0 : 0 ≤ add jd (1 / 2) - jdn x := by linarith
  have hF1 : add jd (1 / 2) - jdn x < 1 := by linarith
  obtain ⟨k1, H0, H1, M0, M1, S0, S1, k2, k3⟩ := clock_core hF0 hF1
  refine ⟨fH (add jd (1 / 2) - jdn x) * 3600 + fM (add jd (1 / 2) - jdn x) * 60 + fS (add jd (1 / 2) - jdn x),
    by omega, ?_, k1, ?_⟩
  · have e9 : (1 : ℚ) / 10 ^ 9 < 1 / 2 := by norm_num
    rw [abs_le] at k1
    have : ((fH (add jd (1 / 2) - jdn x) * 3600 + fM (add jd (1 / 2) - jdn x) * 60
      + fS (add jd (1 / 2) - jdn x) : ℤ) : ℚ) < ((86401 : ℤ) : ℚ) := by push_cast; push_cast at k1; linarith
    rw [Int.cast_lt] at this; omega
  · have hdate := jdDate_jdn hx
    unfold fromJulianDay
    dsimp only
    rw [htr, hF]
    -- date part
    have hc : (if jdn x ≥ 2299161 then
        jdn x + (1 + trunc (F64.div (sub ((jdn x : ℤ) : ℚ) (rnd (7468865 / 4))) (146097 / 4)) -
          (trunc (F64.div (sub ((jdn x : ℤ) : ℚ) (rnd (7468865 / 4))) (146097 / 4))).tdiv 4)
        else jdn x) + 1524 = d1524 (jdn x) := by
      unfold d1524
      split_ifs with c
      · rw [step_c c hmax, Int.tdiv_eq_ediv_of_nonneg (Int.ediv_nonneg (by omega) (by norm_num))]
      · rfl
    rw [hc]
    have hdb := d1524_bounds hj0 hmax
    have hyb := yr_bounds hj0 hmax
    have hrb := rest_bounds (d := jdn x)
    have hmb := mo_bounds (d := jdn x)
    rw [step_year hdb.1 hdb.2]
    have ey : (20 * d1524 (jdn x) - 2442) / 7305 = yr (jdn x) := rfl
    rw [ey, trunc_365 (by omega) (by omega)]
    have er : d1524 (jdn x) - 1461 * yr (jdn x) / 4 = rest (jdn x) := rfl
    rw [er, step_month hrb.1 hrb.2]
    have em : 1000 * rest (jdn x) / 30601 = mo (jdn x) := rfl
    rw [em, step_day hmb.1 hmb.2]
    have ex : (if mo (jdn x) > 13 then (yr (jdn x) - 4715, mo (jdn x) - 13)
        else (yr (jdn x) - 4716, mo (jdn x) - 1)) = (x.y, x.m) := by
      have h1 := congrArg Date.y hdate
      have h2 := congrArg Date.m hdate
      simp only [jdDate] at h1 h2
      split_ifs at * <;> simp only [Prod.mk.injEq] <;> exact ⟨h1, h2⟩
    have exd : rest (jdn x) - 30601 * mo (jdn x) / 1000 = x.d := congrArg Date.d hdate
    rw [ex, exd]
    -- clock part
    generalize hFF : add jd (1 / 2) - (jdn x : ℚ) = F at *
    have u0 : 0 ≤ F * 24 := by linarith
    have e1 : trunc (mul F 24) = fH F := trunc_of_nonneg (rnd_nonneg u0)
    have e2 : sub (mul F 24) ((fH F : ℤ) : ℚ) = rnd (F * 24) - fH F := by
      rw [← e1]; exact (sub_trunc u0).trans (by rw [e1]; rfl)
    rw [e1, e2]
    have u1 : 0 ≤ (rnd (F * 24) - fH F) * 60 := by
      have := Int.floor_le (rnd (F * 24))
      have h : ((fH F : ℤ) : ℚ) = (⌊rnd (F * 24)⌋ : ℚ) := rfl
      rw [h]; linarith
    have e3 : trunc (mul (rnd (F * 24) - fH F) 60) = fM F := trunc_of_nonneg (rnd_nonneg u1)
    have e4 : sub (mul (rnd (F * 24) - fH F) 60) ((fM F : ℤ) : ℚ)
        = rnd ((rnd (F * 24) - fH F) * 60) - fM F := by
      rw [← e3]; exact (sub_trunc u1).trans (by rw [e3]; rfl)
    rw [e3, e4]
    have e5 : roundHalfEven (mul (rnd ((rnd (F * 24) - fH F) * 60) - fM F) 60) = fS F := rfl
    rw [e5]
    generalize fH F = H at *
    generalize fM F = M at *
    generalize fS F = S at *
    by_cases cS : S > 59
    · have hS : S = 60 := by omega
      have hM : M ≤ 59 := by omega
      have hH : H ≤ 23 := by omega
      simp only [cS, if_true]
      by_cases cM : M + 1 > 59
      · simp only [cM, if_true]
        by_cases cH : H + 1 > 23
        · simp only [cH, if_true]; congr 1 <;> omega
        · simp only [cH, if_false]; congr 1 <;> omega
      · simp only [cM, if_false]
        have cH : ¬ H > 23 := by omega
        simp only [cH, if_false]; congr 1 <;> omega
    · simp only [cS, if_false]
      by_cases cM : M > 59
      · have hM : M = 60 := by omega
        have hS := k3 hM
        have hH : H ≤ 23 := by omega
        simp only [cM, if_true]
        by_cases cH : H + 1 > 23
        · simp only [cH, if_true]; congr 1 <;> omega
        · simp only [cH, if_false]; congr 1 <;> omega
      · simp only [cM, if_false]
        by_cases cH : H > 23
        · have := k2 (by omega)
          simp only [cH, if_true]; congr 1 <;> omega
        · simp only [cH, if_false]; congr 1 <;> omega

theorem fromJulianDay_getJulianDay {s : Solar} (h : s.Valid) (h0 : -4712 ≤ s.year) (h1 : s.year ≤ 9999) :
    fromJulianDay s.getJulianDay = .ok s := by
  obtain ⟨he, hz⟩ := jd_half h h0 h1
  have htr := trunc_jd_half h h0 h1
  have hjb := jdn_bounds h.1 (by simp only [Solar.date]; omega) h1
  have hs := secs_bounds h
  have s1 : (0 : ℚ) ≤ secs s := by exact_mod_cast hs.1
  have s2 : (secs s : ℚ) ≤ 86399 := by exact_mod_cast hs.2
  have hjn := jdn_nonneg h.1 h0
  have hjq : (0 : ℚ) ≤ jdn s.date := by exact_mod_cast hjn
  have hpos : 0 ≤ s.getJulianDay + 1 / 2 := by
    by_cases c : secs s = 0
    · have hc := h.2
      unfold ClockOk at hc
      have c' := c
      unfold secs at c'
      rw [jd_exact h (by omega) h1 (by omega) (by omega) (by omega)]
      unfold jdQ
      rw [c]; push_cast; linarith
    · have herr := jd_err h (by omega) h1
      have hq : jdQ s = (jdn s.date : ℚ) - 1 / 2 + (secs s : ℚ) / 86400 := rfl
      rw [hq, abs_le] at herr
      have e28 : (1 : ℚ) / 2 ^ 28 ≤ 1 / 86400 := by norm_num
      have s1' : (1 : ℚ) ≤ secs s := by exact_mod_cast (by omega : 1 ≤ secs s)
      linarith
  have hfl : ⌊add s.getJulianDay (1 / 2)⌋ = jdn s.date := by
    rw [← trunc_of_nonneg (show 0 ≤ add s.getJulianDay (1 / 2) from rnd_nonneg hpos)]; exact htr
  obtain ⟨R, R0, R1, hR, hres⟩ := fromJulianDay_desc h.1 hpos hfl hjb.2
  have hRs : R = secs s := by
    rw [abs_le] at he hR
    have e27 : (86400 : ℚ) * (1 / 2 ^ 27) ≤ 1 / 100 := by norm_num
    have e9 : (1 : ℚ) / 10 ^ 9 ≤ 1 / 100 := by norm_num
    have a : (R : ℚ) < ((secs s + 1 : ℤ) : ℚ) := by push_cast; linarith
    have b : ((secs s - 1 : ℤ) : ℚ) < (R : ℚ) := by push_cast; linarith
    rw [Int.cast_lt] at a b
    omega
  rw [hres, hRs]
  have hc := h.2
  have hck := hc
  unfold ClockOk at hck
  have t1 : secs s / 86400 = 0 := by omega
  have t2 : secs s % 86400 / 3600 = s.hour := by unfold secs at *; omega
  have t3 : secs s % 3600 / 60 = s.minute := by unfold secs at *; omega
  have t4 : secs s % 60 = s.second := by unfold secs at *; omega
  rw [t1, t2, t3, t4, add_zero]
  exact fromYmdHms_ok h.1 hc

end JD
