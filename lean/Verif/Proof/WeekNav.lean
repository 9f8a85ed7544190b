import Verif.Proof.SolarParts

/-! `SolarWeek.next(n, True)` and `SolarMonth.getWeeks`. -/

namespace Cal
open SolarUtil Spec Solar SolarWeek

/-- years for which the weekday computation is right, away from 1582-10 -/
def Good (x : Date) : Prop := -4712 ≤ x.y ∧ x.y ≤ 9999 ∧ ¬ (x.y = 1582 ∧ x.m = 10)

/-- loop invariant going forward: the piece reached is that of `week`; `solar` is either in the
same piece, or in the next month in the same week (whose old-month part is `week`) -/
def FwdInv (st : ℤ) (w : Date) (t : SepState) : Prop :=
  ∃ x : Date, x.Valid ∧ w.Valid ∧ t.solar = mid x ∧ t.week = wkObj st w ∧ t.month = w.m ∧
    dn w ≤ dn x ∧ wk st x = wk st w ∧ (mi x = mi w ∨ (mi x = mi w + 1 ∧ wk st x = wk st ⟨x.y, x.m, 1⟩))

theorem wk_mono {st : ℤ} {x y : Date} (h : dn x ≤ dn y) : wk st x ≤ wk st y := by
  unfold wk; omega

theorem sepStep_fwd {st : ℤ} (s0 : 0 ≤ st) (s1 : st ≤ 6) {w : Date} {t : SepState}
    (h : FwdInv st w t) (hg : ∀ x' : Date, x'.Valid → dn x' = dn t.solar.date + 7 → Good x') :
    ∃ w' t', sepStep st true t = .ok t' ∧ FwdInv st w' t' ∧ ClipSucc st w w' ∧
      dn t'.solar.date ≤ dn t.solar.date + 7 ∧ dn w ≤ dn w' := by
  obtain ⟨x, hx, hw, e1, e2, e3, e0, e4, e5⟩ := h
  obtain ⟨sol, week, month⟩ := t
  simp only at e1 e2 e3 hg ⊢
  subst e1 e2 e3
  rw [mid_date] at *
  have hx' := ofDn_valid (dn x + 7)
  have hdx' := dn_ofDn (dn x + 7)
  have hnext : (mid x).next 7 = .ok (mid (ofDn (dn x + 7))) := mid_next' hx 7
  generalize ofDn (dn x + 7) = x' at hx' hdx' hnext
  have hgood := hg x' hx' hdx'
  have bx := dn_month hx
  have bx' := dn_month hx'
  have bw := dn_month hw
  have b1 := MS_succ_bounds (mi x)
  have b2 := MS_succ_bounds (mi x + 1)
  have hfirst := first_valid hx'
  have hwk' : wk st x' = wk st x + 1 := by unfold wk; omega
  have hmi : mi x' = mi x ∨ mi x' = mi x + 1 := by
    by_cases c : dn x' ≤ MS (mi x + 1)
    · left; rw [mi_iff hx']; omega
    · right; rw [mi_iff hx']; omega
  unfold sepStep
  simp only [if_true, hnext]
  show ∃ w' t', (if w.m ≠ (ofSolar (mid x') st).month then _ else _) = Except.ok t' ∧ _
  rw [ofSolar_mid]
  by_cases c : mi x' = mi w
  · -- same month
    have hm := (month_eq hx' hw c).2
    have hxw : mi x = mi w := by omega
    rw [if_neg (by simp [wkObj, hm])]
    refine ⟨x', _, rfl, ⟨x', hx', hx', rfl, rfl, hm.symm, le_refl _, rfl, .inl rfl⟩, ?_, ?_, ?_⟩
    · exact clipSucc_of s0 s1 hw hx' (.inl ⟨c, by omega⟩)
    · simp only [mid_date]; omega
    · omega
  · -- the month changes
    have hmw : mi x' = mi w + 1 := by
      rcases e5 with e5 | ⟨e5, e6⟩
      · omega
      · rcases hmi with h | h
        · omega
        · exfalso
          -- x is in the first week of its month, so x + 7 is still in it
          have hfx := first_valid hx
          have := dn_month hx'
          rw [h] at this
          unfold wk at e6
          omega
    have hne := month_ne hw hx' hmw
    rw [if_pos (by simpa [wkObj] using hne)]
    obtain ⟨g1, g2, g3⟩ := hgood
    rw [getIndex_spec s0 s1 hx' g1 g2 g3]
    show ∃ w' t', (if wk st x' - wk st ⟨x'.y, x'.m, 1⟩ + 1 = 1 then _ else _) = Except.ok t' ∧ _
    by_cases ci : wk st x' - wk st ⟨x'.y, x'.m, 1⟩ + 1 = 1
    · rw [if_pos ci]
      obtain ⟨f, ef, hf, hdf⟩ := getFirstDay_spec s0 s1 hx' g1 g2
      rw [ef]
      have hxw : mi x = mi w := by
        rcases e5 with e5 | ⟨e5, e6⟩
        · exact e5
        · exfalso
          have hxx : mi x' = mi x := by omega
          have := month_eq hx' hx hxx
          rw [this.1, this.2] at ci
          omega
      have hwf : wk st f = wk st x' := by unfold wk at *; omega
      have hfm : mi f = mi w ∨ mi f = mi w + 1 := by
        by_cases c' : dn f ≤ MS (mi w + 1)
        · left; rw [mi_iff hf]; unfold wk at *; omega
        · right; rw [mi_iff hf]; rw [hmw] at bx'; unfold wk at *; omega
      refine ⟨f, ⟨mid x', wkObj st f, f.m⟩, rfl, ⟨x', hx', hf, rfl, rfl, rfl, by unfold wk at *; omega, hwf.symm, ?_⟩, ?_, ?_, ?_⟩
      · rcases hfm with h | h
        · right; exact ⟨by omega, by omega⟩
        · left; omega
      · apply clipSucc_of s0 s1 hw hf
        rcases hfm with h | h
        · left; exact ⟨h, by omega⟩
        · right; right
          refine ⟨h, by omega, ?_⟩
          rw [h, ← hmw]
          have := dn_month hf
          rw [h, ← hmw] at this
          unfold wk at *; omega
      · simp only [mid_date]; omega
      · unfold wk at *; omega
    · rw [if_neg ci]
      have ev : Solar.fromYmd (wkObj st x').year (wkObj st x').month 1 = .ok (mid ⟨x'.y, x'.m, 1⟩) :=
        fromYmd_ok hfirst.1
      rw [ev]
      have hmf : mi ⟨x'.y, x'.m, 1⟩ = mi x' := rfl
      have hwf : wk st ⟨x'.y, x'.m, 1⟩ = wk st w := by
        rw [hmw] at bx' hfirst
        have l1 : wk st ⟨x'.y, x'.m, 1⟩ ≤ wk st x' := wk_mono (by omega)
        have l2 : wk st w ≤ wk st ⟨x'.y, x'.m, 1⟩ := wk_mono (by omega)
        rcases e5 with e5 | ⟨e5, e6⟩
        · omega
        · have := month_eq hx' hx (by omega)
          rw [this.1, this.2]; omega
      refine ⟨⟨x'.y, x'.m, 1⟩, ⟨mid ⟨x'.y, x'.m, 1⟩, wkObj st ⟨x'.y, x'.m, 1⟩, x'.m⟩, rfl,
        ⟨_, hfirst.1, hfirst.1, rfl, rfl, rfl, le_refl _, rfl, .inl rfl⟩, ?_, ?_, ?_⟩
      · exact clipSucc_of s0 s1 hw hfirst.1 (.inr (.inl ⟨by omega, hwf⟩))
      · simp only [mid_date]; omega
      · rw [hmw] at hfirst; omega

theorem sepLoop_fwd {st : ℤ} (s0 : 0 ≤ st) (s1 : st ≤ 6) (a : Date) (m : ℕ)
    (hg : ∀ x : Date, x.Valid → dn a ≤ dn x → dn x ≤ dn a + 7 * m → Good x) (n : ℕ) :
    ∀ {w : Date} {t : SepState} {k : ℕ}, k + n ≤ m → dn a ≤ dn w → dn t.solar.date ≤ dn a + 7 * k →
    ClipAfter st k a w → FwdInv st w t →
    ∃ w' t', sepLoop st true n t = .ok t' ∧ FwdInv st w' t' ∧ ClipAfter st (k + n) a w' := by
  induction n with
  | zero => intro w t k _ _ _ hc hi; exact ⟨w, t, rfl, hi, hc⟩
  | succ n ih =>
    intro w t k hk haw hat hc hi
    have hw : w.Valid ∧ dn w ≤ dn t.solar.date := by
      obtain ⟨x, _, hw, e, _, _, hwx, _⟩ := hi
      rw [e, mid_date]; exact ⟨hw, hwx⟩
    obtain ⟨w1, t1, h1, h2, h3, h4, h5⟩ := sepStep_fwd s0 s1 hi
      (fun x' hx' hd => hg x' hx' (by omega) (by omega))
    obtain ⟨w2, t2, g1, g2, g3⟩ := ih (k := k + 1) (t := t1) (by omega) (by omega) (by push_cast; omega)
      ⟨w, hw.1, hc, h3⟩ h2
    refine ⟨w2, t2, ?_, g2, ?_⟩
    · show (do let st' ← sepStep st true t; sepLoop st true n st') = _
      rw [h1]; exact g1
    · rw [show k + (n + 1) = k + 1 + n by omega]; exact g3

/-- going backward: mirror image; `solar` is in the piece of `week` or in the previous month in
the same week -/
def BwdInv (st : ℤ) (w : Date) (t : SepState) : Prop :=
  ∃ x : Date, x.Valid ∧ w.Valid ∧ t.solar = mid x ∧ t.week = wkObj st w ∧ t.month = w.m ∧
    dn x ≤ dn w ∧ wk st x = wk st w ∧
    (mi x = mi w ∨ (mi x + 1 = mi w ∧ wk st x = (MS (mi x + 1) + 3 - st) / 7))

theorem last_valid {x : Date} (h : x.Valid) (hn : ¬ (x.y = 1582 ∧ x.m = 10)) :
    (⟨x.y, x.m, getDaysOfMonth x.y x.m⟩ : Date).Valid ∧
    dn ⟨x.y, x.m, getDaysOfMonth x.y x.m⟩ = MS (mi x + 1) := by
  have hb := getDaysOfMonth_bounds (y := x.y) h.1 h.2.1
  have hd := mi_div h
  obtain ⟨b1, b2, b3⟩ := hb
  obtain ⟨b3, b4⟩ := b3 hn
  refine ⟨⟨h.1, h.2.1, by simp only; omega, by simp only; omega, by simp only; tauto⟩, ?_⟩
  rw [MS_succ, hd.1, hd.2, mi_MS h]
  unfold dn dayNo ord
  simp only
  rw [if_neg (by tauto)]

theorem sepStep_bwd {w : Date} {t : SepState}
    (h : BwdInv 0 w t) (hg : ∀ x' : Date, x'.Valid → dn x' = dn t.solar.date - 7 → Good x') :
    ∃ w' t', sepStep 0 false t = .ok t' ∧ BwdInv 0 w' t' ∧ ClipSucc 0 w' w ∧
      dn t.solar.date ≤ dn t'.solar.date + 7 ∧ dn w' ≤ dn w := by
  have s0 : (0 : ℤ) ≤ 0 := le_refl _
  have s1 : (0 : ℤ) ≤ 6 := by norm_num
  obtain ⟨x, hx, hw, e1, e2, e3, e0, e4, e5⟩ := h
  obtain ⟨sol, week, month⟩ := t
  simp only at e1 e2 e3 hg ⊢
  subst e1 e2 e3
  rw [mid_date] at *
  have hx' := ofDn_valid (dn x + -7)
  have hdx' := dn_ofDn (dn x + -7)
  have hnext : (mid x).next (-7) = .ok (mid (ofDn (dn x + -7))) := mid_next' hx (-7)
  generalize ofDn (dn x + -7) = x' at hx' hdx' hnext
  have hgood := hg x' hx' (by omega)
  have bx := dn_month hx
  have bx' := dn_month hx'
  have bw := dn_month hw
  have b1 := MS_succ_bounds (mi x)
  have b2 := MS_succ_bounds (mi x - 1)
  have hfirst := first_valid hx'
  obtain ⟨g1, g2, g3⟩ := hgood
  have hlast := last_valid hx' g3
  rw [show mi x - 1 + 1 = mi x by ring] at b2
  have hwk' : wk 0 x' = wk 0 x - 1 := by unfold wk; omega
  have hmi : mi x' = mi x ∨ mi x' = mi x - 1 := by
    by_cases c : MS (mi x) < dn x'
    · left; rw [mi_iff hx']; omega
    · right; rw [mi_iff hx', show mi x - 1 + 1 = mi x by ring]; omega
  unfold sepStep
  simp only [Bool.false_eq_true, if_false, hnext]
  show ∃ w' t', (if w.m ≠ (ofSolar (mid x') 0).month then _ else _) = Except.ok t' ∧ _
  rw [ofSolar_mid]
  by_cases c : mi x' = mi w
  · have hm := (month_eq hx' hw c).2
    have hxw : mi x = mi w := by omega
    rw [if_neg (by simp [wkObj, hm])]
    refine ⟨x', _, rfl, ⟨x', hx', hx', rfl, rfl, hm.symm, le_refl _, rfl, .inl rfl⟩, ?_, ?_, ?_⟩
    · exact clipSucc_of s0 s1 hx' hw (.inl ⟨c.symm, by omega⟩)
    · simp only [mid_date]; omega
    · omega
  · have hmw : mi w = mi x' + 1 := by
      rcases e5 with e5 | ⟨e5, e6⟩
      · omega
      · rcases hmi with h | h
        · omega
        · exfalso
          have := dn_month hx'
          rw [h, show mi x - 1 + 1 = mi x by ring] at this
          unfold wk at e6
          omega
    have hne := month_ne hx' hw hmw
    rw [if_pos (by simpa [wkObj] using hne.symm), getIndex_spec s0 s1 hx' g1 g2 g3]
    have hkk := getWeeksOfMonth_spec s0 s1 hx'.1 hx'.2.1 g1 g2 _ hlast.1 hlast.2
    rw [if_neg (by omega), sub_zero] at hkk
    have hk2 : getWeeksOfMonth (wkObj 0 x').year (wkObj 0 x').month 0 = _ := hkk
    show ∃ w' t', (getWeeksOfMonth (wkObj 0 x').year (wkObj 0 x').month 0 >>= _) = Except.ok t' ∧ _
    rw [hk2]
    show ∃ w' t', (if _ = wk 0 x' - wk 0 ⟨x'.y, x'.m, 1⟩ + 1 then _ else _) = Except.ok t' ∧ _
    have hwl : wk 0 ⟨x'.y, x'.m, getDaysOfMonth x'.y x'.m⟩ = (MS (mi x' + 1) + 3 - 0) / 7 := by
      unfold wk; rw [hlast.2]
    have hlm : mi ⟨x'.y, x'.m, getDaysOfMonth x'.y x'.m⟩ = mi x' := rfl
    by_cases ci : wk 0 ⟨x'.y, x'.m, getDaysOfMonth x'.y x'.m⟩ - wk 0 ⟨x'.y, x'.m, 1⟩ + 1
        = wk 0 x' - wk 0 ⟨x'.y, x'.m, 1⟩ + 1
    · rw [if_pos ci]
      obtain ⟨f, ef, hf, hdf⟩ := getFirstDay_spec s0 s1 hx' g1 g2
      have hl := ofDn_valid (dn f + 6)
      have hdl := dn_ofDn (dn f + 6)
      have enl : (mid f).next 6 = .ok (mid (ofDn (dn f + 6))) := mid_next' hf 6
      generalize ofDn (dn f + 6) = l at hl hdl enl
      rw [ef]
      show ∃ w' t', ((mid f).next 6 >>= _) = Except.ok t' ∧ _
      rw [enl]
      have hxw : mi x = mi w := by
        rcases e5 with e5 | ⟨e5, e6⟩
        · exact e5
        · exfalso
          have hxx : mi x' = mi x := by omega
          rw [hwl, hxx] at ci
          omega
      have hwl' : wk 0 l = wk 0 x' := by unfold wk at *; omega
      have hlm' : mi l = mi w ∨ mi l = mi x' := by
        by_cases c' : dn l ≤ MS (mi x' + 1)
        · right; rw [mi_iff hl]; unfold wk at *; omega
        · left; rw [mi_iff hl, hmw]
          rw [hmw] at bw
          unfold wk at *; omega
      refine ⟨l, ⟨mid x', wkObj 0 l, l.m⟩, rfl,
        ⟨x', hx', hl, rfl, rfl, rfl, by unfold wk at *; omega, hwl'.symm, ?_⟩, ?_, ?_, ?_⟩
      · rcases hlm' with h | h
        · right; exact ⟨by omega, by omega⟩
        · left; omega
      · apply clipSucc_of s0 s1 hl hw
        rcases hlm' with h | h
        · left; exact ⟨h.symm, by omega⟩
        · right; right
          refine ⟨by omega, by omega, ?_⟩
          rw [hmw]
          have := dn_month hl
          rw [h] at this
          unfold wk at *; omega
      · simp only [mid_date]; omega
      · unfold wk at *; omega
    · rw [if_neg ci]
      have ev : Solar.fromYmd (wkObj 0 x').year (wkObj 0 x').month
          (getDaysOfMonth (wkObj 0 x').year (wkObj 0 x').month)
          = .ok (mid ⟨x'.y, x'.m, getDaysOfMonth x'.y x'.m⟩) := fromYmd_ok hlast.1
      rw [ev]
      have hwf : wk 0 ⟨x'.y, x'.m, getDaysOfMonth x'.y x'.m⟩ = wk 0 w := by
        have l1 : wk 0 x' ≤ wk 0 ⟨x'.y, x'.m, getDaysOfMonth x'.y x'.m⟩ := wk_mono (by omega)
        have l2 : wk 0 ⟨x'.y, x'.m, getDaysOfMonth x'.y x'.m⟩ ≤ wk 0 w :=
          wk_mono (by rw [hmw] at bw; omega)
        rcases e5 with e5 | ⟨e5, e6⟩
        · omega
        · have hxx : mi x' = mi x := by omega
          rw [hwl, hxx]; omega
      refine ⟨_, ⟨mid ⟨x'.y, x'.m, getDaysOfMonth x'.y x'.m⟩,
        wkObj 0 ⟨x'.y, x'.m, getDaysOfMonth x'.y x'.m⟩, x'.m⟩, rfl,
        ⟨_, hlast.1, hlast.1, rfl, rfl, rfl, le_refl _, rfl, .inl rfl⟩, ?_, ?_, ?_⟩
      · exact clipSucc_of s0 s1 hlast.1 hw (.inr (.inl ⟨by omega, hwf.symm⟩))
      · simp only [mid_date]; omega
      · rw [hmw] at bw; omega

theorem clipAfter_cons {st : ℤ} (s0 : 0 ≤ st) (s1 : st ≤ 6) {w' w : Date} (hw' : w'.Valid) (hw : w.Valid)
    (h : ClipSucc st w' w) (k : ℕ) : ∀ {a : Date}, a.Valid → ClipAfter st k w a → ClipAfter st (k + 1) w' a := by
  induction k with
  | zero =>
    intro a ha hc
    have hc' : SameClip st w a := hc
    obtain ⟨e, he, h1, h2, h3⟩ := h
    have ht := (tomorrow_spec he).1
    refine ⟨w', hw', ?_, e, he, h1, h2, ?_⟩
    · show SameClip st w' w'
      rw [sameClip_iff s0 s1 hw' hw']; exact ⟨rfl, rfl⟩
    · rw [sameClip_iff s0 s1 ht ha]
      rw [sameClip_iff s0 s1 ht hw] at h3
      rw [sameClip_iff s0 s1 hw ha] at hc'
      exact ⟨h3.1.trans hc'.1, h3.2.trans hc'.2⟩
  | succ k ih =>
    rintro a ha ⟨c, hc, h1, h2⟩
    exact ⟨c, hc, ih hc h1, h2⟩

/-- `n` clipped weeks back -/
theorem sepLoop_bwd (a : Date) (ha : a.Valid) (m : ℕ)
    (hg : ∀ x : Date, x.Valid → dn a - 7 * m ≤ dn x → dn x ≤ dn a → Good x) (n : ℕ) :
    ∀ {w : Date} {t : SepState} {k : ℕ}, k + n ≤ m → dn w ≤ dn a → dn a - 7 * k ≤ dn t.solar.date →
    ClipAfter 0 k w a → BwdInv 0 w t →
    ∃ w' t', sepLoop 0 false n t = .ok t' ∧ BwdInv 0 w' t' ∧ ClipAfter 0 (k + n) w' a := by
  induction n with
  | zero => intro w t k _ _ _ hc hi; exact ⟨w, t, rfl, hi, hc⟩
  | succ n ih =>
    intro w t k hk haw hat hc hi
    have hw : w.Valid ∧ dn t.solar.date ≤ dn w := by
      obtain ⟨x, _, hw, e, _, _, hwx, _⟩ := hi
      rw [e, mid_date]; exact ⟨hw, hwx⟩
    obtain ⟨w1, t1, h1, h2, h3, h4, h5⟩ := sepStep_bwd hi
      (fun x' hx' hd => hg x' hx' (by omega) (by omega))
    have hw1 : w1.Valid := by obtain ⟨_, _, hw, _⟩ := h2; exact hw
    obtain ⟨w2, t2, g1, g2, g3⟩ := ih (k := k + 1) (t := t1) (by omega) (by omega) (by push_cast; omega)
      (clipAfter_cons (le_refl 0) (by norm_num) hw1 hw.1 h3 k ha hc) h2
    refine ⟨w2, t2, ?_, g2, ?_⟩
    · show (do let st' ← sepStep 0 false t; sepLoop 0 false n st') = _
      rw [h1]; exact g1
    · rw [show k + (n + 1) = k + 1 + n by omega]; exact g3

/-! ### `getWeeks` -/

theorem next_one {st : ℤ} {x : Date} (h : x.Valid) :
    (wkObj st x).next 1 false = .ok (wkObj st (ofDn (dn x + 7))) := by
  unfold SolarWeek.next
  rw [if_neg (by norm_num)]
  have e : Solar.fromYmd (wkObj st x).year (wkObj st x).month (wkObj st x).day = .ok (mid x) := fromYmd_ok h
  rw [e]
  show ((mid x).next (1 * 7) >>= _) = _
  rw [one_mul, mid_next' h 7]
  rfl

/-- the loop from the `k`-th week on -/
theorem weeksLoop_spec {st : ℤ} (s0 : 0 ≤ st) (s1 : st ≤ 6) {y m : ℤ} (m1 : 1 ≤ m) (m2 : m ≤ 12)
    (h0 : -4712 ≤ y) (h1 : y ≤ 9998) (k : ℕ) :
    ∀ (fuel : ℕ) (d : ℤ), k < fuel → monthStart y m + 1 ≤ d →
      (d + 3 - st) / 7 ≤ (MS (12 * y + (m - 1) + 1) + 3 - st) / 7 →
      (MS (12 * y + (m - 1) + 1) + 3 - st) / 7 = (d + 3 - st) / 7 + k →
      SolarMonth.weeksLoop ⟨y, m⟩ fuel (wkObj st (ofDn d))
        = some (.ok ((List.range (k + 1)).map (fun (i : ℕ) => wkObj st (ofDn (d + 7 * i))))) := by
  have hMS := MS_eq (y := y) m1 m2
  have hb := MS_succ_bounds (12 * y + (m - 1))
  have hb2 := MS_succ_bounds (12 * y + (m - 1) + 1)
  induction k with
  | zero =>
    intro fuel d hf hd hle hk
    obtain ⟨fuel, rfl⟩ : ∃ j, fuel = j + 1 := ⟨fuel - 1, by omega⟩
    unfold SolarMonth.weeksLoop
    rw [next_one (ofDn_valid _), dn_ofDn]
    have hv := ofDn_valid (d + 7)
    have hdv := dn_ofDn (d + 7)
    have hmi : mi (ofDn (d + 7)) = 12 * y + (m - 1) ∨ mi (ofDn (d + 7)) = 12 * y + (m - 1) + 1 := by
      by_cases c : d + 7 ≤ MS (12 * y + (m - 1) + 1)
      · left; rw [mi_iff hv]; omega
      · right; rw [mi_iff hv]; push_cast at hk; omega
    have hyy : (ofDn (d + 7)).y = y ∨ (ofDn (d + 7)).y = y + 1 := by
      have := mi_div hv; omega
    obtain ⟨f, ef, hf', hdf⟩ := getFirstDay_spec s0 s1 hv (by omega) (by omega)
    simp only [ef]
    have hwf : (7 * wk st (ofDn (d + 7)) + st - 3) > MS (12 * y + (m - 1) + 1) := by
      unfold wk; rw [hdv]; push_cast at hk; omega
    have hfm : mi f = 12 * y + (m - 1) + 1 := by
      rw [mi_iff hf']
      unfold wk at hdf; rw [hdv] at hdf; unfold wk at hwf; rw [hdv] at hwf; push_cast at hk
      omega
    have : (mid f).year > y ∨ (mid f).month > m := by
      have := mi_div hf'
      show f.y > y ∨ f.m > m
      omega
    rw [if_pos this]
    simp
  | succ k ih =>
    intro fuel d hf hd hle hk
    obtain ⟨fuel, rfl⟩ : ∃ j, fuel = j + 1 := ⟨fuel - 1, by omega⟩
    unfold SolarMonth.weeksLoop
    rw [next_one (ofDn_valid _), dn_ofDn]
    have hv := ofDn_valid (d + 7)
    have hdv := dn_ofDn (d + 7)
    push_cast at hk
    have hmi : mi (ofDn (d + 7)) = 12 * y + (m - 1) ∨ mi (ofDn (d + 7)) = 12 * y + (m - 1) + 1 := by
      by_cases c : d + 7 ≤ MS (12 * y + (m - 1) + 1)
      · left; rw [mi_iff hv]; omega
      · right; rw [mi_iff hv]; omega
    have hyy : (ofDn (d + 7)).y = y ∨ (ofDn (d + 7)).y = y + 1 := by
      have := mi_div hv; omega
    obtain ⟨f, ef, hf', hdf⟩ := getFirstDay_spec s0 s1 hv (by omega) (by omega)
    simp only [ef]
    have hfm : mi f = 12 * y + (m - 1) := by
      rw [mi_iff hf']
      unfold wk at hdf; rw [hdv] at hdf
      omega
    have : ¬ ((mid f).year > y ∨ (mid f).month > m) := by
      have := mi_div hf'
      show ¬ (f.y > y ∨ f.m > m)
      omega
    rw [if_neg this, ih fuel (d + 7) (by omega) (by omega) (by omega) (by omega)]
    simp only [Option.some.injEq, Except.ok.injEq]
    rw [List.range_succ_eq_map (n := k + 1), List.map_cons, List.map_map]
    congr 1
    · simp
    · apply List.map_congr_left
      intro i _
      simp only [Function.comp]
      congr 2
      push_cast; ring

end Cal
