import Verif.Proof.Holiday2
import Verif.Spec.WorkDays
import Mathlib.Data.Finset.Card
import Mathlib.Data.Finset.Range
import Mathlib.Data.Int.Interval

/-! The working-day loop of `Solar.next`. -/

namespace Work
open Spec Hol HolidayUtil Classical

/-- working days among the `k` days after `d` in direction `e` -/
noncomputable def cnt (P : ℤ → Prop) (e d : ℤ) (k : ℕ) : ℕ :=
  ((Finset.range k).filter (fun (j : ℕ) => P (d + e * (j + 1)))).card

theorem cnt_zero (P : ℤ → Prop) (e d : ℤ) : cnt P e d 0 = 0 := rfl

theorem cnt_succ (P : ℤ → Prop) (e d : ℤ) (k : ℕ) :
    cnt P e d (k + 1) = cnt P e d k + if P (d + e * (k + 1)) then 1 else 0 := by
  unfold cnt
  rw [Finset.range_add_one, Finset.filter_insert]
  split_ifs with h
  · rw [Finset.card_insert_of_notMem (by simp)]
  · rfl

theorem cnt_left (P : ℤ → Prop) (e d : ℤ) (k : ℕ) :
    cnt P e d (k + 1) = (if P (d + e) then 1 else 0) + cnt P e (d + e) k := by
  induction k with
  | zero => rw [cnt_succ, cnt_zero, cnt_zero]; simp
  | succ k ih =>
    rw [cnt_succ, ih, cnt_succ P e (d + e) k]
    have : d + e * (((k + 1 : ℕ) : ℤ) + 1) = d + e + e * ((k : ℤ) + 1) := by push_cast; ring
    rw [this]; ring

/-- the set in `IsNth` has `cnt` elements -/
theorem ncard_eq {e : ℤ} (he : e = 1 ∨ e = -1) (W : Date → Prop) {x : Date} (hx : x.Valid) (k : ℕ) :
    {z : Date | z.Valid ∧ W z ∧ ∃ j : ℕ, 1 ≤ j ∧ j ≤ k ∧ DaysAfter (e * j) x z}.ncard
      = cnt (fun i => W (Cal.ofDn i)) e (Cal.dn x) k := by
  have hinj : Function.Injective (fun j : ℕ => Cal.ofDn (Cal.dn x + e * ((j : ℤ) + 1))) := by
    intro a b h
    have := congrArg Cal.dn h
    simp only [Cal.dn_ofDn] at this
    rcases he with rfl | rfl <;> omega
  have hset : {z : Date | z.Valid ∧ W z ∧ ∃ j : ℕ, 1 ≤ j ∧ j ≤ k ∧ DaysAfter (e * j) x z}
      = (((Finset.range k).filter (fun (j : ℕ) => W (Cal.ofDn (Cal.dn x + e * (j + 1))))).image
          (fun j : ℕ => Cal.ofDn (Cal.dn x + e * ((j : ℤ) + 1))) : Finset Date) := by
    ext z
    simp only [Set.mem_setOf_eq, Finset.coe_image, Set.mem_image, Finset.mem_coe, Finset.mem_filter,
      Finset.mem_range]
    constructor
    · rintro ⟨hz, hw, j, h1, h2, hd⟩
      rw [Cal.daysAfter_iff hx hz] at hd
      have e1 : Cal.ofDn (Cal.dn x + e * (((j - 1 : ℕ) : ℤ) + 1)) = z := by
        rw [show (((j - 1 : ℕ) : ℤ) + 1) = (j : ℤ) by omega, ← hd]
        exact Cal.ofDn_dn hz
      exact ⟨j - 1, ⟨by omega, by rw [e1]; exact hw⟩, e1⟩
    · rintro ⟨j, ⟨h1, h2⟩, rfl⟩
      refine ⟨Cal.ofDn_valid _, h2, j + 1, by omega, by omega, ?_⟩
      rw [Cal.daysAfter_iff hx (Cal.ofDn_valid _), Cal.dn_ofDn]
      push_cast; ring
  rw [hset, Set.ncard_coe_finset, Finset.card_image_of_injective _ hinj]
  rfl

/-- years grow with day numbers -/
theorem year_mono {a b : Date} (ha : a.Valid) (hb : b.Valid) (h : Cal.dn a ≤ Cal.dn b) : a.y ≤ b.y := by
  by_contra hc
  have h1 := Cal.dn_month ha
  have h2 := Cal.dn_month hb
  have d1 := Cal.mi_div ha
  have d2 := Cal.mi_div hb
  have := Cal.MS_le_of_le (show Cal.mi b + 1 ≤ Cal.mi a by omega)
  omega

theorem weekday_iff {x : Date} (hx : x.Valid) :
    (∃ w : ℤ, 1 ≤ w ∧ w ≤ 5 ∧ IsWeekday w x) ↔ ¬ ((Cal.dn x + 3) % 7 = 0 ∨ (Cal.dn x + 3) % 7 = 6) := by
  constructor
  · rintro ⟨w, h1, h2, h3⟩
    rw [Cal.isWeekday_iff hx] at h3
    omega
  · intro h
    exact ⟨(Cal.dn x + 3) % 7, by omega, by omega, (Cal.isWeekday_iff hx).2 rfl⟩

theorem workStep_spec {names : List PyStr} {t : List HRec} (ht : TOk names t) {s : Solar} (hs : s.Valid)
    (e : ℤ) (y0 : 1000 ≤ (Cal.ofDn (Cal.dn s.date + e)).y) (y1 : (Cal.ofDn (Cal.dn s.date + e)).y ≤ 9999) :
    ∃ u : Solar, Solar.workStep ⟨names, tableText t⟩ s e = .ok (u, decide (Working t u.date)) ∧ u.Valid ∧
      Solar.SameClock s u ∧ u.date = Cal.ofDn (Cal.dn s.date + e) := by
  obtain ⟨u, h1, h2, h3, h4⟩ := Cal.nextDay_spec hs e
  have hd : u.date = Cal.ofDn (Cal.dn s.date + e) := by rw [← h4]; exact (Cal.ofDn_dn h2.1).symm
  refine ⟨u, ?_, h2, h3, hd⟩
  rw [← hd] at y0 y1
  have hb := Str.valid_field_bounds h2
  unfold Solar.workStep
  rw [h1]
  show (getHoliday _ u.year u.month u.day >>= _) = _
  rw [getHoliday_table (y := u.year) ht y0 y1 hb.1 (by omega) hb.2.2.1 (by omega)]
  show (match Option.map (shown names) _ with | none => _ | some h => _) = _
  unfold Working
  have hym : ymd8 u.date.y u.date.m u.date.d = ymd8 u.year u.month u.day := rfl
  rw [hym]
  cases hf : t.find? (fun r => decide (r.day = ymd8 u.year u.month u.day)) with
  | none =>
    simp only [Option.map_none]
    show Except.ok _ = _
    congr 2
    rw [Cal.getWeek_dn h2 (by show -4712 ≤ u.date.y; omega) y1]
    have := weekday_iff h2.1
    by_cases c : (Cal.dn u.date + 3) % 7 = 0 ∨ (Cal.dn u.date + 3) % 7 = 6
    · have h : ¬ (∃ w : ℤ, 1 ≤ w ∧ w ≤ 5 ∧ IsWeekday w u.date) := fun h => (this.1 h) c
      simp only [c, h, decide_true, decide_false, Bool.not_true]
    · have h := this.2 c
      simp only [c, h, decide_true, decide_false, Bool.not_false]
  | some r =>
    simp only [Option.map_some]
    show Except.ok _ = _
    congr 2
    unfold shown
    simp

theorem workLoop_spec {names : List PyStr} {t : List HRec} (ht : TOk names t) {e : ℤ} (he : e = 1 ∨ e = -1)
    (k : ℕ) : ∀ (fuel : ℕ) (s : Solar) (n : ℕ), s.Valid → 1 ≤ n → 1 ≤ k → k ≤ fuel →
      (∀ j : ℕ, 1 ≤ j → j ≤ k → 1000 ≤ (Cal.ofDn (Cal.dn s.date + e * j)).y ∧
        (Cal.ofDn (Cal.dn s.date + e * j)).y ≤ 9999) →
      cnt (fun i => Working t (Cal.ofDn i)) e (Cal.dn s.date) k = n →
      Working t (Cal.ofDn (Cal.dn s.date + e * k)) →
      ∃ u, Solar.workLoop ⟨names, tableText t⟩ e fuel n s = some (.ok u) ∧ u.Valid ∧ Solar.SameClock s u ∧
        u.date = Cal.ofDn (Cal.dn s.date + e * k) := by
  induction k with
  | zero => intro _ _ _ _ _ h; omega
  | succ k ih =>
    intro fuel s n hs hn _ hf hr hc hw
    obtain ⟨n, rfl⟩ : ∃ m, n = m + 1 := ⟨n - 1, by omega⟩
    obtain ⟨fuel, rfl⟩ : ∃ m, fuel = m + 1 := ⟨fuel - 1, by omega⟩
    have h1 := hr 1 (by omega) (by omega)
    simp only [Nat.cast_one, mul_one] at h1
    obtain ⟨u, hst, hu, hcl, hud⟩ := workStep_spec ht hs e h1.1 h1.2
    have hdu : Cal.dn u.date = Cal.dn s.date + e := by rw [hud, Cal.dn_ofDn]
    unfold Solar.workLoop
    rw [hst]
    dsimp only
    rw [cnt_left] at hc
    simp only [← hud] at hc
    by_cases k0 : k = 0
    · subst k0
      rw [cnt_zero] at hc
      have hwu : Working t u.date := by
        have : Cal.ofDn (Cal.dn s.date + e * ((0 + 1 : ℕ) : ℤ)) = u.date := by rw [hud]; simp
        rwa [this] at hw
      rw [if_pos hwu] at hc
      have : n = 0 := by omega
      subst this
      refine ⟨u, ?_, hu, hcl, by rw [hud]; simp⟩
      rw [if_pos (by simpa using hwu)]
      unfold Solar.workLoop
      rfl
    · have hr' : ∀ j : ℕ, 1 ≤ j → j ≤ k → 1000 ≤ (Cal.ofDn (Cal.dn u.date + e * j)).y ∧
        (Cal.ofDn (Cal.dn u.date + e * j)).y ≤ 9999 := by
        intro j h1 h2
        have := hr (j + 1) (by omega) (by omega)
        rw [hdu, show Cal.dn s.date + e + e * (j : ℤ) = Cal.dn s.date + e * ((j + 1 : ℕ) : ℤ) by push_cast; ring]
        exact this
      have hk : Cal.dn u.date + e * (k : ℤ) = Cal.dn s.date + e * ((k + 1 : ℕ) : ℤ) := by
        rw [hdu]; push_cast; ring
      rw [← hk] at hw
      have hpos : 1 ≤ cnt (fun i => Working t (Cal.ofDn i)) e (Cal.dn u.date) k := by
        obtain ⟨k', rfl⟩ : ∃ m, k = m + 1 := ⟨k - 1, by omega⟩
        rw [cnt_succ, if_pos (by push_cast at hw ⊢; exact hw)]
        omega
      rw [← hdu] at hc
      by_cases hwu : Working t u.date
      · rw [if_pos hwu] at hc
        obtain ⟨v, hv, a, b, c⟩ := ih fuel u n hu (by omega) (by omega) (by omega) hr' (by omega) hw
        refine ⟨v, ?_, a, ?_, by rw [c, hk]⟩
        · rw [if_pos (by simpa using hwu)]; exact hv
        · exact ⟨b.1.trans hcl.1, b.2.1.trans hcl.2.1, b.2.2.trans hcl.2.2⟩
      · rw [if_neg hwu] at hc
        obtain ⟨v, hv, a, b, c⟩ := ih fuel u (n + 1) hu (by omega) (by omega) (by omega) hr' (by omega) hw
        refine ⟨v, ?_, a, ?_, by rw [c, hk]⟩
        · rw [if_neg (by simpa using hwu)]; exact hv
        · exact ⟨b.1.trans hcl.1, b.2.1.trans hcl.2.1, b.2.2.trans hcl.2.2⟩

/-! ### existence -/

theorem digitCh_inj {a b : ℤ} (h : digitCh a = digitCh b) : a % 10 = b % 10 := by
  unfold digitCh at h
  have ha : (a % 10).toNat < 10 := by omega
  have hb : (b % 10).toNat < 10 := by omega
  have key : ∀ x < 10, ∀ y < 10, Char.ofNat (48 + x) = Char.ofNat (48 + y) → x = y := by decide
  have := key _ ha _ hb h
  omega

theorem ymd8_inj {a b : Date} (ha : a.Valid) (hb : b.Valid) (a0 : 1000 ≤ a.y) (a1 : a.y ≤ 9999)
    (b0 : 1000 ≤ b.y) (b1 : b.y ≤ 9999) (h : ymd8 a.y a.m a.d = ymd8 b.y b.m b.d) : a = b := by
  simp only [ymd8, List.cons.injEq, and_true] at h
  obtain ⟨h1, h2, h3, h4, h5, h6, h7, h8⟩ := h
  replace h1 := digitCh_inj h1
  replace h2 := digitCh_inj h2
  replace h3 := digitCh_inj h3
  replace h4 := digitCh_inj h4
  replace h5 := digitCh_inj h5
  replace h6 := digitCh_inj h6
  replace h7 := digitCh_inj h7
  replace h8 := digitCh_inj h8
  have va := ha.2.1; have vb := hb.2.1; have ua := ha.1; have ub := hb.1
  have wa := ha.2.2.1; have wb := hb.2.2.1
  have la := Cal.lastDay_bounds a.y a.m
  have lb := Cal.lastDay_bounds b.y b.m
  have xa := ha.2.2.2.1; have xb := hb.2.2.2.1
  have e1 : a.y = b.y := by omega
  have e2 : a.m = b.m := by omega
  have e3 : a.d = b.d := by omega
  cases a; cases b; simp only [Date.mk.injEq]; exact ⟨e1, e2, e3⟩

def Wd (i : ℤ) : Prop := ¬ ((i + 3) % 7 = 0 ∨ (i + 3) % 7 = 6)

theorem cnt_weekdays {e : ℤ} (he : e = 1 ∨ e = -1) (d : ℤ) (m : ℕ) : cnt Wd e d (7 * m) = 5 * m := by
  induction m with
  | zero => rfl
  | succ m ih =>
    rw [show 7 * (m + 1) = 7 * m + 1 + 1 + 1 + 1 + 1 + 1 + 1 by ring]
    iterate 7 rw [cnt_succ]
    rw [ih]
    push_cast
    obtain ⟨c, hc⟩ : ∃ c : ℤ, c = d + e * (7 * m) + 3 := ⟨_, rfl⟩
    have key : ∀ i : ℤ, (if Wd (d + e * (7 * (m : ℤ) + i)) then (1 : ℕ) else 0)
        = if (c + e * i) % 7 = 0 ∨ (c + e * i) % 7 = 6 then 0 else 1 := by
      intro i
      unfold Wd
      rw [show d + e * (7 * (m : ℤ) + i) + 3 = c + e * i by rw [hc]; ring]
      split_ifs with h1 h2 h2 <;> first | rfl | exact absurd h2 h1 | exact absurd h1 (by simpa using h2)
    have k1 := key 1
    have k2 := key (1 + 1)
    have k3 := key (2 + 1)
    have k4 := key (3 + 1)
    have k5 := key (4 + 1)
    have k6 := key (5 + 1)
    have k7 := key (6 + 1)
    simp only [← add_assoc] at k1 k2 k3 k4 k5 k6 k7
    rw [k1, k2, k3, k4, k5, k6, k7]
    clear k1 k2 k3 k4 k5 k6 k7 key hc ih
    have h7 : c % 7 = 0 ∨ c % 7 = 1 ∨ c % 7 = 2 ∨ c % 7 = 3 ∨ c % 7 = 4 ∨ c % 7 = 5 ∨ c % 7 = 6 := by omega
    rcases he with rfl | rfl <;> rcases h7 with h | h | h | h | h | h | h <;>
      (simp only [← Int.emod_add_emod c 7, h]; norm_num; try ring)

theorem work_count {t : List HRec} {e : ℤ} (he : e = 1 ∨ e = -1) (d : ℤ) (N : ℕ)
    (hr : ∀ j : ℕ, 1 ≤ j → j ≤ N → 1000 ≤ (Cal.ofDn (d + e * j)).y ∧ (Cal.ofDn (d + e * j)).y ≤ 9999) :
    cnt Wd e d N ≤ cnt (fun i => Working t (Cal.ofDn i)) e d N + t.length := by
  set A := (Finset.range N).filter (fun (j : ℕ) => Wd (d + e * (j + 1))) with hA
  set B := (Finset.range N).filter (fun (j : ℕ) => Working t (Cal.ofDn (d + e * (j + 1)))) with hB
  show A.card ≤ B.card + t.length
  have h1 : A.card ≤ B.card + (A \ B).card := by
    have := Finset.card_le_card (show A ⊆ B ∪ (A \ B) by intro x hx; simp; tauto)
    exact this.trans (Finset.card_union_le _ _)
  have h2 : (A \ B).card ≤ t.length := by
    have hmaps : ∀ j ∈ A \ B, (fun j : ℕ => ymd8 (Cal.ofDn (d + e * (j + 1))).y (Cal.ofDn (d + e * (j + 1))).m
        (Cal.ofDn (d + e * (j + 1))).d) j ∈ (t.map HRec.day).toFinset := by
      intro j hj
      rw [Finset.mem_sdiff, hA, hB, Finset.mem_filter, Finset.mem_filter] at hj
      obtain ⟨⟨hj, hw⟩, hn⟩ := hj
      have hn : ¬ Working t (Cal.ofDn (d + e * (j + 1))) := fun h => hn ⟨hj, h⟩
      unfold Working at hn
      cases hf : t.find? (fun r => decide (r.day = ymd8 (Cal.ofDn (d + e * (j + 1))).y
          (Cal.ofDn (d + e * (j + 1))).m (Cal.ofDn (d + e * (j + 1))).d)) with
      | none =>
        rw [hf] at hn
        dsimp only at hn
        rw [weekday_iff (Cal.ofDn_valid _), Cal.dn_ofDn] at hn
        exact absurd hw hn
      | some r =>
        have := List.find?_some hf
        rw [decide_eq_true_iff] at this
        rw [List.mem_toFinset, List.mem_map]
        exact ⟨r, List.mem_of_find?_eq_some hf, this⟩
    have hinj : Set.InjOn (fun j : ℕ => ymd8 (Cal.ofDn (d + e * (j + 1))).y (Cal.ofDn (d + e * (j + 1))).m
        (Cal.ofDn (d + e * (j + 1))).d) (A \ B : Finset ℕ) := by
      intro a ha b hb hab
      rw [Finset.mem_coe, Finset.mem_sdiff, hA, Finset.mem_filter, Finset.mem_range] at ha hb
      have ra := hr (a + 1) (by omega) (by omega)
      have rb := hr (b + 1) (by omega) (by omega)
      push_cast at ra rb
      have := ymd8_inj (Cal.ofDn_valid _) (Cal.ofDn_valid _) ra.1 ra.2 rb.1 rb.2 hab
      have := congrArg Cal.dn this
      rw [Cal.dn_ofDn, Cal.dn_ofDn] at this
      rcases he with rfl | rfl <;> omega
    have := Finset.card_le_card_of_injOn _ hmaps hinj
    refine this.trans ((List.toFinset_card_le _).trans ?_)
    simp
  omega

theorem exists_nth (P : ℤ → Prop) (e d : ℤ) (N n : ℕ) (hn : 1 ≤ n) (h : n ≤ cnt P e d N) :
    ∃ k, 1 ≤ k ∧ k ≤ N ∧ cnt P e d k = n ∧ P (d + e * k) := by
  induction N with
  | zero => rw [cnt_zero] at h; omega
  | succ N ih =>
    by_cases hc : n ≤ cnt P e d N
    · obtain ⟨k, a, b, c⟩ := ih hc
      exact ⟨k, a, by omega, c⟩
    · rw [cnt_succ] at h
      split_ifs at h with hp
      · exact ⟨N + 1, by omega, le_refl _, by rw [cnt_succ, if_pos hp]; omega, by push_cast; exact hp⟩
      · omega

end Work
