import Verif.Proof.WorkDay
import Verif.Props.Holiday

/-! # C23: stepping over working days -/

section
open Spec Hol HolidayUtil Work

/-- the date `k` days from `x` (direction `e`) lies between `x` and `y` -/
private theorem range_of {e : ℤ} (he : e = 1 ∨ e = -1) {x y : Date} (hx : x.Valid) (hy : y.Valid)
    (x0 : 1000 ≤ x.y) (x1 : x.y ≤ 9999) (y0 : 1000 ≤ y.y) (y1 : y.y ≤ 9999) {k : ℕ}
    (hk : Cal.dn y = Cal.dn x + e * k) (j : ℕ) (hj : j ≤ k) :
    1000 ≤ (Cal.ofDn (Cal.dn x + e * j)).y ∧ (Cal.ofDn (Cal.dn x + e * j)).y ≤ 9999 := by
  have hv := Cal.ofDn_valid (Cal.dn x + e * j)
  rcases he with rfl | rfl
  · have a := year_mono hx hv (by rw [Cal.dn_ofDn]; omega)
    have b := year_mono hv hy (by rw [Cal.dn_ofDn]; omega)
    omega
  · have a := year_mono hv hx (by rw [Cal.dn_ofDn]; omega)
    have b := year_mono hy hv (by rw [Cal.dn_ofDn]; omega)
    omega

/-- **C23** for every well-formed holiday table, if `y` is the `n`-th working day after (`e = 1`) or
before (`e = -1`) the date of `s`, `s.next(e * n, True)` terminates and returns that date at the same
time of day. -/
theorem C23_next_work (names : List PyStr) (t : List HRec) (h : TOk names t) (e : ℤ)
    (he : e = 1 ∨ e = -1) (s : Solar) (hs : s.Valid) (s0 : 1000 ≤ s.year) (s1 : s.year ≤ 9999)
    (n : ℕ) (hn : 1 ≤ n) (y : Date) (hy : y.Valid) (y0 : 1000 ≤ y.y) (y1 : y.y ≤ 9999)
    (hw : IsNth e (Working t) n s.date y) :
    ∃ u : Solar, u.date = y ∧ Solar.SameClock s u ∧
      ∃ fuel₀ : ℕ, ∀ fuel, fuel₀ ≤ fuel →
        Solar.nextWork ⟨names, tableText t⟩ s (e * n) fuel = some (.ok u) := by
  obtain ⟨k, k1, hd, hwy, hc⟩ := hw
  rw [ncard_eq he _ hs.1] at hc
  rw [Cal.daysAfter_iff hs.1 hy] at hd
  have hyk : Cal.ofDn (Cal.dn s.date + e * k) = y := by rw [← hd]; exact Cal.ofDn_dn hy
  have key := fun fuel (hf : k ≤ fuel) => workLoop_spec h he k fuel s n hs hn k1 hf
    (fun j _ hj => range_of he hs.1 hy s0 s1 y0 y1 hd j hj) hc (by rw [hyk]; exact hwy)
  obtain ⟨u, h1, h2, h3, h4⟩ := key k (le_refl k)
  refine ⟨u, h4.trans hyk, h3, k, ?_⟩
  intro fuel hf
  obtain ⟨v, g1, g2, g3, g4⟩ := key fuel hf
  have huv : v = u := by
    have e1 : v.date = u.date := g4.trans h4.symm
    obtain ⟨a1, a2, a3⟩ := g3
    obtain ⟨b1, b2, b3⟩ := h3
    cases u; cases v
    simp only [Solar.date, Date.mk.injEq] at e1
    simp_all
  unfold Solar.nextWork
  rw [Cal.fromYmdHms_ok hs.1 hs.2]
  dsimp only
  rw [if_pos (by rcases he with rfl | rfl <;> omega)]
  rw [show (e * (n : ℤ)).natAbs = n by rcases he with rfl | rfl <;> omega,
    show (if e * (n : ℤ) < 0 then (-1 : ℤ) else 1) = e by
      rcases he with rfl | rfl
      · rw [if_neg (by omega)]
      · rw [if_pos (by omega)]]
  rw [g1, huv]

/-- **C23** that day exists, at most `7 * (n + number of records)` days away, unless this reaches out
of the four-digit years: the loop always terminates. -/
theorem C23_exists (t : List HRec) (e : ℤ)
    (he : e = 1 ∨ e = -1) (x : Date) (hx : x.Valid) (x0 : 1000 ≤ x.y) (x1 : x.y ≤ 9999)
    (n : ℕ) (hn : 1 ≤ n) (z : Date) (hz : z.Valid) (z0 : 1000 ≤ z.y) (z1 : z.y ≤ 9999)
    (hd : DaysAfter (e * (7 * (n + t.length) : ℕ)) x z) :
    ∃ y : Date, y.Valid ∧ 1000 ≤ y.y ∧ y.y ≤ 9999 ∧ IsNth e (Working t) n x y := by
  rw [Cal.daysAfter_iff hx hz] at hd
  have hr := range_of he hx hz x0 x1 z0 z1 hd
  have hcount := work_count (t := t) he (Cal.dn x) (7 * (n + t.length)) (fun j _ hj => hr j hj)
  rw [cnt_weekdays he] at hcount
  obtain ⟨k, k1, k2, k3, k4⟩ := exists_nth (fun i => Working t (Cal.ofDn i)) e (Cal.dn x) _ n hn
    (show n ≤ cnt _ e (Cal.dn x) (7 * (n + t.length)) by omega)
  refine ⟨Cal.ofDn (Cal.dn x + e * k), Cal.ofDn_valid _, (hr k k2).1, (hr k k2).2, k, k1, ?_, k4, ?_⟩
  · rw [Cal.daysAfter_iff hx (Cal.ofDn_valid _), Cal.dn_ofDn]
  · rw [ncard_eq he _ hx]; exact k3

/-- **C23** the `n`-th working day is unique. -/
theorem C23_unique (t : List HRec) (e : ℤ) (he : e = 1 ∨ e = -1) (x y z : Date) (hx : x.Valid)
    (hy : y.Valid) (hz : z.Valid) (n : ℕ) (h1 : IsNth e (Working t) n x y)
    (h2 : IsNth e (Working t) n x z) : y = z := by
  have mono : ∀ (P : ℤ → Prop) (d : ℤ) (a b : ℕ), a ≤ b → cnt P e d a ≤ cnt P e d b := by
    intro P d a b hab
    classical
    unfold cnt
    exact Finset.card_le_card (Finset.filter_subset_filter _ (Finset.range_mono hab))
  have key : ∀ (y z : Date), y.Valid → z.Valid → ∀ (k l : ℕ), 1 ≤ l → DaysAfter (e * k) x y →
      DaysAfter (e * l) x z → Working t z → k < l →
      cnt (fun i => Working t (Cal.ofDn i)) e (Cal.dn x) k
        ≠ cnt (fun i => Working t (Cal.ofDn i)) e (Cal.dn x) l := by
    intro y z hy hz k l hl _ hd hw hkl
    obtain ⟨m, rfl⟩ : ∃ m, l = m + 1 := ⟨l - 1, by omega⟩
    rw [Cal.daysAfter_iff hx hz] at hd
    have : Cal.ofDn (Cal.dn x + e * ((m : ℤ) + 1)) = z := by
      have h := Cal.ofDn_dn hz
      rw [hd] at h
      exact_mod_cast h
    rw [cnt_succ, if_pos (by rw [this]; exact hw)]
    have := mono (fun i => Working t (Cal.ofDn i)) (Cal.dn x) k m (by omega)
    omega
  obtain ⟨k, k1, a1, a2, a3⟩ := h1
  obtain ⟨l, l1, b1, b2, b3⟩ := h2
  rw [ncard_eq he _ hx] at a3 b3
  have : k = l := by
    rcases lt_trichotomy k l with h | h | h
    · exact absurd (a3.trans b3.symm) (key y z hy hz k l l1 a1 b1 b2 h)
    · exact h
    · exact absurd (b3.trans a3.symm) (key z y hz hy l k k1 b1 a1 a2 h)
  subst this
  rw [Cal.daysAfter_iff hx hy] at a1
  rw [Cal.daysAfter_iff hx hz] at b1
  rw [← Cal.ofDn_dn hy, ← Cal.ofDn_dn hz, a1, b1]

/-- **C23** `next(0, True)` is the date itself, whatever the table. -/
theorem C23_zero (st : HState) (s : Solar) (hs : s.Valid) (fuel : ℕ) :
    Solar.nextWork st s 0 fuel = some (.ok s) := by
  unfold Solar.nextWork
  rw [Cal.fromYmdHms_ok hs.1 hs.2]
  rfl

/-- a case: in the sample table Saturday 2020-10-03 is a working day and 2020-10-04 a holiday; from
Wednesday 2020-09-30 the 3rd working day exists. -/
example : ∃ y : Date, y.Valid ∧ IsNth 1 (Working sampleTable) 3 ⟨2020, 9, 30⟩ y := by
  obtain ⟨y, h1, _, _, h2⟩ := C23_exists sampleTable 1 (Or.inl rfl) ⟨2020, 9, 30⟩
    (by decide) (by decide) (by decide) 3 (by decide) ⟨2020, 11, 11⟩ (by decide) (by decide) (by decide)
    (by rw [Cal.daysAfter_iff (by decide) (by decide)]; decide)
  exact ⟨y, h1, h2⟩

/-- and from Friday 2020-10-02 the next working day is the Saturday with a record -/
example : ∃ u : Solar, u.date = ⟨2020, 10, 3⟩ ∧ Solar.SameClock ⟨2020, 10, 2, 8, 0, 0⟩ u ∧
    ∃ fuel₀ : ℕ, ∀ fuel, fuel₀ ≤ fuel →
      Solar.nextWork ⟨sampleNames, tableText sampleTable⟩ ⟨2020, 10, 2, 8, 0, 0⟩ (1 * (1 : ℕ)) fuel
        = some (.ok u) := by
  have hw : Working sampleTable ⟨2020, 10, 3⟩ := by
    unfold Working
    rw [show sampleTable.find? (fun r => decide (r.day = ymd8 2020 10 3)) = sampleTable[1]? by decide]
    rfl
  refine C23_next_work sampleNames sampleTable sampleOk 1 (Or.inl rfl) _ (by decide) (by decide)
    (by decide) 1 (by decide) ⟨2020, 10, 3⟩ (by decide) (by decide) (by decide) ⟨1, by decide, ?_, hw, ?_⟩
  · rw [Cal.daysAfter_iff (by decide) (by decide)]; decide
  · rw [ncard_eq (Or.inl rfl) _ (by decide), cnt_succ, cnt_zero, if_pos]
    rw [show Cal.ofDn _ = ⟨2020, 10, 3⟩ from
      (congrArg Cal.ofDn (by decide)).trans (Cal.ofDn_dn (x := ⟨2020, 10, 3⟩) (by decide))]
    exact hw

end
