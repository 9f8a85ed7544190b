import Verif.Props.SolarParts
import Verif.Proof.Texts

/-! # C95: the texts of years, half years, quarters, months and weeks tell the periods apart -/

open Spec SolarUtil

section

/-- **C95** years -/
theorem C95_years (y y' : ℤ) :
    (SolarYear.toString y = SolarYear.toString y' ↔ y = y') ∧ (SolarYear.toFullString y = SolarYear.toFullString y' ↔ y = y') := by
  constructor
  · exact ⟨Keys.strInt_inj, fun h => by rw [h]⟩
  · refine ⟨fun h => (Txt.str_sep (c := '年') (by decide) (s := []) (t := []) h).1, fun h => by rw [h]⟩

/-- **C95** months -/
theorem C95_months (a b : SolarMonth) :
    (a.toString = b.toString ↔ a = b) ∧ (a.toFullString = b.toFullString ↔ a = b) := by
  constructor
  · refine ⟨fun h => ?_, fun h => by rw [h]⟩
    obtain ⟨h1, h2⟩ := Txt.str_sep (by decide) h
    have := Keys.strInt_inj h2
    cases a; cases b; simp_all
  · refine ⟨fun h => ?_, fun h => by rw [h]⟩
    obtain ⟨h1, h2⟩ := Txt.str_sep (by decide) h
    have := (Txt.str_sep (c := '月') (by decide) (s := []) (t := []) h2).1
    cases a; cases b; simp_all

/-- **C95** half years: same text exactly when they consist of the same months -/
theorem C95_half_years (a b : SolarHalfYear) (ha1 : 1 ≤ a.month) (ha2 : a.month ≤ 12) (hb1 : 1 ≤ b.month) (hb2 : b.month ≤ 12) :
    (a.toString = b.toString ↔ a.getMonths = b.getMonths) ∧ (a.toFullString = b.toFullString ↔ a.getMonths = b.getMonths) := by
  have hm : a.getMonths = b.getMonths ↔ a.year = b.year ∧ a.getIndex = b.getIndex := by
    unfold SolarHalfYear.getMonths
    simp only [show pyRange 0 6 = [0, 1, 2, 3, 4, 5] by decide, List.map, List.cons.injEq, SolarMonth.mk.injEq, and_true]
    constructor
    · rintro ⟨⟨h1, h2⟩, -⟩; exact ⟨h1, by omega⟩
    · rintro ⟨h1, h2⟩; rw [h1, h2]; simp
  have ia : a.getIndex = 1 ∨ a.getIndex = 2 := by unfold SolarHalfYear.getIndex pyCeilDiv; omega
  have ib : b.getIndex = 1 ∨ b.getIndex = 2 := by unfold SolarHalfYear.getIndex pyCeilDiv; omega
  rw [hm]
  constructor
  · constructor
    · intro h
      obtain ⟨h1, h2⟩ := Txt.str_sep (by decide) h
      exact ⟨h1, Keys.strInt_inj h2⟩
    · rintro ⟨h1, h2⟩; unfold SolarHalfYear.toString; rw [h1, h2]
  · constructor
    · intro h
      unfold SolarHalfYear.toFullString at h
      simp only [List.append_assoc, List.cons_append, List.nil_append] at h
      obtain ⟨h1, h2⟩ := Txt.str_sep (by decide) h
      refine ⟨h1, ?_⟩
      rcases ia with e | e <;> rcases ib with e' | e' <;> rw [e, e'] at h2 ⊢ <;> simp at h2
    · rintro ⟨h1, h2⟩; unfold SolarHalfYear.toFullString; rw [h1, h2]

/-- **C95** quarters: same text exactly when they consist of the same months -/
theorem C95_quarters (a b : SolarSeason) :
    (a.toString = b.toString ↔ a.getMonths = b.getMonths) ∧ (a.toFullString = b.toFullString ↔ a.getMonths = b.getMonths) := by
  have hm : a.getMonths = b.getMonths ↔ a.year = b.year ∧ a.getIndex = b.getIndex := by
    unfold SolarSeason.getMonths
    simp only [show pyRange 0 3 = [0, 1, 2] by decide, List.map, List.cons.injEq, SolarMonth.mk.injEq, and_true]
    constructor
    · rintro ⟨⟨h1, h2⟩, -⟩; exact ⟨h1, by omega⟩
    · rintro ⟨h1, h2⟩; rw [h1, h2]; simp
  rw [hm]
  constructor
  · constructor
    · intro h
      obtain ⟨h1, h2⟩ := Txt.str_sep (by decide) h
      exact ⟨h1, Keys.strInt_inj h2⟩
    · rintro ⟨h1, h2⟩; unfold SolarSeason.toString; rw [h1, h2]
  · constructor
    · intro h
      obtain ⟨h1, h2⟩ := Txt.str_sep (by decide) h
      exact ⟨h1, (Txt.str_sep (by decide) h2).1⟩
    · rintro ⟨h1, h2⟩; unfold SolarSeason.toFullString; rw [h1, h2]

/-- **C95 (partial)** weeks: outside October 1582 the texts of the weeks of two dates exist, and agree exactly when the dates lie in the
same week of the same month.  Missing: October 1582 (see `C95_weeks_violated_1582`). -/
theorem C95_weeks_partial (x y : Date) (hx : x.Valid) (hy : y.Valid) (hx0 : -4712 ≤ x.y) (hx1 : x.y ≤ 9999)
    (hy0 : -4712 ≤ y.y) (hy1 : y.y ≤ 9999) (nx : ¬ (x.y = 1582 ∧ x.m = 10)) (ny : ¬ (y.y = 1582 ∧ y.m = 10))
    (start : ℤ) (s0 : 0 ≤ start) (s1 : start ≤ 6) :
    ∃ u v u' v', (weekOf x start).toString = .ok u ∧ (weekOf y start).toString = .ok v ∧
      (weekOf x start).toFullString = .ok u' ∧ (weekOf y start).toFullString = .ok v' ∧
      (u = v ↔ SameClip start x y) ∧ (u' = v' ↔ SameClip start x y) := by
  have ex : (weekOf x start).getIndex = _ := Cal.getIndex_spec s0 s1 hx hx0 hx1 nx
  have ey : (weekOf y start).getIndex = _ := Cal.getIndex_spec s0 s1 hy hy0 hy1 ny
  have dx := Cal.mi_div hx
  have dy := Cal.mi_div hy
  have fx := (Cal.first_valid hx).2
  have fy := (Cal.first_valid hy).2
  have hs : SameClip start x y ↔ x.y = y.y ∧ x.m = y.m ∧
      Cal.wk start x - Cal.wk start ⟨x.y, x.m, 1⟩ + 1 = Cal.wk start y - Cal.wk start ⟨y.y, y.m, 1⟩ + 1 := by
    rw [Cal.sameClip_iff s0 s1 hx hy]
    constructor
    · rintro ⟨h1, h2⟩
      have e1 : x.y = y.y := by omega
      have e2 : x.m = y.m := by omega
      exact ⟨e1, e2, by rw [e1, e2, h2]⟩
    · rintro ⟨h1, h2, h3⟩
      refine ⟨by omega, ?_⟩
      rw [h1, h2] at h3
      omega
  have tt : ∀ (z : Date) (i : ℤ), (weekOf z start).getIndex = .ok i →
      (weekOf z start).toString = .ok (pyStrInt z.y ++ '.' :: (pyStrInt z.m ++ '.' :: pyStrInt i)) ∧
      (weekOf z start).toFullString = .ok (pyStrInt z.y ++ '年' :: (pyStrInt z.m ++ '月' :: '第' :: (pyStrInt i ++ ['周']))) := by
    intro z i e
    unfold SolarWeek.toString SolarWeek.toFullString
    rw [e]
    exact ⟨rfl, rfl⟩
  refine ⟨_, _, _, _, (tt x _ ex).1, (tt y _ ey).1, (tt x _ ex).2, (tt y _ ey).2, ?_, ?_⟩
  · rw [hs]
    constructor
    · intro h
      obtain ⟨h1, h⟩ := Txt.str_sep (by decide) h
      obtain ⟨h2, h⟩ := Txt.str_sep (by decide) h
      exact ⟨h1, h2, Keys.strInt_inj h⟩
    · rintro ⟨h1, h2, h3⟩
      rw [h3, h1, h2]
  · rw [hs]
    constructor
    · intro h
      obtain ⟨h1, h⟩ := Txt.str_sep (by decide) h
      obtain ⟨h2, h⟩ := Txt.str_sep (by decide) h
      rw [List.cons_inj_right] at h
      exact ⟨h1, h2, (Txt.str_sep (by decide) h).1⟩
    · rintro ⟨h1, h2, h3⟩
      rw [h3, h1, h2]

/-- **C95 violated** in October 1582: Saturday the 16th and Sunday the 17th lie in different weeks from Sunday, the texts agree -/
theorem C95_weeks_violated_1582 :
    (weekOf ⟨1582, 10, 16⟩ 0).toString = (weekOf ⟨1582, 10, 17⟩ 0).toString ∧
    (weekOf ⟨1582, 10, 16⟩ 0).toString = .ok ['1', '5', '8', '2', '.', '1', '0', '.', '3'] ∧
    ¬ SameClip 0 ⟨1582, 10, 16⟩ ⟨1582, 10, 17⟩ := by
  refine ⟨by decide +kernel, by decide +kernel, ?_⟩
  rw [Cal.sameClip_iff (by decide) (by decide) (by decide) (by decide)]
  decide

/-- **C95** months of the lunar calendar: same text exactly when year, month and number of days agree -/
theorem C95_lunar_months (a b : LunarMonth) (ha : 1 ≤ |a.month| ∧ |a.month| ≤ 12) (hb : 1 ≤ |b.month| ∧ |b.month| ≤ 12) :
    ∃ u v, a.toString = .ok u ∧ b.toString = .ok v ∧
      (u = v ↔ a.year = b.year ∧ a.month = b.month ∧ a.dayCount = b.dayCount) := by
  have key : ∀ i : Fin 12, ∃ c, pyIndex LunarUtil.MONTH ((i : ℕ) + 1 : ℤ) = .ok [c] ∧ c ≠ '闰' ∧ c ≠ '月' := by
    have : ∀ i : Fin 12, (match pyIndex LunarUtil.MONTH ((i : ℕ) + 1 : ℤ) with
      | .ok [c] => decide (c ≠ '闰' ∧ c ≠ '月')
      | _ => false) = true := by decide
    intro i
    have := this i
    split at this
    · rename_i c e
      exact ⟨c, e, of_decide_eq_true this⟩
    · cases this
  have inj : ∀ i j : Fin 12, pyIndex LunarUtil.MONTH ((i : ℕ) + 1 : ℤ) = pyIndex LunarUtil.MONTH ((j : ℕ) + 1 : ℤ) → i = j := by decide
  have at_ : ∀ n : ℤ, 1 ≤ n ∧ n ≤ 12 → ∃ i : Fin 12, n = (i : ℕ) + 1 := fun n h => ⟨⟨(n - 1).toNat, by omega⟩, by simp only; omega⟩
  obtain ⟨i, hi⟩ := at_ _ ha
  obtain ⟨j, hj⟩ := at_ _ hb
  obtain ⟨c, ec, hc⟩ := key i
  obtain ⟨d, ed, hd⟩ := key j
  have ta : a.toString = .ok (pyStrInt a.year ++ ['年'] ++ (if a.isLeap then ['闰'] else []) ++ [c] ++ ['月', '('] ++
      pyStrInt a.dayCount ++ ['天', ')']) := by
    unfold LunarMonth.toString
    rw [hi, ec]; rfl
  have tb : b.toString = .ok (pyStrInt b.year ++ ['年'] ++ (if b.isLeap then ['闰'] else []) ++ [d] ++ ['月', '('] ++
      pyStrInt b.dayCount ++ ['天', ')']) := by
    unfold LunarMonth.toString
    rw [hj, ed]; rfl
  refine ⟨_, _, ta, tb, ?_⟩
  have la : a.isLeap = decide (a.month < 0) := rfl
  have lb : b.isLeap = decide (b.month < 0) := rfl
  constructor
  · intro h
    simp only [List.append_assoc, List.cons_append, List.nil_append] at h
    obtain ⟨h1, h⟩ := Txt.str_sep (by decide) h
    have fin : c = d → ('月' :: '(' :: (pyStrInt a.dayCount ++ ['天', ')']) = '月' :: '(' :: (pyStrInt b.dayCount ++ ['天', ')'])) →
        |a.month| = |b.month| ∧ a.dayCount = b.dayCount := by
      intro e h
      rw [List.cons_inj_right, List.cons_inj_right] at h
      refine ⟨?_, (Txt.str_sep (by decide) h).1⟩
      rw [hi, hj, inj i j (by rw [ec, ed, e])]
    rw [la, lb] at h
    by_cases p : a.month < 0 <;> by_cases q : b.month < 0 <;> simp only [p, q, decide_true, decide_false, if_true, List.cons_append,
      List.nil_append, List.cons.injEq, true_and, Bool.false_eq_true, if_false] at h
    · obtain ⟨h2, h3⟩ := fin h.1 (by simpa using h.2)
      rw [abs_of_neg p, abs_of_neg q] at h2
      exact ⟨h1, by omega, h3⟩
    · exact absurd h.1.symm hd.1
    · exact absurd h.1 hc.1
    · obtain ⟨h2, h3⟩ := fin h.1 (by simpa using h.2)
      rw [abs_of_nonneg (by omega), abs_of_nonneg (by omega)] at h2
      exact ⟨h1, h2, h3⟩
  · rintro ⟨h1, h2, h3⟩
    have : i = j := by
      rw [h2] at hi
      exact Fin.ext (by omega)
    rw [this, ed] at ec
    rw [h1, h3, la, lb, h2, show d = c by simpa using ec]

/-- the texts of some periods -/
example : SolarYear.toFullString (-3) = ['-', '3', '年'] ∧ (⟨2024, 9⟩ : SolarHalfYear).toString = ['2', '0', '2', '4', '.', '2'] ∧
    (⟨2024, 9⟩ : SolarHalfYear).toFullString = ['2', '0', '2', '4', '年', '下', '半', '年'] ∧
    (⟨2024, 9⟩ : SolarSeason).toFullString = ['2', '0', '2', '4', '年', '3', '季', '度'] ∧
    (⟨2024, 9⟩ : SolarMonth).toString = ['2', '0', '2', '4', '-', '9'] ∧
    (weekOf ⟨2024, 9, 30⟩ 1).toFullString = .ok ['2', '0', '2', '4', '年', '9', '月', '第', '6', '周'] ∧
    (⟨2023, -2, 29, 0, 3⟩ : LunarMonth).toString = .ok ['2', '0', '2', '3', '年', '闰', '二', '月', '(', '2', '9', '天', ')'] := by
  decide +kernel

end
