import Verif.Proof.Ephem.NewYear
import Verif.Props.MonthLength

/-! # C92: on which days the lunar year begins

The New Year is the second new moon after 冬至, or the third when a leap month comes before it.  That it never leaves the days
from 19 January to 21 February depends on the series for the sun and the moon, on the rule for leap months and on their exceptions. -/

section
open Spec LunarYear ShouXing Ephem

variable {M : Libm}

/-- the day of the New Year of `Y`, and the months before and after -/
private theorem turn (hM : M.Good) {Y : ℤ} (h1 : 1585 ≤ Y) (h2 : Y ≤ 4999) : ∃ k0, (almanac (full hM)).key k0 = (Y, 1) ∧
    JD.jdn ⟨Y, 1, 1⟩ + 18 ≤ (almanac (full hM)).first k0 ∧ (almanac (full hM)).first k0 ≤ JD.jdn ⟨Y, 1, 1⟩ + 51 ∧
    (Y ≤ 2731 → JD.jdn ⟨Y, 1, 1⟩ + 19 ≤ (almanac (full hM)).first k0) ∧
    (1961 ≤ Y → Y ≤ 2099 → (almanac (full hM)).first k0 ≤ JD.jdn ⟨Y, 1, 1⟩ + 50) ∧
    ∀ k, 1584 ≤ ((almanac (full hM)).key k).1 → ((almanac (full hM)).key k).1 ≤ 6890 →
      (k0 ≤ k → Y ≤ ((almanac (full hM)).key k).1) ∧ (k < k0 → ((almanac (full hM)).key k).1 < Y) := by
  obtain ⟨k0, hk, r⟩ := newYear_possible hM h1 h2
  refine ⟨k0, hk, r.1, r.2.1, r.2.2.1, r.2.2.2, fun k y1 y2 => ?_⟩
  have mono : StrictMono (fun k => rk (key (full hM).toFacts k)) := strictMono_int_of_lt_succ (fun k => rk_key_lt (full hM).toFacts k)
  have m := key_month (full hM) (k := k) y1 y2
  have e0 : rk (key (full hM).toFacts k0) = 26 * Y + 2 := by rw [hk]; unfold rk; norm_num
  have e : 26 * (key (full hM).toFacts k).1 + 2 ≤ rk (key (full hM).toFacts k) ∧ rk (key (full hM).toFacts k) ≤ 26 * (key (full hM).toFacts k).1 + 25 := by
    unfold rk
    split_ifs <;> omega
  change (k0 ≤ k → Y ≤ (key (full hM).toFacts k).1) ∧ (k < k0 → (key (full hM).toFacts k).1 < Y)
  constructor
  · intro h
    have : rk (key (full hM).toFacts k0) ≤ rk (key (full hM).toFacts k) := mono.monotone h
    omega
  · intro h
    have : rk (key (full hM).toFacts k) < rk (key (full hM).toFacts k0) := mono h
    omega

/-- the number of a day of January or February -/
private theorem early {x : Date} (hx : x.Valid) (hy : 1584 ≤ x.y) :
    (x.m = 1 → JD.jdn x = JD.jdn ⟨x.y, 1, 1⟩ + x.d - 1) ∧ (x.m = 2 → JD.jdn x = JD.jdn ⟨x.y, 1, 1⟩ + 30 + x.d) ∧
    (3 ≤ x.m → JD.jdn ⟨x.y, 1, 1⟩ + 59 ≤ JD.jdn x) := by
  obtain ⟨m1, m2, d1, d2, d3⟩ := hx
  have feb : ∀ d, 1 ≤ d → JD.jdn ⟨x.y, 2, d⟩ = JD.jdn ⟨x.y, 1, 1⟩ + 30 + d := by
    intro d hd
    unfold JD.jdn JD.corr JD.my JD.mm
    norm_num
    split_ifs <;> omega
  refine ⟨fun h => ?_, fun h => ?_, fun h => ?_⟩
  · unfold JD.jdn JD.corr JD.my JD.mm
    dsimp only
    rw [h]; norm_num; split_ifs <;> omega
  · rw [← feb _ d1, ← h]
  · have v : (⟨x.y, 2, 28⟩ : Date).Valid := by
      refine ⟨by norm_num, by norm_num, by norm_num, ?_, ?_⟩
      · unfold lastDay
        dsimp only
        split_ifs <;> omega
      · dsimp only
        omega
    have := (JD.jdn_lt_iff v ⟨m1, m2, d1, d2, d3⟩).2 (by unfold Cal.DateLt; dsimp only; omega)
    rw [feb 28 (by norm_num)] at this
    omega

/-- **C92** the lunar year of a day: from 21 February on it has the number of the solar year, before 19 January that of the year
before (before 20 January, up to 2731), and in between it changes on the New Year -/
theorem C92_year (hM : M.Good) (s : Solar) (l : Lunar) (hs : s.Valid) (h1 : 1585 ≤ s.year) (h2 : s.year ≤ 4999)
    (hl : Lunar.fromSolar (astro M) s = .ok l) : (l.year = s.year ∨ l.year = s.year - 1) ∧
      (3 ≤ s.month ∨ (s.month = 2 ∧ 21 ≤ s.day) → l.year = s.year) ∧
      (s.month = 1 ∧ (s.day ≤ 18 ∨ (s.day ≤ 19 ∧ s.year ≤ 2731)) → l.year = s.year - 1) ∧
      (1961 ≤ s.year → s.year ≤ 2099 → s.month = 2 → 20 ≤ s.day → l.year = s.year) := by
  have S := sunAlmanac (full hM)
  obtain ⟨l', e, -, -, -, -, k, f3, f4, f5, f6⟩ := C38_round_trip (almanac (full hM)) s hs (by omega) (by omega)
  rw [hl] at e
  cases e
  have b := S.behind s.year (by omega) (by omega) k s.date _ hs.1 rfl f6 (by omega) (by omega)
  rw [isDay_iff hs.1] at f6
  obtain ⟨k0, hk0, t1, t2, t3, t4, t5⟩ := turn hM h1 h2
  obtain ⟨g1, g2⟩ := t5 k (by omega) (by omega)
  have fm : StrictMono (almanac (full hM)).first := strictMono_int_of_lt_succ (almanac (full hM)).first_lt
  obtain ⟨j1, j2, j3⟩ := early hs.1 (by show 1584 ≤ s.year; omega)
  have ge : (almanac (full hM)).first k0 ≤ JD.jdn s.date → l.year = s.year := by
    intro h
    have : k0 < k + 1 := by rw [← fm.lt_iff_lt]; omega
    have := g1 (by omega)
    rw [← f3] at this b
    dsimp only at this b
    omega
  have lt : JD.jdn s.date < (almanac (full hM)).first k0 → l.year = s.year - 1 := by
    intro h
    have : k < k0 := by rw [← fm.lt_iff_lt]; omega
    have := g2 this
    rw [← f3] at this b
    dsimp only at this b
    omega
  simp only [Solar.date] at j1 j2 j3 ge lt
  refine ⟨by rw [← f3] at b; exact b, ?_, ?_, ?_⟩
  · intro h; exact ge (by rcases h with h | ⟨h, h'⟩ <;> omega)
  · rintro ⟨h, h'⟩; exact lt (by omega)
  · intro y1 y2 h h'; exact ge (by have := t4 y1 y2; omega)

/-- from 1 March 2200 on the lunar year has the number of the solar year -/
example : ∃ l, Lunar.fromSolar (astro Libm.cut) ⟨2200, 3, 1, 8, 0, 0⟩ = .ok l ∧ l.year = 2200 := by
  obtain ⟨l, e, -⟩ := C84_round_trip Libm.cut_good ⟨2200, 3, 1, 8, 0, 0⟩ (by decide) (by decide) (by decide)
  exact ⟨l, e, (C92_year Libm.cut_good _ l (by decide) (by decide) (by decide) e).2.1 (Or.inl (by decide))⟩

/-- **C92** the first day of the first month: its lunar year has the number of the solar year, and it falls on one of the days from
19 January to 21 February (not before 20 January up to 2731, not after 20 February from 1961 to 2099) -/
theorem C92_new_year (hM : M.Good) (s : Solar) (l : Lunar) (hs : s.Valid) (h1 : 1585 ≤ s.year) (h2 : s.year ≤ 4999)
    (hl : Lunar.fromSolar (astro M) s = .ok l) (hm : l.month = 1) (hd : l.day = 1) : l.year = s.year ∧
      ((s.month = 1 ∧ 19 ≤ s.day) ∨ (s.month = 2 ∧ s.day ≤ 21)) ∧ (s.year ≤ 2731 → s.month = 1 → 20 ≤ s.day) ∧
      (1961 ≤ s.year → s.year ≤ 2099 → s.month = 2 → s.day ≤ 20) := by
  have S := sunAlmanac (full hM)
  obtain ⟨l', e, -, -, -, -, k, f3, f4, f5, f6⟩ := C38_round_trip (almanac (full hM)) s hs (by omega) (by omega)
  rw [hl] at e
  cases e
  have b := S.behind s.year (by omega) (by omega) k s.date _ hs.1 rfl f6 (by omega) (by omega)
  rw [hd, add_sub_cancel_right] at f6
  rw [hm] at f3
  have b' : l.year = s.year ∨ l.year = s.year - 1 := by rw [← f3] at b; exact b
  have hy : l.year = s.year := by
    by_contra c
    obtain ⟨k', x, hk', hx, hn, xy⟩ := S.newYear (s.year - 1) (by omega) (by omega)
    obtain rfl : k = k' := (almanac (full hM)).key_inj _ _ (by rw [← f3, hk', show l.year = s.year - 1 by omega])
    rw [isDay_iff hx] at hn
    rw [isDay_iff hs.1] at f6
    have : x = s.date := by
      by_contra c
      have e' : JD.jdn x = JD.jdn s.date := by omega
      have d1 := (JD.jdn_lt_iff hx hs.1).not.1 (by omega)
      have d2 := (JD.jdn_lt_iff hs.1 hx).not.1 (by omega)
      apply c
      unfold Cal.DateLt at d1 d2
      have v := hx.2.2
      cases x
      simp only [Solar.date, Date.mk.injEq] at *
      omega
    rw [this] at xy
    change s.year = s.year - 1 at xy
    omega
  rw [isDay_iff hs.1] at f6
  obtain ⟨k0, hk0, t1, t2, t3, t4, -⟩ := turn hM h1 h2
  obtain rfl : k = k0 := (almanac (full hM)).key_inj _ _ (by rw [← f3, hk0, hy])
  obtain ⟨j1, j2, j3⟩ := early hs.1 (by show 1584 ≤ s.year; omega)
  have m1 := hs.1.1
  have m2 := hs.1.2.1
  simp only [Solar.date] at j1 j2 j3 f6 m1 m2
  refine ⟨hy, ?_, fun h h' => ?_, fun h h' h'' => ?_⟩
  · rcases (by omega : s.month = 1 ∨ s.month = 2 ∨ 3 ≤ s.month) with h | h | h
    · have := j1 h; exact Or.inl ⟨h, by omega⟩
    · have := j2 h; exact Or.inr ⟨h, by omega⟩
    · have := j3 h; omega
  · have := j1 h'; have := t3 h; omega
  · have := j2 h''; have := t4 h h'; omega

/-- **C92** every year has a New Year: `Lunar.fromYmd(Y, 1, 1)` is a day of solar year `Y`, from 19 January to 21 February -/
theorem C92_exists (hM : M.Good) (Y : ℤ) (h1 : 1585 ≤ Y) (h2 : Y ≤ 4999) : ∃ l, Lunar.fromYmd (astro M) Y 1 1 = .ok l ∧
    l.solar.Valid ∧ Lunar.fromSolar (astro M) l.solar = .ok l ∧ l.solar.year = Y ∧
    ((l.solar.month = 1 ∧ 19 ≤ l.solar.day) ∨ (l.solar.month = 2 ∧ l.solar.day ≤ 21)) := by
  have S := sunAlmanac (full hM)
  obtain ⟨k, x, hk, hx, hn, xy⟩ := S.newYear Y (by omega) (by omega)
  have lt := (almanac (full hM)).first_lt k
  obtain ⟨l, e, q1, q2, -, -, -, q3, q4, -⟩ := (almanac (full hM)).fromYmdHms_ok (k := k) (d := 1) (h := 0) (mi := 0) (s := 0)
    (by rw [hk]; show (1584 : ℤ) ≤ Y; omega) (by rw [hk]; show Y ≤ 6890; omega) le_rfl (by omega) hx (by rw [add_sub_cancel_right]; exact hn)
    (by omega) (by omega) (by unfold ClockOk; norm_num)
  rw [hk] at e q1
  have f := (C39_round_trip (almanac (full hM)) Y 1 1 0 0 0 l (by omega) (by omega) e).2
  have y : l.solar.year = Y := by rw [q3]; exact xy
  rw [Prod.mk.injEq] at q1
  exact ⟨l, e, q4.1, f, y, (C92_new_year hM l.solar l q4.1 (by omega) (by omega) f q1.2 q2).2.1⟩

/-- the New Year of 4444 -/
example : ∃ l, Lunar.fromYmd (astro Libm.cut) 4444 1 1 = .ok l ∧ l.solar.year = 4444 ∧
    ((l.solar.month = 1 ∧ 19 ≤ l.solar.day) ∨ (l.solar.month = 2 ∧ l.solar.day ≤ 21)) := by
  obtain ⟨l, e, -, -, y, h⟩ := C92_exists Libm.cut_good 4444 (by norm_num) (by norm_num)
  exact ⟨l, e, y, h⟩

/-- a day to which `C92_new_year` applies, in 2050 -/
example : ∃ s l, s.Valid ∧ s.year = 2050 ∧ Lunar.fromSolar (astro Libm.cut) s = .ok l ∧ l.month = 1 ∧ l.day = 1 ∧ (s.month = 2 → s.day ≤ 20) := by
  obtain ⟨l, e, v, f, y, h⟩ := C92_exists Libm.cut_good 2050 (by norm_num) (by norm_num)
  obtain ⟨g, -⟩ := C39_round_trip (almanac (full Libm.cut_good)) 2050 1 1 0 0 0 l (by norm_num) (by norm_num) e
  simp only [Prod.mk.injEq] at g
  exact ⟨l.solar, l, v, y, f, g.2.1, g.2.2.1, (C92_new_year Libm.cut_good l.solar l v (by omega) (by omega) f g.2.1 g.2.2.1).2.2.2 (by omega) (by omega)⟩

end
