import Verif.Model.BaZi
import Verif.Spec.SunAlmanac
import Verif.Props.LunarDate
import Verif.Props.Pillars
import Verif.Props.GanZhi

/-! # `Solar.fromBaZi`: helpers -/

namespace BaZi
open Spec LunarYear LunarUtil Lunar

attribute [local irreducible] make

variable {A : Astro} {lo hi : ℤ} {H : Almanac A lo hi}

/-- the table of terms of year `Y` -/
def Table (A : Astro) (Y : ℤ) (jq : List Solar) : Prop := computeJieQi (make A Y).jieQiJulianDays = .ok jq

theorem Table.unique {Y : ℤ} {jq jq' : List Solar} (h : Table A Y jq) (h' : Table A Y jq') : jq = jq' := by
  unfold Table at h h'
  rw [h] at h'
  exact Except.ok.inj h'

theorem table_of (H : Almanac A lo hi) {Y : ℤ} (h1 : lo ≤ Y) (h2 : Y ≤ hi) {jq : List Solar} (h : Table A Y jq) : TermTable Y jq := by
  obtain ⟨jq', e, T⟩ := H.terms Y h1 h2
  cases Table.unique h e
  exact T

/-- the lunar date of a moment -/
structure At (A : Astro) (s : Solar) (l : Lunar) : Prop where
  from_ : Lunar.fromSolar A s = .ok l
  solar : l.solar = s
  made : l.Made
  table : Table A s.year l.jieQi
  terms : TermTable s.year l.jieQi
  year : l.year = s.year ∨ l.year = s.year - 1
  hour : l.hour = s.hour
  four : 0 ≤ s.year ∧ s.year ≤ 9999

theorem exists_at (S : SunAlmanac H) {s : Solar} (hs : s.Valid) (h1 : lo < s.year) (h2 : s.year ≤ hi) : ∃ l, At A s l := by
  have hn : IsDay (JD.jdn s.date) s.date := (isDay_iff hs.1).mpr rfl
  obtain ⟨c1, c2⟩ := H.covers _ h1.le h2 s.date _ hs.1 rfl hn
  obtain ⟨i, hi', g1, g2⟩ := H.month_of_day c1 c2
  obtain ⟨e, -, -⟩ := H.fromSolar_eq hs h1.le h2 hn g1 g2
  have hb := S.behind _ h1.le h2 _ _ _ hs.1 rfl hn g1 g2
  have hday : H.first (H.start s.year + i) + (JD.jdn s.date - H.first (H.start s.year + i) + 1) - 1 = JD.jdn s.date := by ring
  obtain ⟨l, el, q1, q2, q3, q4, q5, q6, q7, q8, q9⟩ := H.fromYmdHms_ok (k := H.start s.year + i)
    (d := JD.jdn s.date - H.first (H.start s.year + i) + 1) (x := s.date) (by omega) (by omega) (by omega) (by omega)
    hs.1 (by rw [hday]; exact hn) h1.le h2 hs.2
  have hy : l.year = (H.key (H.start s.year + i)).1 := congrArg Prod.fst q1
  exact ⟨l, by rw [e, el], q6, q7, q9, q8, by rw [hy]; exact hb, q3, H.year_range h1.le h2⟩

/-- the table of the lunar New Year of year `Y` -/
theorem newYear_table (S : SunAlmanac H) {Y : ℤ} (h1 : lo ≤ Y) (h2 : Y ≤ hi) :
    ∃ l, Lunar.fromYmd A Y 1 1 = .ok l ∧ Table A Y l.jieQi := by
  obtain ⟨k, x, hk, hx, hn, hy⟩ := S.newYear Y h1 h2
  have k1 : (H.key k).1 = Y := by rw [hk]
  have k2 : (H.key k).2 = 1 := by rw [hk]
  have := H.first_lt k
  obtain ⟨l, e, q⟩ := H.fromYmdHms_ok (k := k) (d := 1) (h := 0) (mi := 0) (s := 0) (by omega) (by omega) (by omega) (by omega) hx
    (by rw [show H.first k + 1 - 1 = H.first k by ring]; exact hn) (by omega) (by omega) (by decide)
  rw [k1, k2] at e
  rw [hy] at q
  exact ⟨l, e, q.2.2.2.2.2.2.2.2⟩

/-! ### the position of a moment among the Jie -/

/-- the moment is in the `j`-th month (1 being the 丑 month before Li Chun of `Y`) of year `Y`, from `a` to `b` -/
structure Pos (A : Astro) (s : Solar) (Y : ℤ) (j : ℕ) (jq : List Solar) (a b : Solar) : Prop where
  two : 2 ≤ j
  thirteen : j ≤ 13
  table : Table A Y jq
  fst : jq[2 * j]? = some a
  snd : jq[2 * j + 2]? = some b
  le : Cal.secNo a ≤ Cal.secNo s
  lt : Cal.secNo s < Cal.secNo b
  year : Y = s.year ∨ Y = s.year - 1

theorem secNo_year {s t : Solar} (hs : s.Valid) (ht : t.Valid) (h : Cal.secNo s ≤ Cal.secNo t) : s.year ≤ t.year := by
  have c1 := Cal.clock_bounds hs
  have c2 := Cal.clock_bounds ht
  have : Cal.dn s.date ≤ Cal.dn t.date := by unfold Cal.secNo at h; omega
  exact year_mono hs.1 ht.1 (by rw [JD.jdn_eq hs.1, JD.jdn_eq ht.1]; omega)

theorem get (T : TermTable lo jq) {i : ℕ} (h : i < 31) : ∃ a, jq[i]? = some a ∧ a.Valid := by
  have hl : i < jq.length := by rw [T.len]; exact h
  exact ⟨jq[i], List.getElem?_eq_getElem hl, T.valid _ (List.getElem_mem hl)⟩

theorem exists_pos (S : SunAlmanac H) {s : Solar} (hs : s.Valid) (h1 : lo < s.year) (h2 : s.year ≤ hi) {l : Lunar} (hl : At A s l) :
    ∃ Y j jq a b, Pos A s Y j jq a b ∧ (∃ i, l.jieQi[2 * i]? = some a ∧ l.jieQi[2 * (i + 1)]? = some b) ∧
      l.getYearInGanZhiExact = .ok (ganZhi (Y - 4)) ∧ l.getMonthInGanZhiExact = .ok (ganZhi (12 * (Y - 4) + j)) := by
  have T := hl.terms
  have h9 := hl.four
  obtain ⟨lc, hlc, -, hlcy, -⟩ := term_liChun T
  obtain ⟨⟨k, hk, k1, k2⟩, -⟩ := C35_count_exists s hs _ _ T
  have hsol := hl.solar
  have hmo := C35_month_pillar_exact l hl.made (by rw [hsol]; exact h9) (by rw [hsol]; exact T) (by rw [hsol]; exact hl.year) k hk
    (by rw [hsol]; exact k1) (by rw [hsol]; exact k2)
  have hye := C34_year_pillars l hl.made (by rw [hsol]; exact h9) (by rw [hsol]; exact T) (by rw [hsol]; exact hl.year) lc hlc
  rw [hsol] at hmo hye
  have vlc := T.valid _ (List.mem_of_getElem? hlc)
  rw [Solar.atOrBefore_iff vlc hs, Solar.before_iff hs vlc] at hye
  obtain ⟨e0, e28⟩ := S.ends _ h1.le h2 _ hl.table
  -- at least one Jie has passed
  have kpos : 1 ≤ k := by
    by_contra hc
    have : k = 0 := by omega
    subst this
    obtain ⟨a, ha, va⟩ := get T (i := 0) (by decide)
    have := (Solar.before_iff hs va).1 (k2 a ha)
    have := secNo_year hs va this.le
    have := e0 a ha
    omega
  have kle : k ≤ 14 := by
    by_contra hc
    obtain ⟨a, ha, va⟩ := get T (i := 28) (by decide)
    have := (Solar.atOrBefore_iff va hs).1 (k1 14 (by omega) a ha)
    have := secNo_year va hs this
    have := e28 a ha
    omega
  obtain ⟨a, ha, va⟩ := get T (i := 2 * (k - 1)) (by omega)
  obtain ⟨b, hb, vb⟩ := get T (i := 2 * k) (by omega)
  have la := (Solar.atOrBefore_iff va hs).1 (k1 (k - 1) (by omega) a ha)
  have lb := (Solar.before_iff hs vb).1 (k2 b hb)
  by_cases hk3 : 3 ≤ k
  · refine ⟨s.year, k - 1, l.jieQi, a, b, ⟨by omega, by omega, hl.table, ha, ?_, la, lb, .inl rfl⟩, ⟨k - 1, ha, by rw [show k - 1 + 1 = k by omega]; exact hb⟩, ?_, ?_⟩
    · rw [show 2 * (k - 1) + 2 = 2 * k by omega]; exact hb
    · refine hye.2.2.2.1 (((table_le T (i := 4) (j := 2 * (k - 1)) (by omega) hlc ha).1).trans la)
    · rw [hmo]; congr 2; omega
  · obtain ⟨jq', t', T'⟩ := H.terms (s.year - 1) (by omega) (by omega)
    have ov := S.overlap (s.year - 1) (by omega) (by omega) jq' l.jieQi t' (by
      rw [show s.year - 1 + 1 = s.year by ring]; exact hl.table)
    refine ⟨s.year - 1, k + 11, jq', a, b, ⟨by omega, by omega, t', ?_, ?_, la, lb, .inr rfl⟩, ⟨k - 1, ha, by rw [show k - 1 + 1 = k by omega]; exact hb⟩, ?_, ?_⟩
    · rw [show 2 * (k + 11) = 24 + 2 * (k - 1) by omega, ov _ (by omega)]; exact ha
    · rw [show 2 * (k + 11) + 2 = 24 + 2 * k by omega, ov _ (by omega)]; exact hb
    · refine hye.2.2.2.2 (lt_of_lt_of_le lb (table_le T (i := 2 * k) (j := 4) (by omega) hb hlc).1)
    · rw [hmo]; congr 2; push_cast; ring

/-- the position is unique -/
theorem Pos.unique (S : SunAlmanac H) {s : Solar} {Y Y' : ℤ} {j j' : ℕ} {jq jq' : List Solar} {a b a' b' : Solar}
    (h1 : lo < s.year) (h2 : s.year ≤ hi)
    (p : Pos A s Y j jq a b) (p' : Pos A s Y' j' jq' a' b') : Y = Y' ∧ j = j' := by
  have key : ∀ {Y Y' : ℤ} {j j' : ℕ} {jq jq' : List Solar} {a b a' b' : Solar},
      Pos A s Y j jq a b → Pos A s Y' j' jq' a' b' → Y < Y' → False := by
    intro Y Y' j j' jq jq' a b a' b' p p' hlt
    have y1 := p.year
    have y2 := p'.year
    have e : Y' = Y + 1 := by omega
    have T := table_of H (by omega) (by omega) p.table
    have T' := table_of H (by omega) (by omega) p'.table
    have t' := p'.table
    rw [e] at t'
    have ov := S.overlap Y (by omega) (by omega) _ _ p.table t' 4 (by decide)
    obtain ⟨c, hc, -⟩ := get T (i := 28) (by decide)
    have hc' : jq'[4]? = some c := by rw [← ov]; exact hc
    have := p.thirteen
    have := p'.two
    have l1 := (table_le T (i := 2 * j + 2) (j := 28) (by omega) p.snd hc).1
    have l2 := (table_le T' (i := 4) (j := 2 * j') (by omega) hc' p'.fst).1
    have := p.lt
    have := p'.le
    omega
  rcases lt_trichotomy Y Y' with h | h | h
  · exact (key p p' h).elim
  · refine ⟨h, ?_⟩
    subst h
    cases p.table.unique p'.table
    have y1 := p.year
    have T := table_of H (by omega) (by omega) p.table
    rcases lt_trichotomy j j' with g | g | g
    · have := (table_le T (i := 2 * j + 2) (j := 2 * j') (by omega) p.snd p'.fst).1
      have := p.lt
      have := p'.le
      omega
    · exact g
    · have := (table_le T (i := 2 * j' + 2) (j := 2 * j) (by omega) p'.snd p.fst).1
      have := p'.lt
      have := p.le
      omega
  · exact (key p' p h).elim

/-- year and month pillars of a moment in a given place -/
theorem Pos.pillars (S : SunAlmanac H) {s : Solar} (hs : s.Valid) (h1 : lo < s.year) (h2 : s.year ≤ hi) {l : Lunar} (hl : At A s l)
    {Y : ℤ} {j : ℕ} {jq : List Solar} {a b : Solar} (p : Pos A s Y j jq a b) :
    l.getYearInGanZhiExact = .ok (ganZhi (Y - 4)) ∧ l.getMonthInGanZhiExact = .ok (ganZhi (12 * (Y - 4) + j)) := by
  obtain ⟨Y', j', jq', a', b', p', -, e1, e2⟩ := exists_pos S hs h1 h2 hl
  obtain ⟨rfl, rfl⟩ := p.unique S h1 h2 p'
  exact ⟨e1, e2⟩

/-- day and hour pillars -/
theorem At.day {s : Solar} {l : Lunar} (h : At A s l) :
    l.getDayInGanZhiExact2 = .ok (ganZhi (JD.jdn s.date - 11)) ∧
    l.getDayInGanZhiExact = .ok (ganZhi (JD.jdn s.date - 11 + if s.hour = 23 then 1 else 0)) := by
  obtain ⟨_, _, ⟨f1, f2, f3, f4, f5, f6⟩, _, _, hh, _⟩ := made_fields h.made (by rw [h.solar]; have := h.four; omega) (by rw [h.solar]; exact h.four.2)
  rw [h.solar] at *
  refine ⟨pair_eq f5 f6, pair_eq ?_ ?_⟩
  · rw [f3]
  · rw [f4]

theorem At.time {s : Solar} {l : Lunar} (h : At A s l) :
    l.getTimeInGanZhi = .ok (ganZhi (48 + (Cal.secNo s - Cal.secNo ⟨1999, 12, 31, 23, 0, 0⟩) / 7200)) := by
  have hv : s.Valid := by rw [← h.solar]; exact h.made.1
  refine C33_hour_pillar l h.made (by rw [h.solar]; have := h.four; omega) (by rw [h.solar]; exact h.four.2) _ ?_
  rw [h.solar]
  exact (Cal.secondsAfter_iff (s := ⟨1999, 12, 31, 23, 0, 0⟩) (by decide) hv _).2 (by omega)

/-! ### the check -/

theorem bind_ok {α β : Type} {x : Except PyErr α} {f : α → Except PyErr β} {b : β} (h : (x >>= f) = .ok b) :
    ∃ a, x = .ok a ∧ f a = .ok b := by
  cases x with
  | error e => cases h
  | ok a => exact ⟨a, rfl, h⟩

/-- what the check establishes -/
theorem check_sound {yg mg dg tg : PyStr} {sect : ℤ} {s x : Solar} {L : List Solar}
    (h : Solar.baZiCheck A yg mg dg tg sect s = .ok L) (hx : x ∈ L) :
    x = s ∧ ∃ l, Lunar.fromSolar A s = .ok l ∧ l.getYearInGanZhiExact = .ok yg ∧ l.getMonthInGanZhiExact = .ok mg ∧
      (if 2 = sect then l.getDayInGanZhiExact2 else l.getDayInGanZhiExact) = .ok dg ∧ l.getTimeInGanZhi = .ok tg := by
  unfold Solar.baZiCheck at h
  obtain ⟨l, e1, h⟩ := bind_ok h
  obtain ⟨gd, e2, h⟩ := bind_ok h
  obtain ⟨gy, e3, h⟩ := bind_ok h
  split_ifs at h with c1
  · obtain ⟨gm, e4, h⟩ := bind_ok h
    split_ifs at h with c2
    · obtain ⟨gt, e5, h⟩ := bind_ok h
      split_ifs at h with c3
      · cases h
        simp only [List.mem_singleton] at hx
        exact ⟨hx, l, e1, by rw [e3, c1], by rw [e4, c2.1], by rw [e2, c2.2], by rw [e5, c3]⟩
      · cases h; cases hx
    · cases h; cases hx
  · cases h; cases hx

theorem check_found {yg mg dg tg : PyStr} {sect : ℤ} {s : Solar} {l : Lunar} (h0 : Lunar.fromSolar A s = .ok l)
    (h1 : l.getYearInGanZhiExact = .ok yg) (h2 : l.getMonthInGanZhiExact = .ok mg)
    (h3 : (if 2 = sect then l.getDayInGanZhiExact2 else l.getDayInGanZhiExact) = .ok dg) (h4 : l.getTimeInGanZhi = .ok tg) :
    Solar.baZiCheck A yg mg dg tg sect s = .ok [s] := by
  unfold Solar.baZiCheck
  rw [h0]
  simp only [bind, Except.bind]
  rw [h3]
  simp only
  rw [h1]
  simp only [if_true]
  rw [h2]
  simp only [and_self, if_true]
  rw [h4]
  simp only [if_true]
  rfl

theorem check_total (S : SunAlmanac H) (yg mg dg tg : PyStr) (sect : ℤ) {s : Solar} (hs : s.Valid) (h1 : lo < s.year) (h2 : s.year ≤ hi) :
    ∃ L, Solar.baZiCheck A yg mg dg tg sect s = .ok L ∧ (L = [] ∨ L = [s]) := by
  obtain ⟨l, hl⟩ := exists_at S hs h1 h2
  obtain ⟨Y, j, jq, a, b, -, -, e1, e2⟩ := exists_pos S hs h1 h2 hl
  obtain ⟨d1, d2⟩ := hl.day
  have t := hl.time
  have hd : ∃ g, (if 2 = sect then l.getDayInGanZhiExact2 else l.getDayInGanZhiExact) = .ok g := by
    split_ifs
    · exact ⟨_, d1⟩
    · exact ⟨_, d2⟩
  obtain ⟨g, hd⟩ := hd
  unfold Solar.baZiCheck
  rw [hl.from_]
  simp only [bind, Except.bind]
  rw [hd]
  simp only
  rw [e1]
  simp only
  rw [e2]
  simp only
  rw [t]
  simp only
  split_ifs
  · exact ⟨_, rfl, .inr rfl⟩
  · exact ⟨_, rfl, .inl rfl⟩
  · exact ⟨_, rfl, .inl rfl⟩
  · exact ⟨_, rfl, .inl rfl⟩

/-! ### the hours -/

/-- the moment examined for an hour -/
def cand (t : Solar) (d hour : ℤ) : Solar :=
  ⟨t.year, t.month, t.day, hour, if d = 0 ∧ hour = t.hour then t.minute else 0, if d = 0 ∧ hour = t.hour then t.second else 0⟩

theorem cand_valid {t : Solar} (ht : t.Valid) (d : ℤ) {hour : ℤ} (h0 : 0 ≤ hour) (h1 : hour ≤ 23) : (cand t d hour).Valid := by
  obtain ⟨c1, c2, c3, c4, c5, c6⟩ := ht.2
  refine ⟨ht.1, h0, h1, ?_⟩
  unfold cand
  simp only
  split_ifs <;> omega

theorem hours_cons {yg mg dg tg : PyStr} {sect : ℤ} {t : Solar} (ht : t.Valid) (d : ℤ) {hour : ℤ} (h0 : 0 ≤ hour) (h1 : hour ≤ 23)
    (hours : List ℤ) : Solar.baZiHours A yg mg dg tg sect t d (hour :: hours) =
      (do let a ← Solar.baZiCheck A yg mg dg tg sect (cand t d hour)
          let b ← Solar.baZiHours A yg mg dg tg sect t d hours
          return a ++ b) := by
  rw [Solar.baZiHours]
  have hv := cand_valid ht d h0 h1
  have e : ∀ mi s : ℤ, ClockOk hour mi s → Solar.fromYmdHms t.year t.month t.day hour mi s = .ok ⟨t.year, t.month, t.day, hour, mi, s⟩ :=
    fun mi s h => Cal.fromYmdHms_ok ht.1 h
  have hc := hv.2
  unfold cand at hc ⊢
  by_cases c : d = 0 ∧ hour = t.hour
  · rw [if_pos c, if_pos c] at hc
    simp only [if_pos c]
    rw [e _ _ hc]
    rfl
  · simp only [c, if_false] at hc ⊢
    rw [e _ _ hc]
    rfl

theorem hours_total (S : SunAlmanac H) (yg mg dg tg : PyStr) (sect : ℤ) {t : Solar} (ht : t.Valid) (h1 : lo < t.year) (h2 : t.year ≤ hi)
    (d : ℤ) : ∀ (hours : List ℤ), (∀ h ∈ hours, 0 ≤ h ∧ h ≤ 23) → hours.Pairwise (· < ·) →
    ∃ L, Solar.baZiHours A yg mg dg tg sect t d hours = .ok L ∧ L.Pairwise (fun a b => Cal.secNo a < Cal.secNo b) ∧
      ∀ c ∈ L, c.Valid ∧ c.date = t.date ∧ c.hour ∈ hours
  | [], _, _ => ⟨[], rfl, List.Pairwise.nil, fun _ h => by cases h⟩
  | hour :: hours, hb, hp => by
    obtain ⟨hh, hp⟩ := List.pairwise_cons.1 hp
    obtain ⟨L, e, o, m⟩ := hours_total S yg mg dg tg sect ht h1 h2 d hours (fun h hm => hb h (List.mem_cons_of_mem _ hm)) hp
    obtain ⟨b0, b1⟩ := hb hour List.mem_cons_self
    have hv := cand_valid ht d b0 b1
    obtain ⟨L', e', r⟩ := check_total S yg mg dg tg sect hv h1 h2
    refine ⟨L' ++ L, ?_, ?_, ?_⟩
    · rw [hours_cons ht d b0 b1, e', e]; rfl
    · rcases r with rfl | rfl
      · exact o
      · refine List.pairwise_cons.2 ⟨fun c hc => ?_, o⟩
        obtain ⟨v, dc, mc⟩ := m c hc
        have := hh _ mc
        obtain ⟨q1, q2, q3, q4, q5, q6⟩ := v.2
        obtain ⟨r1, r2, r3, r4, r5, r6⟩ := hv.2
        unfold Cal.secNo
        rw [dc]
        have : (cand t d hour).date = t.date := rfl
        rw [this]
        have : (cand t d hour).hour = hour := rfl
        omega
    · intro c hc
      rcases List.mem_append.1 hc with hc | hc
      · rcases r with rfl | rfl
        · cases hc
        · simp only [List.mem_singleton] at hc
          subst hc
          exact ⟨hv, rfl, List.mem_cons_self⟩
      · obtain ⟨v, dc, mc⟩ := m c hc
        exact ⟨v, dc, List.mem_cons_of_mem _ mc⟩

theorem hours_found {yg mg dg tg : PyStr} {sect : ℤ} {t : Solar} (ht : t.Valid) {d : ℤ} : ∀ {hours : List ℤ} {L : List Solar},
    Solar.baZiHours A yg mg dg tg sect t d hours = .ok L → (∀ h ∈ hours, 0 ≤ h ∧ h ≤ 23) → ∀ hour ∈ hours,
    Solar.baZiCheck A yg mg dg tg sect (cand t d hour) = .ok [cand t d hour] → cand t d hour ∈ L
  | [], _, _, _, _, hm, _ => by cases hm
  | h :: hours, L, e, hb, hour, hm, hc => by
    obtain ⟨b0, b1⟩ := hb h List.mem_cons_self
    rw [hours_cons ht d b0 b1] at e
    obtain ⟨L1, e1, e⟩ := bind_ok e
    obtain ⟨L2, e2, e⟩ := bind_ok e
    cases e
    rcases List.mem_cons.1 hm with rfl | hm
    · rw [hc] at e1
      cases e1
      exact List.mem_append_left _ List.mem_cons_self
    · exact List.mem_append_right _ (hours_found ht e2 (fun h hm => hb h (List.mem_cons_of_mem _ hm)) hour hm hc)

theorem fromYmdHms_hour {y m d h mi s : ℤ} {c : Solar} (e : Solar.fromYmdHms y m d h mi s = .ok c) : c.hour = h := by
  rcases C11_result y m d h mi s with r | r
  · rw [r] at e
    cases e
    rfl
  · rw [r] at e
    cases e

theorem hours_sound {yg mg dg tg : PyStr} {sect : ℤ} {t : Solar} {d : ℤ} : ∀ {hours : List ℤ} {L : List Solar} {x : Solar},
    Solar.baZiHours A yg mg dg tg sect t d hours = .ok L → x ∈ L →
    x.hour ∈ hours ∧ ∃ L', Solar.baZiCheck A yg mg dg tg sect x = .ok L' ∧ x ∈ L'
  | [], _, _, e, hx => by cases e; cases hx
  | h :: hours, L, x, e, hx => by
    rw [Solar.baZiHours] at e
    obtain ⟨c, e1, e⟩ := bind_ok e
    obtain ⟨L1, e2, e⟩ := bind_ok e
    obtain ⟨L2, e3, e⟩ := bind_ok e
    cases e
    rcases List.mem_append.1 hx with hx | hx
    · obtain ⟨rfl, -⟩ := check_sound e2 hx
      exact ⟨by rw [fromYmdHms_hour e1]; exact List.mem_cons_self, L1, e2, hx⟩
    · obtain ⟨a, b⟩ := hours_sound e3 hx
      exact ⟨List.mem_cons_of_mem _ a, b⟩

/-! ### the loop over the years -/

theorem loop_sound {f : ℤ → Except PyErr (List Solar)} {lo' hi' : ℤ} : ∀ (n : ℕ) (y : ℤ), (hi' + 1 - y).toNat ≤ n →
    ∀ {L : List Solar} {x : Solar}, Solar.baZiLoop f lo' hi' y = .ok L → x ∈ L → ∃ y L', f y = .ok L' ∧ x ∈ L'
  | n, y, hn, L, x, e, hx => by
    rw [Solar.baZiLoop] at e
    split_ifs at e with c1 c2
    · obtain ⟨L1, e1, e⟩ := bind_ok e
      obtain ⟨L2, e2, e⟩ := bind_ok e
      cases e
      rcases List.mem_append.1 hx with hx | hx
      · exact ⟨y, L1, e1, hx⟩
      · cases n with
        | zero => omega
        | succ n => exact loop_sound n (y + 60) (by omega) e2 hx
    · obtain ⟨L1, e1, e⟩ := bind_ok e
      obtain ⟨L2, e2, e⟩ := bind_ok e
      cases e
      cases e1
      cases n with
      | zero => omega
      | succ n => exact loop_sound n (y + 60) (by omega) e2 hx
    · cases e; cases hx

/-- when only one year is in range -/
theorem loop_at {f : ℤ → Except PyErr (List Solar)} {lo' hi' Y : ℤ} : ∀ (n : ℕ) (y : ℤ), Y = y + 60 * n → lo' ≤ Y → Y ≤ hi' →
    Y - 60 < lo' → hi' < Y + 60 → Solar.baZiLoop f lo' hi' y = f Y
  | 0, y, e, h1, h2, h3, h4 => by
    have : y = Y := by omega
    subst this
    rw [Solar.baZiLoop, if_pos h2, if_pos h1, Solar.baZiLoop, if_neg (by omega)]
    cases f y with
    | error e => rfl
    | ok L => show Except.ok (L ++ []) = _; rw [List.append_nil]
  | n + 1, y, e, h1, h2, h3, h4 => by
    rw [Solar.baZiLoop, if_pos (by omega), if_neg (by omega), loop_at n (y + 60) (by push_cast at e; omega) h1 h2 h3 h4]
    cases f Y with
    | error e => rfl
    | ok L => rfl

theorem loop_found {f : ℤ → Except PyErr (List Solar)} {lo' hi' Y : ℤ} (h1 : lo' ≤ Y) (h2 : Y ≤ hi') : ∀ (n : ℕ) (y : ℤ), Y = y + 60 * n →
    ∀ {L : List Solar}, Solar.baZiLoop f lo' hi' y = .ok L → ∃ L', f Y = .ok L' ∧ ∀ x ∈ L', x ∈ L
  | n, y, hn, L, e => by
    rw [Solar.baZiLoop, if_pos (by omega)] at e
    obtain ⟨L1, e1, e⟩ := bind_ok e
    obtain ⟨L2, e2, e⟩ := bind_ok e
    cases e
    cases n with
    | zero =>
      have : Y = y := by push_cast at hn; omega
      subst this
      rw [if_pos (by omega)] at e1
      exact ⟨L1, e1, fun x hx => List.mem_append_left _ hx⟩
    | succ n =>
      obtain ⟨L', e', m⟩ := loop_found h1 h2 n (y + 60) (by push_cast at hn; omega) e2
      exact ⟨L', e', fun x hx => List.mem_append_right _ (m x hx)⟩

theorem loop_total {f : ℤ → Except PyErr (List Solar)} {lo' hi' : ℤ} {r : ℤ} {R : Solar → Solar → Prop} {P : ℤ → Solar → Prop}
    (hR : ∀ y y' a b, y + 60 ≤ y' → P y a → P y' b → R a b)
    (hf : ∀ y, lo' ≤ y → y ≤ hi' → y % 60 = r → ∃ L, f y = .ok L ∧ L.Pairwise R ∧ ∀ x ∈ L, P y x) :
    ∀ (n : ℕ) (y : ℤ), (hi' + 1 - y).toNat ≤ n → y % 60 = r →
    ∃ L, Solar.baZiLoop f lo' hi' y = .ok L ∧ L.Pairwise R ∧ ∀ x ∈ L, ∃ y', y ≤ y' ∧ y' ≤ hi' ∧ P y' x
  | n, y, hn, hr => by
    rw [Solar.baZiLoop]
    by_cases c1 : y ≤ hi'
    · rw [if_pos c1]
      cases n with
      | zero => omega
      | succ n =>
        obtain ⟨L2, e2, o2, m2⟩ := loop_total hR hf n (y + 60) (by omega) (by omega)
        by_cases c2 : y ≥ lo'
        · obtain ⟨L1, e1, o1, m1⟩ := hf y c2 c1 hr
          rw [if_pos c2, e1, e2]
          refine ⟨L1 ++ L2, rfl, List.pairwise_append.2 ⟨o1, o2, fun a ha b hb => ?_⟩, fun x hx => ?_⟩
          · obtain ⟨y', g1, g2, g3⟩ := m2 b hb
            exact hR y y' a b g1 (m1 a ha) g3
          · rcases List.mem_append.1 hx with hx | hx
            · exact ⟨y, le_rfl, c1, m1 x hx⟩
            · obtain ⟨y', g1, g2, g3⟩ := m2 x hx
              exact ⟨y', by omega, g2, g3⟩
        · rw [if_neg c2, e2]
          refine ⟨L2, rfl, o2, fun x hx => ?_⟩
          obtain ⟨y', g1, g2, g3⟩ := m2 x hx
          exact ⟨y', by omega, g2, g3⟩
    · rw [if_neg c1]
      exact ⟨[], rfl, List.Pairwise.nil, fun _ h => by cases h⟩

/-! ### one year -/

theorem index_range (g : PyStr) : -1 ≤ getJiaZiIndex g ∧ getJiaZiIndex g < 60 := by
  by_cases h : getJiaZiIndex g = -1
  · omega
  · have := C29_only_pairs g h
    omega

/-- the distance in days of a pair from the day of the Jie -/
def gap (dg : PyStr) (a : Solar) : ℤ :=
  let d := getJiaZiIndex dg - (JD.jdn a.date - 11) % 60
  if d < 0 then d + 60 else d

theorem gap_range (dg : PyStr) (a : Solar) : 0 ≤ gap dg a ∧ gap dg a < 60 := by
  have := index_range dg
  unfold gap
  dsimp only
  split_ifs <;> omega

theorem term_at {m : ℤ} (h0 : 0 ≤ m) (h1 : m ≤ 11) {jq : List Solar} {a : Solar} (ha : jq[(4 + 2 * m).toNat]? = some a) :
    ∃ name, pyIndex JIE_QI_IN_USE (4 + m * 2) = .ok name ∧ term jq name = .ok a := by
  have key : ∀ i : Fin 12, ∃ name, pyIndex JIE_QI_IN_USE (4 + ((i : ℕ) : ℤ) * 2) = .ok name ∧
      JIE_QI_IN_USE.findIdx? (fun x => x == name) = some (4 + 2 * (i : ℕ)) := by
    intro i
    have : ∀ i : Fin 12, pyIndex JIE_QI_IN_USE (4 + ((i : ℕ) : ℤ) * 2) = .ok (JIE_QI_IN_USE.getD (4 + 2 * (i : ℕ)) []) ∧
      JIE_QI_IN_USE.findIdx? (fun x => x == JIE_QI_IN_USE.getD (4 + 2 * (i : ℕ)) []) = some (4 + 2 * (i : ℕ)) := by decide +kernel
    exact ⟨_, this i⟩
  obtain ⟨name, e1, e2⟩ := key ⟨m.toNat, by omega⟩
  simp only at e1 e2
  rw [show ((m.toNat : ℕ) : ℤ) = m by omega] at e1
  refine ⟨name, e1, ?_⟩
  unfold term
  rw [e2]
  simp only
  rw [show (4 + 2 * m).toNat = 4 + 2 * m.toNat by omega] at ha
  unfold pyIndex
  dsimp only
  rw [if_neg (by omega), if_neg (by omega), Int.toNat_natCast, ha]

theorem year_near {x y : Date} (hx : x.Valid) (hy : y.Valid) (h : Cal.dn y ≤ Cal.dn x + 100) : y.y ≤ x.y + 1 := by
  by_contra hc
  have v1 : (⟨x.y + 1, 1, 1⟩ : Date).Valid := by unfold Date.Valid lastDay; simp
  have v2 : (⟨x.y + 2, 1, 1⟩ : Date).Valid := by unfold Date.Valid lastDay; simp
  have a := Cal.dayNo_lt hx v1 (by unfold Cal.DateLt; left; show x.y < x.y + 1; omega)
  have b : Cal.dn ⟨x.y + 2, 1, 1⟩ ≤ Cal.dn y := by
    by_contra hb
    have := (Cal.dayNo_lt_iff hy v2).1 (by omega)
    unfold Cal.DateLt at this
    dsimp only at this
    have := hy.1
    have := hy.2.2.1
    omega
  rw [C10_jan1_dn] at a b
  rw [show x.y + 2 = x.y + 1 + 1 by ring] at b
  have := C10_daysOfYear (x.y + 1)
  rw [Cal.daysAfter_iff v1 (by rw [show x.y + 1 + 1 = x.y + 2 by ring]; exact v2), C10_jan1_dn, C10_jan1_dn] at this
  have h3 : 355 ≤ SolarUtil.getDaysOfYear (x.y + 1) := by
    unfold SolarUtil.getDaysOfYear
    split_ifs <;> omega
  omega

/-- the search in one year, from the Jie `a` on -/
theorem year_eq (S : SunAlmanac H) (yg mg dg tg : PyStr) (sect base : ℤ) (hours : List ℤ) {m Y : ℤ} (m0 : 0 ≤ m) (m1 : m ≤ 11)
    (h1 : lo ≤ Y) (h2 : Y ≤ hi) {jq : List Solar} (t : Table A Y jq) {a : Solar} (ha : jq[(4 + 2 * m).toNat]? = some a)
    (a1 : lo < a.year) (a2 : a.year ≤ hi) (hb : base ≤ a.year) :
    ∃ u, u.Valid ∧ Solar.SameClock a u ∧ Cal.dn u.date = Cal.dn a.date + gap dg a ∧ (gap dg a = 0 → u = a) ∧
      Solar.baZiYear A yg mg dg tg sect base (m * 2) hours Y = Solar.baZiHours A yg mg dg tg sect u (gap dg a) hours := by
  obtain ⟨l, el, tl⟩ := newYear_table S h1 h2
  cases Table.unique t tl
  have va := (table_of H h1 h2 t).valid _ (List.mem_of_getElem? ha)
  obtain ⟨name, e1, e2⟩ := term_at m0 m1 ha
  obtain ⟨la, hla⟩ := exists_at S va a1 a2
  obtain ⟨u, eu, vu, cu, du⟩ := Cal.nextDay_spec va (gap dg a)
  have gr := gap_range dg a
  have key : (if gap dg a > 0 then a.next (gap dg a) else pure a) = .ok u ∧ (gap dg a = 0 → u = a) := by
    by_cases c : gap dg a > 0
    · rw [if_pos c, eu]
      exact ⟨rfl, fun h => by omega⟩
    · have c0 : gap dg a = 0 := by omega
      have hu : u = a := by
        have := Cal.next_eq va va 0 ⟨rfl, rfl, rfl⟩ (by ring)
        rw [c0, this] at eu
        exact (Except.ok.inj eu).symm
      rw [if_neg c, hu]
      exact ⟨rfl, fun _ => rfl⟩
  refine ⟨u, vu, cu, du, key.2, ?_⟩
  unfold Solar.baZiYear
  rw [el]
  simp only [bind, Except.bind]
  rw [e1]
  simp only
  rw [e2]
  simp only
  rw [if_pos hb, hla.from_]
  simp only
  rw [hla.day.1]
  simp only
  rw [C29_index]
  have := key.1
  unfold gap at this
  dsimp only at this
  rw [this]
  rfl

/-- Jie between the two Li Chun of a table -/
theorem jie_year (S : SunAlmanac H) {Y : ℤ} (h1 : lo ≤ Y) (h2 : Y ≤ hi) {jq : List Solar} (t : Table A Y jq) {i : ℕ} (i1 : 4 ≤ i) (i2 : i ≤ 28)
    {a : Solar} (ha : jq[i]? = some a) : a.Valid ∧ (a.year = Y ∨ a.year = Y + 1) := by
  have T := table_of H h1 h2 t
  obtain ⟨b, hb, vb⟩ := get T (i := 4) (by decide)
  obtain ⟨c, hc, vc⟩ := get T (i := 28) (by decide)
  have va := T.valid _ (List.mem_of_getElem? ha)
  have y1 := secNo_year vb va (table_le T i1 hb ha).1
  have y2 := secNo_year va vc (table_le T i2 ha hc).1
  have := T.liChun b hb
  have := (S.ends Y h1 h2 jq t).2 c hc
  exact ⟨va, by omega⟩

/-- what is found in one year -/
theorem year_total (S : SunAlmanac H) (yg mg dg tg : PyStr) (sect base : ℤ) (hours : List ℤ) (hh : ∀ h ∈ hours, 0 ≤ h ∧ h ≤ 23)
    (hp : hours.Pairwise (· < ·)) {m Y : ℤ} (m0 : 0 ≤ m) (m1 : m ≤ 11) (h1 : lo < Y) (h2 : Y + 2 ≤ hi) :
    ∃ L, Solar.baZiYear A yg mg dg tg sect base (m * 2) hours Y = .ok L ∧ L.Pairwise (fun a b => Cal.secNo a < Cal.secNo b) ∧
      ∀ c ∈ L, c.Valid ∧ base ≤ c.year ∧ Y ≤ c.year ∧ c.year ≤ Y + 2 := by
  obtain ⟨jq, t, T⟩ := H.terms Y h1.le (by omega)
  obtain ⟨a, ha, va⟩ := get T (i := (4 + 2 * m).toNat) (by omega)
  obtain ⟨-, ay⟩ := jie_year S h1.le (by omega) t (by omega) (by omega) ha
  by_cases hb : base ≤ a.year
  · obtain ⟨u, vu, cu, du, -, e⟩ := year_eq S yg mg dg tg sect base hours m0 m1 h1.le (by omega) t ha (by omega) (by omega) hb
    have gr := gap_range dg a
    have n1 := year_near va.1 vu.1 (by omega)
    have n2 := year_mono va.1 vu.1 (by rw [JD.jdn_eq va.1, JD.jdn_eq vu.1]; omega)
    have n1 : u.year ≤ a.year + 1 := n1
    have n2 : a.year ≤ u.year := n2
    obtain ⟨L, eL, o, mL⟩ := hours_total S yg mg dg tg sect vu (by omega) (by omega) (gap dg a) hours hh hp
    refine ⟨L, by rw [e, eL], o, fun c hc => ?_⟩
    obtain ⟨vc, dc, -⟩ := mL c hc
    have : c.year = u.year := congrArg Date.y dc
    exact ⟨vc, by omega, by omega, by omega⟩
  · obtain ⟨l, el, tl⟩ := newYear_table S h1.le (show Y ≤ hi by omega)
    cases Table.unique t tl
    obtain ⟨name, e1, e2⟩ := term_at m0 m1 ha
    refine ⟨[], ?_, List.Pairwise.nil, fun _ h => by cases h⟩
    unfold Solar.baZiYear
    rw [el]
    simp only [bind, Except.bind]
    rw [e1]
    simp only
    rw [e2]
    simp only
    rw [if_neg (by omega)]
    rfl

theorem year_sound {yg mg dg tg : PyStr} {sect base m y : ℤ} {hours : List ℤ} {L : List Solar} {x : Solar}
    (h : Solar.baZiYear A yg mg dg tg sect base m hours y = .ok L) (hx : x ∈ L) :
    x.hour ∈ hours ∧ ∃ L', Solar.baZiCheck A yg mg dg tg sect x = .ok L' ∧ x ∈ L' := by
  unfold Solar.baZiYear at h
  obtain ⟨l, -, h⟩ := bind_ok h
  obtain ⟨name, -, h⟩ := bind_ok h
  obtain ⟨t, -, h⟩ := bind_ok h
  split_ifs at h with c1
  · obtain ⟨lt, -, h⟩ := bind_ok h
    obtain ⟨gz, -, h⟩ := bind_ok h
    obtain ⟨u, -, h⟩ := bind_ok h
    exact hours_sound h hx
  all_goals first | (cases h; cases hx) | skip

/-- two moments found in the same year and of the same hour are the same -/
theorem hours_form {yg mg dg tg : PyStr} {sect : ℤ} {t : Solar} {d : ℤ} : ∀ {hours : List ℤ} {L : List Solar} {x : Solar},
    Solar.baZiHours A yg mg dg tg sect t d hours = .ok L → x ∈ L → x = cand t d x.hour
  | [], _, _, e, hx => by cases e; cases hx
  | h :: hours, L, x, e, hx => by
    rw [Solar.baZiHours] at e
    obtain ⟨c, e1, e⟩ := bind_ok e
    obtain ⟨L1, e2, e⟩ := bind_ok e
    obtain ⟨L2, e3, e⟩ := bind_ok e
    cases e
    rcases List.mem_append.1 hx with hx | hx
    · obtain ⟨rfl, -⟩ := check_sound e2 hx
      have hc := fromYmdHms_hour e1
      rcases C11_result t.year t.month t.day h (if d = 0 ∧ h = t.hour then (t.minute, t.second) else (0, 0)).1
        (if d = 0 ∧ h = t.hour then (t.minute, t.second) else (0, 0)).2 with r | r
      · have e1' := e1.symm.trans r
        rw [hc]
        rw [Except.ok.inj e1']
        unfold cand
        split_ifs <;> rfl
      · exact absurd (e1.symm.trans r) (by simp)
    · exact hours_form e3 hx

theorem year_hour {yg mg dg tg : PyStr} {sect base m y : ℤ} {hours : List ℤ} {L : List Solar} {x x' : Solar}
    (h : Solar.baZiYear A yg mg dg tg sect base m hours y = .ok L) (hx : x ∈ L) (hx' : x' ∈ L) (e : x.hour = x'.hour) : x = x' := by
  unfold Solar.baZiYear at h
  obtain ⟨l, -, h⟩ := bind_ok h
  obtain ⟨name, -, h⟩ := bind_ok h
  obtain ⟨t, -, h⟩ := bind_ok h
  split_ifs at h with c1
  · obtain ⟨lt, -, h⟩ := bind_ok h
    obtain ⟨gz, -, h⟩ := bind_ok h
    obtain ⟨u, -, h⟩ := bind_ok h
    rw [hours_form h hx, hours_form h hx', e]
  all_goals first | (cases h; cases hx) | skip

end BaZi
