import Verif.Proof.BaZi
import Verif.Proof.SampleSun

/-! # C52, C69: moments with given four pillars

`SunAlmanac` (`Verif/Spec/SunAlmanac.lean`) says that the tables of terms of neighbouring years agree. -/

section
open Spec LunarYear LunarUtil Lunar BaZi

attribute [local irreducible] make

variable {A : Astro} {lo hi : ℤ}

private theorem find_stem (n : ℤ) : find [stem n] GAN (-1) = n % 10 := by
  have key : ∀ i : Fin 10, find [stem ((i : ℕ) : ℤ)] GAN (-1) = ((i : ℕ) : ℤ) := by decide +kernel
  have := key ⟨(n % 10).toNat, by omega⟩
  simp only [show (((n % 10).toNat : ℕ) : ℤ) = n % 10 by omega] at this
  rwa [stem_emod] at this

private theorem find_branch (n : ℤ) : find [branch n] ZHI (-1) = n % 12 := by
  have key : ∀ i : Fin 12, find [branch ((i : ℕ) : ℤ)] ZHI (-1) = ((i : ℕ) : ℤ) := by decide +kernel
  have := key ⟨(n % 12).toNat, by omega⟩
  simp only [show (((n % 12).toNat : ℕ) : ℤ) = n % 12 by omega] at this
  rwa [branch_emod] at this

private theorem find_range (g : PyStr) : -1 ≤ find g ZHI (-1) ∧ find g ZHI (-1) ≤ 11 := by
  unfold find
  cases h : ZHI.findIdx? (fun x => x == g) with
  | none => simp
  | some i =>
    have := (List.findIdx?_eq_some_iff_findIdx_eq.1 h).1
    have e : ZHI.length = 13 := by decide
    simp only
    omega

/-! ## C52 -/

/-- **C52** every moment found has the four given pillars; the day pillar is the one from 23:00 on of the next day when
`sect` is 1, and that of the civil day otherwise (a search that does find moments: the example after
`C69_complete_partial`) -/
theorem C52_sound (A : Astro) (now : ℤ) (yg mg dg tg : PyStr) (sect base : ℤ) (L : List Solar)
    (h : Solar.fromBaZi A now yg mg dg tg sect base = .ok L) (s : Solar) (hs : s ∈ L) :
    ∃ l, Lunar.fromSolar A s = .ok l ∧ l.getYearInGanZhiExact = .ok yg ∧ l.getMonthInGanZhiExact = .ok mg ∧
      (if sect = 1 then l.getDayInGanZhiExact else l.getDayInGanZhiExact2) = .ok dg ∧ l.getTimeInGanZhi = .ok tg := by
  unfold Solar.fromBaZi at h
  dsimp only at h
  generalize (if find (mg.drop 1) ZHI (-1) - 2 < 0 then find (mg.drop 1) ZHI (-1) - 2 + 12
    else find (mg.drop 1) ZHI (-1) - 2) = m at h
  split at h
  · cases h; cases hs
  · obtain ⟨y, L1, e1, m1⟩ := loop_sound _ _ le_rfl h hs
    obtain ⟨-, L2, e2, m2⟩ := year_sound e1 m1
    obtain ⟨-, l, a, b, c, d, e⟩ := check_sound e2 m2
    refine ⟨l, a, b, c, ?_, e⟩
    by_cases h1 : sect = 1
    · rw [if_pos h1]
      rw [if_pos h1.symm, if_neg (by decide)] at d
      exact d
    · rw [if_neg h1]
      rw [if_neg (show ¬ 1 = sect from fun h => h1 h.symm), if_pos rfl] at d
      exact d

/-- the moments found are in order, and those of the same hour are more than fifty years apart -/
theorem BaZi.ordered_hours {H : Almanac A lo hi} (S : SunAlmanac H) (now : ℤ) (yg mg dg : PyStr) (g : Char) (n : ℤ) (sect base : ℤ)
    (hr : ∀ y, base - 1 ≤ y → y ≤ now → (∀ k, yg = ganZhi k → (y - 4 - k) % 60 = 0) → lo < y ∧ y + 2 ≤ hi) :
    ∃ L, Solar.fromBaZi A now yg mg dg [g, branch n] sect base = .ok L ∧
      L.Pairwise (fun a b => a.Before b ∧ (a.hour = b.hour → a.year + 50 ≤ b.year)) ∧
      ∀ s ∈ L, s.Valid ∧ base ≤ s.year ∧ s.year ≤ now + 2 := by
  unfold Solar.fromBaZi
  dsimp only
  rw [show ([g, branch n] : PyStr).drop 1 = [branch n] from rfl, find_branch]
  have fr := find_range (mg.drop 1)
  generalize hm : (if find (mg.drop 1) ZHI (-1) - 2 < 0 then find (mg.drop 1) ZHI (-1) - 2 + 12
    else find (mg.drop 1) ZHI (-1) - 2) = m
  split
  · exact ⟨[], rfl, List.Pairwise.nil, fun _ h => by cases h⟩
  · have m0 : 0 ≤ m := by rw [← hm]; split_ifs <;> omega
    have m1 : m ≤ 11 := by rw [← hm]; split_ifs <;> omega
    generalize hy : (if getJiaZiIndex yg - 57 < 0 then getJiaZiIndex yg - 57 + 60 else getJiaZiIndex yg - 57) + 1 = y0
    have ir := index_range yg
    have y60 : y0 % 60 = (getJiaZiIndex yg + 4) % 60 := by rw [← hy]; split_ifs <;> omega
    generalize hs : (if 1 = sect then (1 : ℤ) else 2) = sect'
    generalize hh : (if 0 = n % 12 * 2 ∧ 2 = sect' then [n % 12 * 2, 23] else [n % 12 * 2]) = hours
    have hb : ∀ h ∈ hours, 0 ≤ h ∧ h ≤ 23 := by
      rw [← hh]
      split_ifs <;> simp <;> omega
    have hp : hours.Pairwise (· < ·) := by
      rw [← hh]
      split_ifs <;> simp
      omega
    obtain ⟨L, e, o, mL⟩ := loop_total (f := Solar.baZiYear A yg mg dg [g, branch n] sect' base (m * 2) hours)
      (lo' := base - 1) (hi' := now) (r := y0 % 60) (R := fun a b => a.Valid ∧ b.Valid ∧ Cal.secNo a < Cal.secNo b ∧ (a.hour = b.hour → a.year + 50 ≤ b.year))
      (P := fun y c => c.Valid ∧ base ≤ c.year ∧ y ≤ c.year ∧ c.year ≤ y + 2)
      (fun y y' a b hle pa pb => ⟨pa.1, pb.1, by
        by_contra hc
        have := secNo_year pb.1 pa.1 (by omega)
        omega, fun _ => by omega⟩)
      (fun y h1 h2 h3 => by
        obtain ⟨r1, r2⟩ := hr y h1 h2 (fun k hk => by
          have := C29_index k
          rw [← hk] at this
          omega)
        obtain ⟨L, e, o, mL⟩ := year_total S yg mg dg [g, branch n] sect' base hours hb hp m0 m1 r1 r2
        exact ⟨L, e, List.Pairwise.imp_of_mem (fun ha hb h => ⟨(mL _ ha).1, (mL _ hb).1, h, fun he => by
          rw [year_hour e ha hb he] at h
          exact absurd h (lt_irrefl _)⟩) o, mL⟩) _ y0 le_rfl rfl
    refine ⟨L, e, o.imp (fun h => ⟨(Solar.before_iff h.1 h.2.1).2 h.2.2.1, h.2.2.2⟩), fun s hs => ?_⟩
    obtain ⟨y', -, g2, g3⟩ := mL s hs
    exact ⟨g3.1, g3.2.1, by omega⟩

/-- **C52** for an hour pillar ending in a branch the search does not fail, and the moments found are existing moments
of year `base` or later in chronological order, none twice; `hr` says that the years of the given name from `base - 1` to
the present are covered by the almanac -/
theorem C52_ordered {H : Almanac A lo hi} (S : SunAlmanac H) (now : ℤ) (yg mg dg : PyStr) (g : Char) (n : ℤ) (sect base : ℤ)
    (hr : ∀ y, base - 1 ≤ y → y ≤ now → (∀ k, yg = ganZhi k → (y - 4 - k) % 60 = 0) → lo < y ∧ y + 2 ≤ hi) :
    ∃ L, Solar.fromBaZi A now yg mg dg [g, branch n] sect base = .ok L ∧ L.Pairwise Solar.Before ∧
      ∀ s ∈ L, s.Valid ∧ base ≤ s.year ∧ s.year ≤ now + 2 := by
  obtain ⟨L, e, o, m⟩ := ordered_hours S now yg mg dg g n sect base hr
  exact ⟨L, e, o.imp (fun h => h.1), m⟩

/-- the sample almanac: the moments of 癸卯 甲子 甲子 甲子 in 2023 -/
example : ∃ L, Solar.fromBaZi Sample.astro 2026 ['癸', '卯'] ['甲', '子'] ['甲', '子'] ['甲', '子'] 2 1990 = .ok L ∧
    L.Pairwise Solar.Before ∧ ∀ s ∈ L, s.Valid ∧ 1990 ≤ s.year ∧ s.year ≤ 2026 + 2 :=
  C52_ordered Sample.sunAlmanac 2026 ['癸', '卯'] ['甲', '子'] ['甲', '子'] '甲' 0 2 1990 (fun y h1 h2 h => by
    have := h 39 (by decide)
    omega)

/-! ## C69 -/

/-- two moments of the same double-hour (counted from 1999-12-31 23:00) -/
def SameDoubleHour (s c : Solar) : Prop :=
  ∃ m n, SecondsAfter m ⟨1999, 12, 31⟩ 23 0 0 s.date s.hour s.minute s.second ∧
    SecondsAfter n ⟨1999, 12, 31⟩ 23 0 0 c.date c.hour c.minute c.second ∧ m / 7200 = n / 7200

theorem BaZi.same_iff {s c : Solar} (hs : s.Valid) (hc : c.Valid) (h : (Cal.secNo s - Cal.secNo ⟨1999, 12, 31, 23, 0, 0⟩) / 7200 =
    (Cal.secNo c - Cal.secNo ⟨1999, 12, 31, 23, 0, 0⟩) / 7200) : SameDoubleHour s c :=
  ⟨_, _, (Cal.secondsAfter_iff (s := ⟨1999, 12, 31, 23, 0, 0⟩) (by decide) hs _).2 (by ring),
    (Cal.secondsAfter_iff (s := ⟨1999, 12, 31, 23, 0, 0⟩) (by decide) hc _).2 (by ring), h⟩

private theorem place_arith {h m c ah am ac x sect hr ds da sb : ℤ} (s1 : 0 ≤ h) (s2 : h ≤ 23) (s3 : 0 ≤ m) (s4 : m ≤ 59) (s5 : 0 ≤ c)
    (s6 : c ≤ 59) (a1 : 0 ≤ ah) (a2 : ah ≤ 23) (a3 : 0 ≤ am) (a4 : am ≤ 59) (a5 : 0 ≤ ac) (a6 : ac ≤ 59)
    (x01 : x = 0 ∨ x = 1) (xdef : x = 1 ↔ h = 23 ∧ sect = 1)
    (hrdef : hr = if sect ≠ 1 ∧ h = 23 then 23 else (h + 1) / 2 % 12 * 2)
    (ale : 86400 * da + (ah * 3600 + am * 60 + ac) ≤ 86400 * ds + (h * 3600 + m * 60 + c))
    (blt : 86400 * ds + (h * 3600 + m * 60 + c) < sb)
    (hgap : h % 2 = 1 → (sect ≠ 1 → h ≠ 23) → 3600 * (h + 1) + 86400 * ds < sb) :
    86400 * da + (ah * 3600 + am * 60 + ac) ≤
        86400 * (ds + x) + hr * 3600 + (if ds + x - da = 0 ∧ hr = ah then am * 60 + ac else 0) ∧
      86400 * (ds + x) + hr * 3600 + (if ds + x - da = 0 ∧ hr = ah then am * 60 + ac else 0) < sb := by
  by_cases c2 : sect ≠ 1 ∧ h = 23
  · rw [if_pos c2] at hrdef
    have x0 : x = 0 := by omega
    obtain ⟨-, c2⟩ := c2
    subst x0 hrdef c2
    split_ifs <;> omega
  · rw [if_neg c2] at hrdef
    have c3 : h = 23 ↔ x = 1 := by omega
    have c4 : h % 2 = 1 → 3600 * (h + 1) + 86400 * ds < sb := fun g => hgap g (by omega)
    clear hgap xdef c2
    by_cases c5 : h = 23
    · have x1 := c3.1 c5
      subst x1 c5
      have : hr = 0 := by omega
      subst this
      have := c4 (by decide)
      split_ifs <;> omega
    · have x0 : x = 0 := by omega
      subst x0
      by_cases c6 : h % 2 = 1
      · have c7 := c4 c6
        have : hr = h + 1 := by omega
        subst this
        split_ifs <;> omega
      · have : hr = h := by omega
        subst this
        split_ifs <;> omega

private theorem same_arith {h m c x sect hr ds r w : ℤ} (s1 : 0 ≤ h) (s2 : h ≤ 23) (s3 : 0 ≤ m) (s4 : m ≤ 59) (s5 : 0 ≤ c)
    (s6 : c ≤ 59) (x01 : x = 0 ∨ x = 1) (xdef : x = 1 ↔ h = 23 ∧ sect = 1)
    (hrdef : hr = if sect ≠ 1 ∧ h = 23 then 23 else (h + 1) / 2 % 12 * 2) (extra : 0 ≤ w ∧ w < 3600) :
    (86400 * ds + (h * 3600 + m * 60 + c) - (86400 * r + 82800)) / 7200 =
      (86400 * (ds + x) + hr * 3600 + w - (86400 * r + 82800)) / 7200 := by
  have hl1 : (86400 * ds + (h * 3600 + m * 60 + c) - (86400 * r + 82800)) / 7200 = 12 * (ds - r - 1) + (h + 1) / 2 := by omega
  have hl2 : (86400 * (ds + x) + hr * 3600 + w - (86400 * r + 82800)) / 7200 = 12 * (ds + x - r - 1) + (hr + 1) / 2 := by omega
  rw [hl1, hl2, hrdef]
  split_ifs <;> omega

private theorem gap_eq {s a b : Solar} (hs : s.Valid) (va : a.Valid) (vb : b.Valid) (ale : Cal.secNo a ≤ Cal.secNo s)
    (blt : Cal.secNo s < Cal.secNo b) (hsh : Cal.dn b.date - Cal.dn a.date < 59) {x : ℤ} (x01 : x = 0 ∨ x = 1) :
    gap (ganZhi (JD.jdn s.date - 11 + x)) a = Cal.dn s.date + x - Cal.dn a.date := by
  have ca := Cal.clock_bounds va
  have cb := Cal.clock_bounds vb
  have cs := Cal.clock_bounds hs
  have r1 : Cal.dn a.date ≤ Cal.dn s.date := by unfold Cal.secNo at ale; omega
  have r2 : Cal.dn s.date ≤ Cal.dn b.date := by unfold Cal.secNo at blt; omega
  unfold gap
  dsimp only
  rw [C29_index, JD.jdn_eq hs.1, JD.jdn_eq va.1]
  clear ca cb cs ale blt hs va vb
  unfold Cal.dn at *
  split_ifs <;> omega

/-- the hour examined for the moment `s` -/
private def hourOf (sect : ℤ) (s : Solar) : ℤ := if sect ≠ 1 ∧ s.hour = 23 then 23 else (s.hour + 1) / 2 % 12 * 2

/-- the day examined is the next one -/
private def lateOf (sect : ℤ) (s : Solar) : ℤ := if sect = 1 ∧ s.hour = 23 then 1 else 0

private theorem late_iff (sect : ℤ) (s : Solar) : lateOf sect s = 1 ↔ s.hour = 23 ∧ sect = 1 := by
  unfold lateOf
  split_ifs with c
  · exact ⟨fun _ => ⟨c.2, c.1⟩, fun _ => rfl⟩
  · exact ⟨fun h => by omega, fun h => absurd ⟨h.2, h.1⟩ c⟩

private theorem late_01 (sect : ℤ) (s : Solar) : lateOf sect s = 0 ∨ lateOf sect s = 1 := by
  unfold lateOf
  split_ifs <;> simp

private theorem cand_place {s a b u : Solar} (hs : s.Valid) (va : a.Valid) (sect d : ℤ) (ale : Cal.secNo a ≤ Cal.secNo s)
    (blt : Cal.secNo s < Cal.secNo b)
    (hgap : s.hour % 2 = 1 → (sect ≠ 1 → s.hour ≠ 23) → 3600 * (s.hour + 1) + 86400 * Cal.dn s.date < Cal.secNo b)
    (cu : Solar.SameClock a u) (du : Cal.dn u.date = Cal.dn a.date + d) (hd : d = Cal.dn s.date + lateOf sect s - Cal.dn a.date) :
    Cal.dn (cand u d (hourOf sect s)).date = Cal.dn s.date + lateOf sect s ∧
    Cal.secNo a ≤ Cal.secNo (cand u d (hourOf sect s)) ∧ Cal.secNo (cand u d (hourOf sect s)) < Cal.secNo b ∧
    (Cal.secNo s - Cal.secNo ⟨1999, 12, 31, 23, 0, 0⟩) / 7200 =
      (Cal.secNo (cand u d (hourOf sect s)) - Cal.secNo ⟨1999, 12, 31, 23, 0, 0⟩) / 7200 := by
  obtain ⟨s1, s2, s3, s4, s5, s6⟩ := hs.2
  obtain ⟨a1, a2, a3, a4, a5, a6⟩ := va.2
  have xs := late_iff sect s
  have x01 := late_01 sect s
  have hrdef : hourOf sect s = if sect ≠ 1 ∧ s.hour = 23 then 23 else (s.hour + 1) / 2 % 12 * 2 := rfl
  have cdn : Cal.dn (cand u d (hourOf sect s)).date = Cal.dn s.date + lateOf sect s := by
    show Cal.dn u.date = _
    rw [du, hd]; ring
  have csec : Cal.secNo (cand u d (hourOf sect s)) = 86400 * (Cal.dn s.date + lateOf sect s) + hourOf sect s * 3600 +
      (if d = 0 ∧ hourOf sect s = a.hour then a.minute * 60 + a.second else 0) := by
    unfold Cal.secNo
    rw [cdn]
    unfold cand
    dsimp only
    rw [cu.1, cu.2.1, cu.2.2]
    split_ifs <;> ring
  have ea : Cal.secNo a = 86400 * Cal.dn a.date + (a.hour * 3600 + a.minute * 60 + a.second) := rfl
  have es : Cal.secNo s = 86400 * Cal.dn s.date + (s.hour * 3600 + s.minute * 60 + s.second) := rfl
  have er : Cal.secNo ⟨1999, 12, 31, 23, 0, 0⟩ = 86400 * Cal.dn ⟨1999, 12, 31⟩ + 82800 := rfl
  refine ⟨cdn, ?_⟩
  rw [csec, ea, er, es]
  rw [ea, es] at ale
  rw [es] at blt
  rw [← and_assoc]
  constructor
  · rw [hd]
    exact place_arith s1 s2 s3 s4 s5 s6 a1 a2 a3 a4 a5 a6 x01 xs hrdef ale blt hgap
  · refine same_arith s1 s2 s3 s4 s5 s6 x01 xs hrdef ?_
    clear ale blt hgap csec cdn
    split_ifs <;> omega

private theorem time_branch {s : Solar} (hs : s.Valid) :
    (48 + (Cal.secNo s - Cal.secNo ⟨1999, 12, 31, 23, 0, 0⟩) / 7200) % 12 = (s.hour + 1) / 2 % 12 := by
  obtain ⟨s1, s2, s3, s4, s5, s6⟩ := hs.2
  have es : Cal.secNo s = 86400 * Cal.dn s.date + (s.hour * 3600 + s.minute * 60 + s.second) := rfl
  have er : Cal.secNo ⟨1999, 12, 31, 23, 0, 0⟩ = 86400 * Cal.dn ⟨1999, 12, 31⟩ + 82800 := rfl
  rw [es, er]
  generalize Cal.dn ⟨1999, 12, 31⟩ = r
  generalize Cal.dn s.date = ds
  have : (86400 * ds + (s.hour * 3600 + s.minute * 60 + s.second) - (86400 * r + 82800)) / 7200 =
      12 * (ds - r - 1) + (s.hour + 1) / 2 := by omega
  rw [this]
  omega

private theorem hour_mem (sect : ℤ) {s : Solar} (hs : s.Valid) :
    (∀ h ∈ (if 0 = (s.hour + 1) / 2 % 12 * 2 ∧ 2 = (if 1 = sect then (1 : ℤ) else 2) then [(s.hour + 1) / 2 % 12 * 2, 23]
      else [(s.hour + 1) / 2 % 12 * 2]), 0 ≤ h ∧ h ≤ 23) ∧
    hourOf sect s ∈ (if 0 = (s.hour + 1) / 2 % 12 * 2 ∧ 2 = (if 1 = sect then (1 : ℤ) else 2) then [(s.hour + 1) / 2 % 12 * 2, 23]
      else [(s.hour + 1) / 2 % 12 * 2]) ∧ 0 ≤ hourOf sect s ∧ hourOf sect s ≤ 23 ∧ (sect = 1 → hourOf sect s ≠ 23) := by
  obtain ⟨s1, s2, -⟩ := hs.2
  refine ⟨by split_ifs <;> simp <;> omega, ?_, ?_⟩
  · unfold hourOf
    by_cases c : sect ≠ 1 ∧ s.hour = 23
    · rw [if_pos c, if_pos]
      · simp
      · rw [if_neg (show ¬ 1 = sect from fun h => c.1 h.symm), c.2]
        decide
    · rw [if_neg c]
      split_ifs <;> simp
  · unfold hourOf
    split_ifs <;> omega

private theorem month_offset {Y : ℤ} {j : ℕ} (p2 : 2 ≤ j) (p13 : j ≤ 13) :
    (if (12 * (Y - 4) + (j : ℤ)) % 12 - 2 < 0 then (12 * (Y - 4) + (j : ℤ)) % 12 - 2 + 12
      else (12 * (Y - 4) + (j : ℤ)) % 12 - 2) = (j : ℤ) - 2 := by split_ifs <;> omega

private theorem stem_rule {Y : ℤ} {j : ℕ} : (((Y - 4) % 10 + 1) * 2 + ((j : ℤ) - 2)) % 10 = (12 * (Y - 4) + j) % 10 := by omega

private theorem year_steps {Y : ℤ} (h : 1 ≤ Y) :
    Y = (if (Y - 4) % 60 - 57 < 0 then (Y - 4) % 60 - 57 + 60 else (Y - 4) % 60 - 57) + 1 +
      60 * (((Y - ((if (Y - 4) % 60 - 57 < 0 then (Y - 4) % 60 - 57 + 60 else (Y - 4) % 60 - 57) + 1)) / 60).toNat : ℤ) := by
  split_ifs <;> omega

/-- **C69** every moment at or after a Jie of year `base` or later is found from its own pillars, up to the double-hour it
lies in, unless it is in the first half of its double-hour (an odd hour) and a Jie falls after it, not later than the
next full hour.  (Missing for the full property: these moments, and those of `base` before its first Jie, which are not
found: `C69_missed_violated`, `C69_base_violated`.) -/
theorem C69_complete_partial {H : Almanac A lo hi} (S : SunAlmanac H) (s : Solar) (hs : s.Valid) (h1 : lo + 1 < s.year) (h2 : s.year < hi)
    (l : Lunar) (hl : Lunar.fromSolar A s = .ok l) (now sect base : ℤ) (hn : s.year ≤ now)
    (hb : ∃ (i : ℕ) (t : Solar), l.jieQi[2 * i]? = some t ∧ base ≤ t.year ∧ t.AtOrBefore s)
    (yg mg dg tg : PyStr) (ey : l.getYearInGanZhiExact = .ok yg) (em : l.getMonthInGanZhiExact = .ok mg)
    (ed : (if sect = 1 then l.getDayInGanZhiExact else l.getDayInGanZhiExact2) = .ok dg) (et : l.getTimeInGanZhi = .ok tg)
    (hgap : s.hour % 2 = 1 → (sect ≠ 1 → s.hour ≠ 23) → ∀ (i : ℕ) (t : Solar) (n : ℤ), l.jieQi[2 * i]? = some t →
      SecondsAfter n s.date s.hour s.minute s.second t.date t.hour t.minute t.second → 0 < n →
      3600 < 60 * s.minute + s.second + n)
    (L : List Solar) (hL : Solar.fromBaZi A now yg mg dg tg sect base = .ok L) : ∃ c ∈ L, SameDoubleHour s c := by
  obtain ⟨l', hl'⟩ := exists_at S hs (by omega) h2.le
  have : l = l' := by have := hl'.from_; rw [hl] at this; exact Except.ok.inj this
  subst this
  obtain ⟨Y, j, jq, a, b, p, ⟨bi, hai, hbi⟩, e1, e2⟩ := exists_pos S hs (by omega) h2.le hl'
  rw [e1] at ey
  rw [e2] at em
  rw [hl'.time] at et
  cases ey
  cases em
  cases et
  have ed' : dg = ganZhi (JD.jdn s.date - 11 + lateOf sect s) := by
    unfold lateOf
    by_cases c : sect = 1
    · rw [if_pos c, hl'.day.2] at ed
      cases ed
      simp only [c, true_and]
    · rw [if_neg c, hl'.day.1] at ed
      cases ed
      simp only [c, false_and, if_false, add_zero]
  have py := p.year
  have p2 := p.two
  have p13 := p.thirteen
  have Y0 : 1 ≤ Y := by have := (H.year_range (le_refl lo) (by omega)).1; omega
  have Y1 : lo < Y := by omega
  have Y2 : Y ≤ hi := by omega
  have Y4 : Y ≤ now := by omega
  obtain ⟨va, ay⟩ := jie_year S Y1.le Y2 p.table (i := 2 * j) (by omega) (by omega) p.fst
  obtain ⟨vb, by_⟩ := jie_year S Y1.le Y2 p.table (i := 2 * j + 2) (by omega) (by omega) p.snd
  have asy := secNo_year va hs p.le
  have A1 : lo < a.year := by omega
  have A2 : a.year ≤ hi := by omega
  have A3 : base ≤ a.year := by
    obtain ⟨i, t, ht, tb, ts⟩ := hb
    have T := hl'.terms
    have vt := T.valid _ (List.mem_of_getElem? ht)
    rw [Solar.atOrBefore_iff vt hs] at ts
    have lt := p.lt
    by_cases hi : i ≤ bi
    · have := secNo_year vt va (table_le T (i := 2 * i) (j := 2 * bi) (by omega) ht hai).1
      omega
    · have := (table_le T (i := 2 * (bi + 1)) (j := 2 * i) (by omega) hbi ht).1
      omega
  have hsh := S.short Y Y1.le Y2 jq p.table j a b (Cal.dn b.date - Cal.dn a.date) p.fst p.snd
    ((Cal.daysAfter_iff va.1 vb.1 _).2 (by unfold Cal.dn; ring))
  have gapeq := gap_eq hs va vb p.le p.lt hsh (late_01 sect s)
  rw [← ed'] at gapeq
  have hgap' : s.hour % 2 = 1 → (sect ≠ 1 → s.hour ≠ 23) → 3600 * (s.hour + 1) + 86400 * Cal.dn s.date < Cal.secNo b := by
    intro g1 g2
    have lt := p.lt
    have := hgap g1 g2 (bi + 1) b (Cal.secNo b - Cal.secNo s) hbi ((Cal.secondsAfter_iff hs vb _).2 (by ring)) (by omega)
    have e : Cal.secNo s = 86400 * Cal.dn s.date + (s.hour * 3600 + s.minute * 60 + s.second) := rfl
    clear hgap hsh gapeq
    omega
  -- the search in year Y
  unfold Solar.fromBaZi at hL
  dsimp only at hL
  rw [show (ganZhi (12 * (Y - 4) + j)).drop 1 = [branch (12 * (Y - 4) + j)] from rfl,
    show (ganZhi (12 * (Y - 4) + j)).take 1 = [stem (12 * (Y - 4) + j)] from rfl,
    show (ganZhi (Y - 4)).take 1 = [stem (Y - 4)] from rfl, find_branch, find_stem, find_stem, C29_index] at hL
  generalize hq : 48 + (Cal.secNo s - Cal.secNo ⟨1999, 12, 31, 23, 0, 0⟩) / 7200 = q at hL
  rw [show (ganZhi q).drop 1 = [branch q] from rfl, find_branch, month_offset p2 p13, if_neg (by rw [stem_rule]; exact fun h => h rfl),
    show q % 12 = (s.hour + 1) / 2 % 12 by rw [← hq]; exact time_branch hs] at hL
  obtain ⟨L', eL', sub⟩ := loop_found (Y := Y) (by omega) Y4 _ _ (year_steps Y0) hL
  obtain ⟨hours_ok, hr_mem, hr0, hr1, hr23⟩ := hour_mem sect hs
  obtain ⟨u, vu, cu, du, u0, eu⟩ := year_eq S (ganZhi (Y - 4)) (ganZhi (12 * (Y - 4) + j)) dg (ganZhi q) (if 1 = sect then 1 else 2) base
    (if 0 = (s.hour + 1) / 2 % 12 * 2 ∧ 2 = (if 1 = sect then (1 : ℤ) else 2) then [(s.hour + 1) / 2 % 12 * 2, 23]
      else [(s.hour + 1) / 2 % 12 * 2])
    (m := (j : ℤ) - 2) (by omega) (by omega) Y1.le Y2 p.table
    (by rw [show (4 + 2 * ((j : ℤ) - 2)).toNat = 2 * j by omega]; exact p.fst) A1 A2 A3
  rw [eu] at eL'
  have vc := cand_valid vu (gap dg a) hr0 hr1
  obtain ⟨cdn, place1, place2, same⟩ := cand_place hs va sect (gap dg a) p.le p.lt hgap' cu du gapeq
  have cy1 := secNo_year va vc place1
  have cy2 := secNo_year vc vb place2.le
  have l01 := late_01 sect s
  have cy3 : (cand u (gap dg a) (hourOf sect s)).year ≤ s.year + 1 := year_near hs.1 vc.1 (by rw [cdn]; omega)
  have C1 : lo < (cand u (gap dg a) (hourOf sect s)).year := by omega
  have C2 : (cand u (gap dg a) (hourOf sect s)).year ≤ hi := by omega
  obtain ⟨lc, hlc⟩ := exists_at S vc C1 C2
  have pc : Pos A (cand u (gap dg a) (hourOf sect s)) Y j jq a b :=
    ⟨p2, p13, p.table, p.fst, p.snd, place1, place2, by omega⟩
  obtain ⟨q1, q2⟩ := pc.pillars S vc C1 C2 hlc
  have q3 : (if 2 = (if 1 = sect then (1 : ℤ) else 2) then lc.getDayInGanZhiExact2 else lc.getDayInGanZhiExact) = .ok dg := by
    have e : JD.jdn (cand u (gap dg a) (hourOf sect s)).date - 11 = JD.jdn s.date - 11 + lateOf sect s := by
      rw [JD.jdn_eq vc.1, JD.jdn_eq hs.1]
      rw [cdn]
      ring
    by_cases c : sect = 1
    · rw [if_pos c.symm, if_neg (by decide), hlc.day.2, e, if_neg (show ¬ (cand u (gap dg a) (hourOf sect s)).hour = 23 from hr23 c), ed', add_zero]
    · rw [if_neg (show ¬ 1 = sect from fun h => c h.symm), if_pos rfl, hlc.day.1, e, ed']
  have q4 : lc.getTimeInGanZhi = .ok (ganZhi q) := by rw [hlc.time, ← same, hq]
  have found := hours_found vu eL' hours_ok _ hr_mem (check_found hlc.from_ q1 q2 q3 q4)
  exact ⟨_, sub _ found, same_iff hs vc same⟩

/-- every moment found is in an even hour, or in the hour from 23:00 on when `sect` is not 1 -/
theorem BaZi.found_hour {now : ℤ} {yg mg dg tg : PyStr} {sect base : ℤ} {L : List Solar}
    (h : Solar.fromBaZi A now yg mg dg tg sect base = .ok L) {s : Solar} (hs : s ∈ L) :
    s.hour % 2 = 0 ∨ (s.hour = 23 ∧ sect ≠ 1) := by
  unfold Solar.fromBaZi at h
  dsimp only at h
  generalize (if find (mg.drop 1) ZHI (-1) - 2 < 0 then find (mg.drop 1) ZHI (-1) - 2 + 12
    else find (mg.drop 1) ZHI (-1) - 2) = m at h
  split at h
  · cases h; cases hs
  · obtain ⟨y, L1, e1, m1⟩ := loop_sound _ _ le_rfl h hs
    obtain ⟨hh, -⟩ := year_sound e1 m1
    generalize find (tg.drop 1) ZHI (-1) = f at hh
    generalize hsect : (if 1 = sect then (1 : ℤ) else 2) = sect' at hh
    split at hh
    · next c =>
      have hne : sect ≠ 1 := by
        rintro rfl
        rw [if_pos rfl] at hsect
        omega
      simp only [List.mem_cons, List.not_mem_nil, or_false] at hh
      rcases hh with hh | hh
      · left; omega
      · exact .inr ⟨hh, hne⟩
    · simp only [List.mem_singleton] at hh
      left; omega

theorem BaZi.same_sec {s c : Solar} (hs : s.Valid) (hc : c.Valid) (h : SameDoubleHour s c) :
    (Cal.secNo s - Cal.secNo ⟨1999, 12, 31, 23, 0, 0⟩) / 7200 = (Cal.secNo c - Cal.secNo ⟨1999, 12, 31, 23, 0, 0⟩) / 7200 := by
  obtain ⟨m, n, h1, h2, h3⟩ := h
  have h1 := (Cal.secondsAfter_iff (s := ⟨1999, 12, 31, 23, 0, 0⟩) (by decide) hs m).1 h1
  have h2 := (Cal.secondsAfter_iff (s := ⟨1999, 12, 31, 23, 0, 0⟩) (by decide) hc n).1 h2
  rw [h1, h2, add_sub_cancel_left, add_sub_cancel_left]
  exact h3

/-- a moment found in the double-hour of a moment of an odd hour is not before the next full hour -/
private theorem next_hour {s c : Solar} (hs : s.Valid) (hc : c.Valid) (h : SameDoubleHour s c) {sect : ℤ} (ho : s.hour % 2 = 1)
    (h23 : sect ≠ 1 → s.hour ≠ 23) (hcand : c.hour % 2 = 0 ∨ (c.hour = 23 ∧ sect ≠ 1)) :
    3600 * (s.hour + 1) + 86400 * Cal.dn s.date ≤ Cal.secNo c ∧ Cal.secNo c < Cal.secNo s + 7200 := by
  have := same_sec hs hc h
  obtain ⟨s1, s2, s3, s4, s5, s6⟩ := hs.2
  obtain ⟨c1, c2, c3, c4, c5, c6⟩ := hc.2
  have es : Cal.secNo s = 86400 * Cal.dn s.date + (s.hour * 3600 + s.minute * 60 + s.second) := rfl
  have ec : Cal.secNo c = 86400 * Cal.dn c.date + (c.hour * 3600 + c.minute * 60 + c.second) := rfl
  have er : Cal.secNo ⟨1999, 12, 31, 23, 0, 0⟩ = 86400 * Cal.dn ⟨1999, 12, 31⟩ + 82800 := rfl
  rw [es, ec, er] at this
  rw [es, ec]
  clear h es ec er hs hc
  generalize Cal.dn ⟨1999, 12, 31⟩ = r at *
  generalize Cal.dn s.date = ds at *
  generalize Cal.dn c.date = dc at *
  have l1 : (86400 * ds + (s.hour * 3600 + s.minute * 60 + s.second) - (86400 * r + 82800)) / 7200 =
      12 * (ds - r - 1) + (s.hour + 1) / 2 := by omega
  have l2 : (86400 * dc + (c.hour * 3600 + c.minute * 60 + c.second) - (86400 * r + 82800)) / 7200 =
      12 * (dc - r - 1) + (c.hour + 1) / 2 := by omega
  rw [l1, l2] at this
  clear l1 l2
  rcases hcand with hcand | ⟨hcand, hne⟩
  · omega
  · have := h23 hne
    omega

/-- **C69** the condition in `C69_complete_partial` is exact: when a Jie falls after a moment of an odd hour, not later
than the next full hour, then nothing of the double-hour is found from the pillars of that moment -/
theorem C69_missed_violated {H : Almanac A lo hi} (S : SunAlmanac H) (s : Solar) (hs : s.Valid) (h1 : lo + 1 < s.year) (h2 : s.year < hi)
    (l : Lunar) (hl : Lunar.fromSolar A s = .ok l) (now sect base : ℤ)
    (yg mg dg tg : PyStr) (ey : l.getYearInGanZhiExact = .ok yg) (em : l.getMonthInGanZhiExact = .ok mg)
    (ho : s.hour % 2 = 1) (h23 : sect ≠ 1 → s.hour ≠ 23) (i : ℕ) (t : Solar) (n : ℤ) (ht : l.jieQi[2 * i]? = some t)
    (hn : SecondsAfter n s.date s.hour s.minute s.second t.date t.hour t.minute t.second) (n0 : 0 < n)
    (n1 : 60 * s.minute + s.second + n ≤ 3600)
    (L : List Solar) (hL : Solar.fromBaZi A now yg mg dg tg sect base = .ok L) (c : Solar) (hcv : c.Valid) (hc : c ∈ L) : ¬ SameDoubleHour s c := by
  intro hsame
  obtain ⟨l', hl'⟩ := exists_at S hs (by omega) h2.le
  have : l = l' := by have := hl'.from_; rw [hl] at this; exact Except.ok.inj this
  subst this
  obtain ⟨g1, g2⟩ := next_hour hs hcv hsame ho h23 (found_hour hL hc)
  have vt := hl'.terms.valid _ (List.mem_of_getElem? ht)
  have st := (Cal.secondsAfter_iff hs vt n).1 hn
  have es : Cal.secNo s = 86400 * Cal.dn s.date + (s.hour * 3600 + s.minute * 60 + s.second) := rfl
  have tc : Cal.secNo t ≤ Cal.secNo c := by omega
  have sc : Cal.secNo s ≤ Cal.secNo c := by omega
  have ys := secNo_year hs hcv sc
  have yc : c.year ≤ s.year + 1 := year_near hs.1 hcv.1 (by
    have c1 := Cal.clock_bounds hs
    have c2 := Cal.clock_bounds hcv
    have ec : Cal.secNo c = 86400 * Cal.dn c.date + (c.hour * 3600 + c.minute * 60 + c.second) := rfl
    clear hn ht
    omega)
  obtain ⟨Y, j, jq, a, b, p, ⟨bi, hai, hbi⟩, e1, e2⟩ := exists_pos S hs (by omega) h2.le hl'
  obtain ⟨lc, k0, k1, k2, -, -⟩ := C52_sound A now yg mg dg tg sect base L hL c hc
  obtain ⟨lc', hlc⟩ := exists_at S hcv (by omega) (by omega)
  have : lc = lc' := by have := hlc.from_; rw [k0] at this; exact Except.ok.inj this
  subst this
  obtain ⟨Y', j', jq', a', b', p', -, e1', e2'⟩ := exists_pos S hcv (by omega) (by omega) hlc
  have f1 : ganZhi (Y' - 4) = ganZhi (Y - 4) := by
    rw [k1, ← ey, e1] at e1'
    exact (Except.ok.inj e1').symm
  have f2 : ganZhi (12 * (Y' - 4) + j') = ganZhi (12 * (Y - 4) + j) := by
    rw [k2, ← em, e2] at e2'
    exact (Except.ok.inj e2').symm
  have f3 := congrArg getJiaZiIndex f1
  have f4 := congrArg getJiaZiIndex f2
  rw [C29_index, C29_index] at f3 f4
  have py := p.year
  have py' := p'.year
  have r1 := p.two
  have r2 := p.thirteen
  have r3 := p'.two
  have r4 := p'.thirteen
  have hY : Y' = Y := by clear f4 st es hn; omega
  have hj : j' = j := by clear f3 st es hn; omega
  subst hY hj
  cases Table.unique p.table p'.table
  have hb : b' = b := Option.some.inj (p'.snd.symm.trans p.snd)
  subst hb
  -- the Jie `t` is after `s`, so not before `b`
  have lt := p'.lt
  have ls := p.lt
  have tb : Cal.secNo b' ≤ Cal.secNo t := by
    by_contra hlt
    push Not at hlt
    have la := p.le
    have T := hl'.terms
    by_cases hi : i ≤ bi
    · have := (table_le T (i := 2 * i) (j := 2 * bi) (by omega) ht hai).1
      omega
    · have := (table_le T (i := 2 * (bi + 1)) (j := 2 * i) (by omega) hbi ht).1
      omega
  omega

/-! ### the sample almanac -/

private theorem sample_pos {s : Solar} {j : ℕ} {a b : Solar} (h : (2 ≤ j ∧ j ≤ 13 ∧ s.year = 2024) ∧
    (Sample.table 2023)[2 * j]? = some a ∧ (Sample.table 2023)[2 * j + 2]? = some b ∧ Cal.secNo a ≤ Cal.secNo s ∧
      Cal.secNo s < Cal.secNo b) : Pos Sample.astro s 2023 j (Sample.table 2023) a b :=
  ⟨h.1.1, h.1.2.1, Sample.table_made 2023 (by decide) (by decide), h.2.1, h.2.2.1, h.2.2.2.1, h.2.2.2.2, by omega⟩

/-- the pillars of a moment of 2024 before 立春 -/
private theorem sample_pillars {s : Solar} (hs : s.Valid) {j : ℕ} {a b : Solar} (p : Pos Sample.astro s 2023 j (Sample.table 2023) a b)
    (hy : s.year = 2024) : ∃ l, Lunar.fromSolar Sample.astro s = .ok l ∧ l.jieQi = Sample.table 2024 ∧
      l.getYearInGanZhiExact = .ok ['癸', '卯'] ∧
      l.getMonthInGanZhiExact = .ok (ganZhi (12 * (2023 - 4) + j)) ∧ l.getDayInGanZhiExact2 = .ok (ganZhi (JD.jdn s.date - 11)) ∧
      l.getTimeInGanZhi = .ok (ganZhi (48 + (Cal.secNo s - Cal.secNo ⟨1999, 12, 31, 23, 0, 0⟩) / 7200)) := by
  obtain ⟨l, hl⟩ := exists_at Sample.sunAlmanac hs (by omega) (by omega)
  obtain ⟨e1, e2⟩ := p.pillars Sample.sunAlmanac hs (by omega) (by omega) hl
  refine ⟨l, hl.from_, ?_, by rw [e1]; decide +kernel, e2, hl.day.1, hl.time⟩
  have := hl.table
  rw [hy] at this
  exact Sample.table_eq (by decide) (by decide) this

private theorem sample_range : ∀ y : ℤ, 1990 - 1 ≤ y → y ≤ 2026 → (∀ k, ['癸', '卯'] = ganZhi k → (y - 4 - k) % 60 = 0) →
    2022 < y ∧ y + 2 ≤ 2025 := fun y h1 h2 h => by
  have := h 39 (by decide)
  omega

/-- 2024-01-10 08:20: its pillars are 癸卯 乙丑 癸酉 丙辰, and a moment between 7:00 and 9:00 of that day is found -/
example : ∃ l L c, Lunar.fromSolar Sample.astro ⟨2024, 1, 10, 8, 20, 0⟩ = .ok l ∧ l.getYearInGanZhiExact = .ok ['癸', '卯'] ∧
    l.getMonthInGanZhiExact = .ok ['乙', '丑'] ∧ l.getDayInGanZhiExact2 = .ok ['癸', '酉'] ∧
    l.getTimeInGanZhi = .ok ['丙', '辰'] ∧
    Solar.fromBaZi Sample.astro 2026 ['癸', '卯'] ['乙', '丑'] ['癸', '酉'] ['丙', '辰'] 2 1990 = .ok L ∧ c ∈ L ∧
    SameDoubleHour ⟨2024, 1, 10, 8, 20, 0⟩ c := by
  have p : Pos Sample.astro ⟨2024, 1, 10, 8, 20, 0⟩ 2023 13 (Sample.table 2023) ⟨2024, 1, 6, 15, 30, 0⟩ ⟨2024, 2, 4, 15, 30, 0⟩ :=
    sample_pos (by decide +kernel)
  obtain ⟨l, hl, ht, e1, e2, e3, e4⟩ := sample_pillars (by decide) p rfl
  replace e2 : l.getMonthInGanZhiExact = .ok ['乙', '丑'] := by rw [e2]; decide +kernel
  replace e3 : l.getDayInGanZhiExact2 = .ok ['癸', '酉'] := by rw [e3]; decide +kernel
  replace e4 : l.getTimeInGanZhi = .ok ['丙', '辰'] := by rw [e4]; decide +kernel
  obtain ⟨L, hL, -⟩ := C52_ordered Sample.sunAlmanac 2026 ['癸', '卯'] ['乙', '丑'] ['癸', '酉'] '丙' 4 2 1990 sample_range
  obtain ⟨c, hc, hsame⟩ := C69_complete_partial Sample.sunAlmanac ⟨2024, 1, 10, 8, 20, 0⟩ (by decide) (by decide) (by decide) l hl
    2026 2 1990 (by decide) ⟨1, ⟨2024, 1, 6, 15, 30, 0⟩, by rw [ht]; decide +kernel, by decide, (Solar.atOrBefore_iff (by decide) (by decide)).2 (by decide)⟩ _ _ _ _ e1 e2 e3 e4
    (fun h => absurd h (by decide)) L hL
  exact ⟨l, L, c, hl, e1, e2, e3, e4, hL, hc, hsame⟩

/-- **C69** the property as stated is false: 2024-01-06 15:10, 20 minutes before 小寒 in the sample almanac, is not found -/
theorem C69_violated : ∃ l L, Lunar.fromSolar Sample.astro ⟨2024, 1, 6, 15, 10, 0⟩ = .ok l ∧
    l.getYearInGanZhiExact = .ok ['癸', '卯'] ∧ l.getMonthInGanZhiExact = .ok ['甲', '子'] ∧
    l.getDayInGanZhiExact2 = .ok ['己', '巳'] ∧ l.getTimeInGanZhi = .ok ['壬', '申'] ∧
    Solar.fromBaZi Sample.astro 2026 ['癸', '卯'] ['甲', '子'] ['己', '巳'] ['壬', '申'] 2 1990 = .ok L ∧
    ∀ c ∈ L, ¬ SameDoubleHour ⟨2024, 1, 6, 15, 10, 0⟩ c := by
  have p : Pos Sample.astro ⟨2024, 1, 6, 15, 10, 0⟩ 2023 12 (Sample.table 2023) ⟨2023, 12, 7, 15, 30, 0⟩ ⟨2024, 1, 6, 15, 30, 0⟩ :=
    sample_pos (by decide +kernel)
  obtain ⟨l, hl, ht, e1, e2, e3, e4⟩ := sample_pillars (by decide) p rfl
  replace e2 : l.getMonthInGanZhiExact = .ok ['甲', '子'] := by rw [e2]; decide +kernel
  replace e3 : l.getDayInGanZhiExact2 = .ok ['己', '巳'] := by rw [e3]; decide +kernel
  replace e4 : l.getTimeInGanZhi = .ok ['壬', '申'] := by rw [e4]; decide +kernel
  obtain ⟨L, hL, -, hv⟩ := C52_ordered Sample.sunAlmanac 2026 ['癸', '卯'] ['甲', '子'] ['己', '巳'] '壬' 8 2 1990 sample_range
  refine ⟨l, L, hl, e1, e2, e3, e4, hL, fun c hc => ?_⟩
  exact C69_missed_violated Sample.sunAlmanac ⟨2024, 1, 6, 15, 10, 0⟩ (by decide) (by decide) (by decide) l hl 2026 2 1990 _ _ _ _
    e1 e2 (by decide) (by decide) 1 ⟨2024, 1, 6, 15, 30, 0⟩ 1200 (by rw [ht]; decide +kernel)
    ((Cal.secondsAfter_iff (s := ⟨2024, 1, 6, 15, 10, 0⟩) (t := ⟨2024, 1, 6, 15, 30, 0⟩) (by decide) (by decide) _).2 (by decide))
    (by decide) (by decide) L hL c (hv c hc).1 hc

/-- **C69** nor are the moments of year `base` before its first Jie: the search with `base` 2024 finds nothing with the
pillars of 2024-01-02 08:00, 癸卯 甲子 乙丑 庚辰 -/
theorem C69_base_violated : ∃ l, Lunar.fromSolar Sample.astro ⟨2024, 1, 2, 8, 0, 0⟩ = .ok l ∧
    l.getYearInGanZhiExact = .ok ['癸', '卯'] ∧ l.getMonthInGanZhiExact = .ok ['甲', '子'] ∧
    l.getDayInGanZhiExact2 = .ok ['乙', '丑'] ∧ l.getTimeInGanZhi = .ok ['庚', '辰'] ∧
    Solar.fromBaZi Sample.astro 2026 ['癸', '卯'] ['甲', '子'] ['乙', '丑'] ['庚', '辰'] 2 2024 = .ok [] := by
  have p : Pos Sample.astro ⟨2024, 1, 2, 8, 0, 0⟩ 2023 12 (Sample.table 2023) ⟨2023, 12, 7, 15, 30, 0⟩ ⟨2024, 1, 6, 15, 30, 0⟩ :=
    sample_pos (by decide +kernel)
  obtain ⟨l, hl, ht, e1, e2, e3, e4⟩ := sample_pillars (by decide) p rfl
  refine ⟨l, hl, e1, by rw [e2]; decide +kernel, by rw [e3]; decide +kernel, by rw [e4]; decide +kernel, ?_⟩
  have hyear : Solar.baZiYear Sample.astro ['癸', '卯'] ['甲', '子'] ['乙', '丑'] ['庚', '辰'] 2 2024 20 [8] 2023 = .ok [] := by
    have : (match Solar.baZiYear Sample.astro ['癸', '卯'] ['甲', '子'] ['乙', '丑'] ['庚', '辰'] 2 2024 20 [8] 2023 with
      | .ok L => L.isEmpty
      | .error _ => false) = true := by decide +kernel
    split at this
    · next L e => rw [e, List.isEmpty_iff.1 this]
    · cases this
  show Solar.baZiLoop _ _ _ 43 = _
  rw [loop_at 33 43 (Y := 2023) (by decide) (by decide) (by decide) (by decide) (by decide)]
  exact hyear

end
