import Verif.Props.TermDates
import Verif.Props.MonthPillar

/-! # C105: walking from term to term

The table of a lunar date holds the terms of one civil year.  Here the tables of all years are put together: the terms before
and after a moment are the same whatever table they are read from, and the calls lead from term to term without end. -/

section
open Spec ShouXing Lunar

variable {M : Libm}

/-- **C105** two moments of one civil year have the same table of terms, and the last seven entries of it are the first seven
of the table of the next year. -/
theorem C105_tables (hM : M.Good) (s t : Solar) (hs : s.Valid) (ht : t.Valid) (h1 : 1584 < s.year) (h2 : t.year < 6890) (l l' : Lunar)
    (hl : Lunar.fromSolar (astro M) s = .ok l) (hl' : Lunar.fromSolar (astro M) t = .ok l') :
    (t.year = s.year → l'.jieQi = l.jieQi) ∧ (t.year = s.year + 1 → l'.jieQi.take 7 = l.jieQi.drop 24) := by
  constructor
  · intro e
    obtain ⟨-, P, -, -, a⟩ := Ephem.made hM hs h1 (by omega) hl
    obtain ⟨-, P', -, -, b⟩ := Ephem.made hM ht (by omega) h2 hl'
    refine List.ext_getElem? fun i => ?_
    rcases Nat.lt_or_ge i 31 with h | h
    · rw [a i h, b i h, e]
    · rw [List.getElem?_eq_none (by rw [P'.table.len]; exact h), List.getElem?_eq_none (by rw [P.table.len]; exact h)]
  · intro e
    obtain ⟨-, P, -, -, a⟩ := Ephem.made hM hs h1 (by omega) hl
    obtain ⟨-, P', -, -, b⟩ := Ephem.made hM ht (by omega) h2 hl'
    refine List.ext_getElem? fun i => ?_
    rw [List.getElem?_drop]
    rcases Nat.lt_or_ge i 7 with h | h
    · rw [List.getElem?_take_of_lt h, a (24 + i) (by omega), b i (by omega), e]
      congr 2
      push_cast
      ring
    · rw [List.getElem?_eq_none (by rw [List.length_take]; omega), List.getElem?_eq_none (by rw [P.table.len]; omega)]

/-- from the last day of 2026 to the first of 2027 -/
example : ∃ l l', Lunar.fromSolar (astro Libm.cut) ⟨2026, 12, 31, 8, 0, 0⟩ = .ok l ∧ Lunar.fromSolar (astro Libm.cut) ⟨2027, 1, 1, 8, 0, 0⟩ = .ok l' ∧
    l'.jieQi.take 7 = l.jieQi.drop 24 := by
  obtain ⟨l, e, -⟩ := C84_round_trip Libm.cut_good ⟨2026, 12, 31, 8, 0, 0⟩ (by decide) (by decide) (by decide)
  obtain ⟨l', e', -⟩ := C84_round_trip Libm.cut_good ⟨2027, 1, 1, 8, 0, 0⟩ (by decide) (by decide) (by decide)
  exact ⟨l, l', e, e', (C105_tables Libm.cut_good _ _ (by decide) (by decide) (by decide) (by decide) l l' e e').2 rfl⟩

/-- the term number `n` as an object -/
private noncomputable def obj (hM : M.Good) (n : ℤ) : JieQi :=
  ⟨termName ((n - 17) % 24).toNat, (n - 17) % 2 = 0, (n - 17) % 2 = 1, Ephem.moment (Ephem.full hM) n⟩

private def InRange (n : ℤ) : Prop := 24 * (1584 - 2000) + 17 ≤ n ∧ n ≤ 24 * (6890 - 2000) + 47

private theorem obj_eq (hM : M.Good) (Y : ℤ) (i : ℕ) :
    (⟨termName i, i % 2 = 0, i % 2 = 1, Ephem.moment (Ephem.full hM) (24 * (Y - 2000) + 17 + i)⟩ : JieQi) = obj hM (24 * (Y - 2000) + 17 + i) := by
  unfold obj
  have e : termName i = termName (((24 * (Y - 2000) + 17 + (i : ℤ) - 17) % 24).toNat) := by
    unfold termName
    congr 1
    omega
  rw [← e]
  have c0 : (i % 2 = 0) = ((24 * (Y - 2000) + 17 + (i : ℤ) - 17) % 2 = 0) := propext (by omega)
  have c1 : (i % 2 = 1) = ((24 * (Y - 2000) + 17 + (i : ℤ) - 17) % 2 = 1) := propext (by omega)
  simp only [c0, c1]

private theorem valid (hM : M.Good) {n : ℤ} (h : InRange n) : (Ephem.moment (Ephem.full hM) n).Valid :=
  (Ephem.moment_spec (Ephem.full hM) h.1 h.2).2.1

private theorem mono (hM : M.Good) {n m : ℤ} (hn : InRange n) (hm : InRange m) (h : n < m) :
    Cal.secNo (Ephem.moment (Ephem.full hM) n) < Cal.secNo (Ephem.moment (Ephem.full hM) m) := by
  have j := Ephem.moment_lt hM hn.1 h hm.2
  have a := valid hM hn
  have b := valid hM hm
  rw [JD.jdn_eq a.1, JD.jdn_eq b.1] at j
  have c := a.2
  have d := b.2
  unfold ClockOk at c d
  unfold Cal.secNo
  omega

/-- the terms of a kind before and after a moment are neighbours -/
private theorem around (hM : M.Good) {s : Solar} (hs : s.Valid) (h1 : 1584 < s.year) (h2 : s.year < 6890) {l : Lunar}
    (hl : Lunar.fromSolar (astro M) s = .ok l) (k : TermKind) :
    ∃ n : ℤ, InRange n ∧ InRange (n + k.step) ∧ k.has ((n - 17) % 24).toNat ∧ Cal.secNo (Ephem.moment (Ephem.full hM) n) ≤ Cal.secNo s ∧
      Cal.secNo s < Cal.secNo (Ephem.moment (Ephem.full hM) (n + k.step)) ∧ prevOf k l false = .ok (some (obj hM n)) ∧
      nextOf k l false = .ok (some (obj hM (n + k.step))) := by
  obtain ⟨-, P, -, -, t⟩ := Ephem.made hM hs h1 h2 hl
  obtain ⟨⟨i, q, a1, a2, a3, a4, a5⟩, j, p, b1, b2, b3, b4, b5⟩ := C88_terms hM s hs h1 h2 l hl k
  have li : i < 31 := by rw [← P.table.len]; exact (List.getElem?_eq_some_iff.1 a2).1
  have lj : j < 31 := by rw [← P.table.len]; exact (List.getElem?_eq_some_iff.1 b2).1
  have ri : ∀ i : ℕ, i < 31 → InRange (24 * (s.year - 2000) + 17 + i) := fun i hi => ⟨by omega, by omega⟩
  obtain rfl : Ephem.moment (Ephem.full hM) (24 * (s.year - 2000) + 17 + i) = q := by have := t i li; rw [a2] at this; cases this; rfl
  obtain rfl : Ephem.moment (Ephem.full hM) (24 * (s.year - 2000) + 17 + j) = p := by have := t j lj; rw [b2] at this; cases this; rfl
  have a3' := (Solar.before_iff hs (valid hM (ri i li))).1 a3
  have b3' := (Solar.atOrBefore_iff (valid hM (ri j lj)) hs).1 b3
  have ij : j < i := by
    by_contra c
    rcases (not_lt.1 c).eq_or_lt with e | e
    · subst e; omega
    · have := mono hM (ri i li) (ri j lj) (by omega); omega
  have st : j + k.step ≤ i := by
    cases k <;> simp only [TermKind.has, TermKind.step] at * <;> omega
  have hk : k.has (j + k.step) := by
    cases k <;> simp only [TermKind.has, TermKind.step] at * <;> omega
  have ls : j + k.step < 31 := by omega
  have vx := valid hM (ri _ ls)
  have le : i = j + k.step := by
    by_cases c : Solar.Before s (Ephem.moment (Ephem.full hM) (24 * (s.year - 2000) + 17 + (j + k.step : ℕ)))
    · have := a4 (j + k.step) _ hk (t _ ls) c
      omega
    · have : Solar.AtOrBefore (Ephem.moment (Ephem.full hM) (24 * (s.year - 2000) + 17 + (j + k.step : ℕ))) s := by
        rw [Solar.before_iff hs vx] at c
        rw [Solar.atOrBefore_iff vx hs]
        omega
      have := b4 (j + k.step) _ hk (t _ ls) this
      cases k <;> simp only [TermKind.step] at this <;> omega
  subst le
  rw [obj_eq hM] at a5 b5
  have en : 24 * (s.year - 2000) + 17 + ((j + k.step : ℕ) : ℤ) = 24 * (s.year - 2000) + 17 + j + k.step := by push_cast; ring
  rw [en] at a5 a3'
  refine ⟨_, ri j lj, by rw [← en]; exact ri _ ls, ?_, b3', a3', b5, a5⟩
  cases k <;> simp only [TermKind.has] at * <;> omega

private theorem same (hM : M.Good) (k : TermKind) {n m x : ℤ} (hn : InRange n) (hn' : InRange (n + k.step)) (hm : InRange m) (hm' : InRange (m + k.step))
    (kn : k.has ((n - 17) % 24).toNat) (km : k.has ((m - 17) % 24).toNat)
    (a : Cal.secNo (Ephem.moment (Ephem.full hM) n) ≤ x) (b : x < Cal.secNo (Ephem.moment (Ephem.full hM) (n + k.step)))
    (c : Cal.secNo (Ephem.moment (Ephem.full hM) m) ≤ x) (d : x < Cal.secNo (Ephem.moment (Ephem.full hM) (m + k.step))) : n = m := by
  have one : ∀ {n m : ℤ}, InRange n → InRange (n + k.step) → InRange m → k.has ((n - 17) % 24).toNat → k.has ((m - 17) % 24).toNat → n < m →
      x < Cal.secNo (Ephem.moment (Ephem.full hM) (n + k.step)) → ¬ Cal.secNo (Ephem.moment (Ephem.full hM) m) ≤ x := by
    intro n m hn hn' hm kn km h b c
    have le : n + k.step ≤ m := by
      cases k <;> simp only [TermKind.has, TermKind.step] at * <;> omega
    rcases le.eq_or_lt with e | e
    · rw [e] at b; omega
    · have := mono hM hn' hm e; omega
  rcases lt_trichotomy n m with h | h | h
  · exact absurd c (one hn hn' hm kn km h b)
  · exact h
  · exact absurd a (one hm hm' hn km kn h d)

/-- **C105** all moments between two neighbouring terms of a kind have the same previous and the same next term, also when New
Year's day lies between them and the terms are read from the tables of two years. -/
theorem C105_between (hM : M.Good) (k : TermKind) (s t : Solar) (hs : s.Valid) (ht : t.Valid) (h1 : 1584 < s.year) (h2 : s.year < 6890)
    (h3 : 1584 < t.year) (h4 : t.year < 6890) (l l' : Lunar) (hl : Lunar.fromSolar (astro M) s = .ok l) (hl' : Lunar.fromSolar (astro M) t = .ok l') :
    ∃ P N, prevOf k l false = .ok (some P) ∧ nextOf k l false = .ok (some N) ∧ Solar.AtOrBefore P.solar s ∧ Solar.Before s N.solar ∧
      (Solar.AtOrBefore P.solar t → Solar.Before t N.solar → prevOf k l' false = .ok (some P) ∧ nextOf k l' false = .ok (some N)) := by
  obtain ⟨n, r1, r2, r3, a, b, c, d⟩ := around hM hs h1 h2 hl k
  obtain ⟨m, r1', r2', r3', a', b', c', d'⟩ := around hM ht h3 h4 hl' k
  refine ⟨_, _, c, d, (Solar.atOrBefore_iff (valid hM r1) hs).2 a, (Solar.before_iff hs (valid hM r2)).2 b, fun e f => ?_⟩
  obtain rfl := same hM k r1 r2 r1' r2' r3 r3' ((Solar.atOrBefore_iff (valid hM r1) ht).1 e) ((Solar.before_iff ht (valid hM r2)).1 f) a' b'
  exact ⟨c', d'⟩

/-- the day after New Year's Eve 2026: the Jie before and after are those of the evening before, as long as it is not past the next one -/
example : ∃ l l' P N, Lunar.fromSolar (astro Libm.cut) ⟨2026, 12, 31, 23, 0, 0⟩ = .ok l ∧ Lunar.fromSolar (astro Libm.cut) ⟨2027, 1, 1, 1, 0, 0⟩ = .ok l' ∧
    l.getPrevJie = .ok (some P) ∧ l.getNextJie = .ok (some N) ∧
    (Solar.Before ⟨2027, 1, 1, 1, 0, 0⟩ N.solar → l'.getPrevJie = .ok (some P) ∧ l'.getNextJie = .ok (some N)) := by
  obtain ⟨l, e, -⟩ := C84_round_trip Libm.cut_good ⟨2026, 12, 31, 23, 0, 0⟩ (by decide) (by decide) (by decide)
  obtain ⟨l', e', -⟩ := C84_round_trip Libm.cut_good ⟨2027, 1, 1, 1, 0, 0⟩ (by decide) (by decide) (by decide)
  obtain ⟨P, N, a, b, c, -, d⟩ := C105_between Libm.cut_good .jie _ _ (by decide) (by decide) (by decide) (by decide) (by decide) (by decide) l l' e e'
  refine ⟨l, l', P, N, e, e', a, b, d ?_⟩
  obtain ⟨f1, Pr, -⟩ := Ephem.made Libm.cut_good (by decide) (by decide) (by decide) e
  obtain ⟨-, j, p, -, b2, -, -, b5⟩ := C88_terms Libm.cut_good _ (by decide) (by decide) (by decide) l e .jie
  rw [a] at b5
  cases b5
  have v := Pr.table.valid _ (List.mem_of_getElem? b2)
  rw [Solar.atOrBefore_iff v (by decide)] at c ⊢
  exact c.trans (by decide)

private theorem at_term (hM : M.Good) (k : TermKind) {n : ℤ} (hn : InRange n) (kn : k.has ((n - 17) % 24).toNat)
    (h1 : 1584 < (Ephem.moment (Ephem.full hM) n).year) (h2 : (Ephem.moment (Ephem.full hM) n).year < 6890) {l : Lunar}
    (hl : Lunar.fromSolar (astro M) (Ephem.moment (Ephem.full hM) n) = .ok l) :
    InRange (n + k.step) ∧ prevOf k l false = .ok (some (obj hM n)) ∧ nextOf k l false = .ok (some (obj hM (n + k.step))) := by
  obtain ⟨m, r1, r2, r3, a, b, c, d⟩ := around hM (valid hM hn) h1 h2 hl k
  have e : n = m := by
    rcases lt_trichotomy n m with h | h | h
    · have := mono hM hn r1 h; omega
    · exact h
    · have le : m + k.step ≤ n := by
        cases k <;> simp only [TermKind.has, TermKind.step] at * <;> omega
      rcases le.eq_or_lt with e | e
      · rw [e] at b; omega
      · have := mono hM r2 hn e; omega
  subst e
  exact ⟨r2, c, d⟩

private theorem has_step {k : TermKind} {n : ℤ} (kn : k.has ((n - 17) % 24).toNat) : k.has ((n + k.step - 17) % 24).toNat := by
  cases k <;> simp only [TermKind.has, TermKind.step] at * <;> omega

private theorem name_step (hM : M.Good) {n : ℤ} {i : ℕ} (h : (obj hM n).name = termName i) (hi : (n - 17 - i) % 24 = 0) (d : ℕ) :
    (obj hM (n + d)).name = termName (i + d) := by
  unfold obj termName
  dsimp only
  congr 1
  omega

/-- **C105** the moment of the next term of a kind has this term as the previous one, and the one following it as the next:
the names go on in order. -/
theorem C105_step (hM : M.Good) (k : TermKind) (s : Solar) (hs : s.Valid) (h1 : 1584 < s.year) (h2 : s.year < 6890) (l : Lunar)
    (hl : Lunar.fromSolar (astro M) s = .ok l) :
    ∃ P N i, prevOf k l false = .ok (some P) ∧ nextOf k l false = .ok (some N) ∧ P.name = termName i ∧ N.name = termName (i + k.step) ∧
      ∀ l', N.solar.year < 6890 → Lunar.fromSolar (astro M) N.solar = .ok l' →
        ∃ N', prevOf k l' false = .ok (some N) ∧ nextOf k l' false = .ok (some N') ∧ N'.name = termName (i + 2 * k.step) := by
  obtain ⟨n, r1, r2, r3, a, b, c, d⟩ := around hM hs h1 h2 hl k
  have nm : (obj hM n).name = termName ((n - 17) % 24).toNat := rfl
  refine ⟨_, _, _, c, d, nm, name_step hM nm (by omega) _, fun l' hy hl' => ?_⟩
  have y := BaZi.secNo_year hs (valid hM r2) b.le
  obtain ⟨r4, e, f⟩ := at_term hM k r2 (has_step r3) (by omega) hy hl'
  refine ⟨_, e, f, ?_⟩
  rw [add_assoc, show (k.step : ℤ) + k.step = ((2 * k.step : ℕ) : ℤ) by push_cast; ring]
  exact name_step hM nm (by omega) _

/-- `n` times to the next term of a kind, each time from the moment of the term found -/
def follow (A : Astro) (k : TermKind) : ℕ → Solar → Except PyErr Solar
  | 0, s => .ok s
  | n + 1, s => do
    match ← nextOf k (← Lunar.fromSolar A s) false with
    | some N => follow A k n N.solar
    | none => .error .valueError

private theorem place (hM : M.Good) {n : ℤ} (h1 : 24 * (1584 - 2000) + 19 ≤ n) (h2 : n ≤ 24 * (6890 - 2000) + 42) :
    (Ephem.moment (Ephem.full hM) n).year = (n - 19) / 24 + 2000 ∧ (Ephem.moment (Ephem.full hM) n).month = ((n - 19) % 24 + 2) / 2 := by
  obtain ⟨-, -, a, b, -⟩ := Ephem.possible_date hM (Y := (n - 19) / 24 + 2000) (by omega) (by omega) (i := ((n - 19) % 24 + 2).toNat) (by omega) (by omega)
  rw [show 24 * ((n - 19) / 24 + 2000 - 2000) + 17 + ((((n - 19) % 24 + 2).toNat : ℕ) : ℤ) = n by omega] at a b
  exact ⟨a, by rw [b]; omega⟩

private theorem follow_eq (hM : M.Good) (k : TermKind) : ∀ (j : ℕ) (n : ℤ), k.has ((n - 17) % 24).toNat → 24 * (1585 - 2000) + 19 ≤ n →
    n + j * k.step ≤ 24 * (6889 - 2000) + 18 → follow (astro M) k j (Ephem.moment (Ephem.full hM) n) = .ok (Ephem.moment (Ephem.full hM) (n + j * k.step)) := by
  intro j
  induction j with
  | zero => intro n _ _ _; simp [follow]
  | succ j ih =>
    intro n kn h1 h2
    have hp : 1 ≤ k.step := by cases k <;> simp [TermKind.step]
    have e : n + ((j + 1 : ℕ) : ℤ) * k.step = n + k.step + j * k.step := by push_cast; ring
    have hj : 0 ≤ (j : ℤ) * k.step := by positivity
    rw [e] at h2 ⊢
    have y := (place hM (n := n) (by omega) (by omega)).1
    have hn : InRange n := ⟨by omega, by omega⟩
    obtain ⟨l, hl, -⟩ := C84_round_trip hM (Ephem.moment (Ephem.full hM) n) (valid hM hn) (by omega) (by omega)
    obtain ⟨-, -, f⟩ := at_term hM k hn kn (by omega) (by omega) hl
    rw [← ih (n + k.step) (has_step kn) (by omega) h2]
    show (do match ← nextOf k (← Lunar.fromSolar (astro M) (Ephem.moment (Ephem.full hM) n)) false with | some N => follow (astro M) k j N.solar | none => .error .valueError) = _
    rw [hl]
    show (do match ← nextOf k l false with | some N => follow (astro M) k j N.solar | none => .error .valueError) = _
    rw [f]
    rfl

/-- **C105** twenty-four steps from term to term, or twelve from Jie to Jie or Qi to Qi, lead to the term of the same name in the same
month of the next year. -/
theorem C105_year (hM : M.Good) (k : TermKind) (s : Solar) (hs : s.Valid) (h1 : 1584 < s.year) (h2 : s.year < 6886) (l : Lunar)
    (hl : Lunar.fromSolar (astro M) s = .ok l) :
    ∃ N q l' N', nextOf k l false = .ok (some N) ∧ follow (astro M) k (24 / k.step) N.solar = .ok q ∧ q.Valid ∧ q.year = N.solar.year + 1 ∧
      q.month = N.solar.month ∧ Lunar.fromSolar (astro M) q = .ok l' ∧ prevOf k l' false = .ok (some N') ∧ N'.name = N.name ∧ N'.solar = q := by
  obtain ⟨n, r1, r2, r3, a, b, c, d⟩ := around hM hs h1 (by omega) hl k
  have y := BaZi.secNo_year hs (valid hM r2) b.le
  have y' := BaZi.secNo_year (valid hM r1) hs a
  have ks : 1 ≤ k.step ∧ k.step ≤ 2 ∧ 24 / k.step * k.step = 24 := by cases k <;> simp [TermKind.step]
  have lo : 24 * (1585 - 2000) + 19 ≤ n + k.step := by
    by_contra h
    rcases lt_or_ge (n + k.step) (24 * (1584 - 2000) + 19) with g | g
    · have := mono hM r2 (m := 24 * (1584 - 2000) + 19) ⟨by omega, by omega⟩ g
      have := BaZi.secNo_year (valid hM r2) (valid hM (n := 24 * (1584 - 2000) + 19) ⟨by omega, by omega⟩) this.le
      have := (place hM (n := 24 * (1584 - 2000) + 19) (by omega) (by omega)).1
      omega
    · have := (place hM g (by omega)).1
      omega
  have hi : n ≤ 24 * (6886 - 2000) + 18 := by
    by_contra h
    rcases lt_or_ge (24 * (6890 - 2000) + 42) n with g | g
    · have := mono hM (n := 24 * (6890 - 2000) + 42) ⟨by omega, by omega⟩ r1 g
      have := BaZi.secNo_year (valid hM (n := 24 * (6890 - 2000) + 42) ⟨by omega, by omega⟩) (valid hM r1) this.le
      have := (place hM (n := 24 * (6890 - 2000) + 42) (by omega) (by omega)).1
      omega
    · have := (place hM (n := n) (by omega) g).1
      omega
  have e24 : ((24 / k.step : ℕ) : ℤ) * k.step = 24 := by exact_mod_cast ks.2.2
  have fo := follow_eq hM k (24 / k.step) (n + k.step) (has_step r3) lo (by rw [e24]; omega)
  rw [e24] at fo
  obtain ⟨p1, p2⟩ := place hM (n := n + k.step) (by omega) (by omega)
  obtain ⟨q1, q2⟩ := place hM (n := n + k.step + 24) (by omega) (by omega)
  have rq : InRange (n + k.step + 24) := ⟨by omega, by omega⟩
  obtain ⟨l', hl', -⟩ := C84_round_trip hM (Ephem.moment (Ephem.full hM) (n + k.step + 24)) (valid hM rq) (by omega) (by omega)
  have kq : k.has ((n + k.step + 24 - 17) % 24).toNat := by
    have := has_step r3
    rwa [show (n + k.step + 24 - 17) % 24 = (n + k.step - 17) % 24 by omega]
  obtain ⟨-, g, -⟩ := at_term hM k rq kq (by omega) (by omega) hl'
  refine ⟨_, _, l', _, d, fo, valid hM rq, ?_, ?_, hl', g, ?_, rfl⟩
  · have : (obj hM (n + k.step)).solar.year = _ := p1
    omega
  · have : (obj hM (n + k.step)).solar.month = _ := p2
    omega
  · unfold obj
    dsimp only
    rw [show (n + k.step + 24 - 17) % 24 = (n + k.step - 17) % 24 by omega]

/-- from a moment of 2026, over 2027: the first Jie after it, and twelve steps on the Jie of that name -/
example : ∃ l N q, Lunar.fromSolar (astro Libm.cut) ⟨2026, 7, 25, 8, 0, 0⟩ = .ok l ∧ nextOf .jie l false = .ok (some N) ∧
    follow (astro Libm.cut) .jie 12 N.solar = .ok q ∧ q.year = N.solar.year + 1 ∧ q.month = N.solar.month := by
  obtain ⟨l, e, -⟩ := C84_round_trip Libm.cut_good ⟨2026, 7, 25, 8, 0, 0⟩ (by decide) (by decide) (by decide)
  obtain ⟨N, q, -, -, a, b, -, c, d, -⟩ := C105_year Libm.cut_good .jie _ (by decide) (by decide) (by decide) l e
  exact ⟨l, N, q, e, a, b, c, d⟩

end
