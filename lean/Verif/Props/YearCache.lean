import Verif.Proof.YearCache

/-! # C43, C44: `LunarYear.fromYear` with any number of threads -/

open YearCache LunarYear

section

/-- **C43** in every execution, whatever the interleaving, every object that `fromYear` returns to a
thread is the object for the year this thread asked for. -/
theorem C43_answers (A : Astro) (s : State) (h : Steps A init s) : WellAnswered A s.trace :=
  (inv_of_steps h).ans

/-- **C43** the code between `acquire` and `release` is never run by two threads at a time. -/
theorem C43_exclusive (A : Astro) (s : State) (h : Steps A init s) (t u : ℕ)
    (ht : (s.pc t).inside) (hu : (s.pc u).inside) : t = u :=
  (inv_of_steps h).alone t u ht hu

/-- **C43** what is in the cache is always a whole object of some year. -/
theorem C43_cache (A : Astro) (s : State) (h : Steps A init s) (c : LunarYear) (hc : s.cache = some c) :
    c = make A c.year := by
  obtain ⟨y, rfl⟩ := (inv_of_steps h).cached c hc
  rw [make_year]

/-- after a failed call no thread gets through `acquire` any more -/
private theorem dead_steps (A : Astro) (s s' : State) (h : Steps A init s) (hf : Failed s.trace)
    (h' : Steps A s s') : Failed s'.trace ∧
      (∀ t o, s'.pc t = .ret o → s.pc t = .ret o) ∧
      (∀ t a, s.pc t = .acquire a → s'.pc t = .acquire a) := by
  induction h' with
  | refl => exact ⟨hf, fun _ _ => id, fun _ _ => id⟩
  | tail h1 h2 ih =>
    rename_i b c
    obtain ⟨i1, i2, i3⟩ := ih
    have H := inv_of_steps (h.trans h1)
    obtain ⟨d1, d2⟩ := H.dead i1
    have no : ∀ t (p : PC), b.pc t = p → ¬ p.inside := fun t p e hp => d2 t (by rw [e]; exact hp)
    cases h2 with
    | call t a e =>
      refine ⟨(failed_cons (by simp)).mpr i1, fun u o hu => ?_, fun u x hu => ?_⟩
      · by_cases c : u = t
        · rw [c] at hu; simp [State.goto] at hu
        · simp only [State.goto, Function.update_of_ne c] at hu
          exact i2 u o hu
      · by_cases c : u = t
        · have := i3 u x hu
          rw [c, e] at this; cases this
        · simp only [State.goto, Function.update_of_ne c]
          exact i3 u x hu
    | ret t o e =>
      refine ⟨(failed_cons (by simp)).mpr i1, fun u o hu => ?_, fun u x hu => ?_⟩
      · by_cases c : u = t
        · rw [c] at hu; simp [State.goto] at hu
        · simp only [State.goto, Function.update_of_ne c] at hu
          exact i2 u o hu
      · by_cases c : u = t
        · have := i3 u x hu
          rw [c, e] at this; cases this
        · simp only [State.goto, Function.update_of_ne c]
          exact i3 u x hu
    | acquire t a e hl => rw [d1] at hl; cases hl
    | noneYes t a e => exact absurd trivial (no t _ e)
    | noneNo t a c e => exact absurd trivial (no t _ e)
    | yearYes t a c e => exact absurd trivial (no t _ e)
    | yearNo t a c e => exact absurd trivial (no t _ e)
    | build t y e => exact absurd trivial (no t _ e)
    | raise t e => exact absurd trivial (no t _ e)
    | store t o e => exact absurd trivial (no t _ e)
    | read t c e => exact absurd trivial (no t _ e)
    | release t o e => exact absurd trivial (no t _ e)

/-- **C44** is false, and in every execution: once a call has failed, the lock is never released, so a
thread that waits for it, or calls `fromYear` later, waits for ever. -/
theorem C44_violated (A : Astro) (s s' : State) (h : Steps A init s) (hf : Failed s.trace) (h' : Steps A s s') :
    s'.locked = true ∧ (∀ t a, s.pc t = .acquire a → s'.pc t = .acquire a) ∧
    (∀ t o, s'.pc t = .ret o → s.pc t = .ret o) := by
  obtain ⟨a, b, c⟩ := dead_steps A s s' h hf h'
  exact ⟨((inv_of_steps (h.trans h')).dead a).1, c, b⟩

/-- the execution: one thread calls `fromYear("2024")`, and such a failure is possible from any state in
which the lock is free -/
theorem C44_failure_reachable (A : Astro) : ∃ s, Steps A init s ∧ Failed s.trace ∧ s.locked = true ∧
    ∀ t, s.pc t = .idle := by
  refine ⟨_, (((Relation.ReflTransGen.single (.call _ 0 .bad rfl)).tail
    (.acquire _ 0 .bad (by simp [State.goto]) rfl)).tail
    (.noneYes _ 0 .bad (by simp [State.goto]) rfl)).tail (.raise _ 0 (by simp [State.goto])), ?_, rfl, ?_⟩
  · exact ⟨0, List.mem_cons_self⟩
  · intro t
    by_cases e : t = 0
    · rw [e]; simp [State.goto]
    · simp [State.goto, Function.update_of_ne e, init]

/-! The positive part: without failing calls nobody is shut out. -/

/-- where `t` gets, running alone -/
private def Reach (A : Astro) (s : State) (t : ℕ) : Prop :=
  ∃ s' o, Steps A s s' ∧ s'.pc t = .ret o ∧ s'.locked = false ∧ s'.trace = s.trace ∧ ∀ u, u ≠ t → s'.pc u = s.pc u

private theorem Reach.step {A : Astro} {s s' : State} {t : ℕ} (h : Step A s s') (ht : s'.trace = s.trace)
    (hu : ∀ u, u ≠ t → s'.pc u = s.pc u) (r : Reach A s' t) : Reach A s t := by
  obtain ⟨x, o, a, b, c, d, e⟩ := r
  exact ⟨x, o, a.head h, b, c, d.trans ht, fun u q => (e u q).trans (hu u q)⟩

private theorem others {s : State} {t : ℕ} {p : PC} : ∀ u, u ≠ t → (s.goto t p).pc u = s.pc u := fun u h => by
  simp [State.goto, Function.update_of_ne h]

private theorem reach_release {A : Astro} {s : State} {t : ℕ} {o : LunarYear} (h : s.pc t = .release o) : Reach A s t :=
  ⟨_, o, .single (.release s t o h), by simp [State.goto], rfl, rfl, others⟩

private theorem reach_build {A : Astro} {s : State} {t : ℕ} {y : ℤ} (h : s.pc t = .build (.int y)) : Reach A s t := by
  refine Reach.step (.build s t y h) rfl others ?_
  refine Reach.step (.store _ t (make A y) (by simp [State.goto])) rfl others ?_
  exact reach_release (o := make A y) (by simp [State.goto])

private theorem reach_inside {A : Astro} {s : State} (H : Inv A s) (hg : Good s.trace) (t : ℕ)
    (h : (s.pc t).inside) : Reach A s t := by
  have hl := H.loc t
  have hint : ∀ a, lastCall t s.trace = some a → ∃ y, a = .int y := by
    intro a ha
    cases a with
    | int y => exact ⟨y, rfl⟩
    | bad =>
      exfalso
      refine hg t ?_
      revert ha
      generalize s.trace = l
      induction l with
      | nil => simp [lastCall]
      | cons e es ih =>
        cases e with
        | call u a =>
          simp only [lastCall]
          split_ifs with c
          · intro e; injection e with e
            rw [c, e]; exact List.mem_cons_self
          · exact fun e => List.mem_cons_of_mem _ (ih e)
        | ret u o => exact fun e => List.mem_cons_of_mem _ (ih e)
        | raise u => exact fun e => List.mem_cons_of_mem _ (ih e)
  have year : ∀ (s : State) (a : Arg) (c : LunarYear) (_ : ∃ y, a = .int y), s.pc t = .testYear a → s.cache = some c →
      Reach A s t := by
    rintro s a c ⟨y, rfl⟩ h hc
    by_cases e : Arg.int y = .int c.year
    · refine Reach.step (.yearNo s t _ c h hc e) rfl others ?_
      refine Reach.step (.read _ t c (by simp [State.goto]) hc) rfl others ?_
      exact reach_release (o := c) (by simp [State.goto])
    · refine Reach.step (.yearYes s t _ c h hc e) rfl others ?_
      exact reach_build (y := y) (by simp [State.goto])
  unfold Local at hl
  cases e : s.pc t with
  | idle => rw [e] at h; exact h.elim
  | acquire a => rw [e] at h; exact h.elim
  | ret a => rw [e] at h; exact h.elim
  | testNone a =>
    rw [e] at hl
    obtain ⟨y, rfl⟩ := hint a hl
    cases hc : s.cache with
    | none =>
      refine Reach.step (.noneYes s t _ e hc) rfl others ?_
      exact reach_build (y := y) (by simp [State.goto])
    | some c =>
      refine Reach.step (.noneNo s t _ c e hc) rfl others ?_
      exact year _ _ c ⟨y, rfl⟩ (by simp [State.goto]) hc
  | testYear a =>
    rw [e] at hl
    obtain ⟨c, hc⟩ := hl.2
    exact year s a c (hint a hl.1) e hc
  | build a =>
    rw [e] at hl
    obtain ⟨y, rfl⟩ := hint a hl
    exact reach_build e
  | store o =>
    refine Reach.step (.store s t o e) rfl others ?_
    exact reach_release (o := o) (by simp [State.goto])
  | read =>
    rw [e] at hl
    obtain ⟨c, hc, _⟩ := hl
    refine Reach.step (.read s t c e hc) rfl others ?_
    exact reach_release (o := c) (by simp [State.goto])
  | release o => exact reach_release e

private theorem not_failed_of_good {A : Astro} {s : State} (h : Steps A init s) (hg : Good s.trace) : ¬ Failed s.trace := by
  induction h with
  | refl => simp [init, Failed]
  | tail h1 h2 ih =>
    have H := inv_of_steps h1
    cases h2 with
    | call t a e =>
      rw [failed_cons (by simp)]
      exact ih fun u hu => hg u (List.mem_cons_of_mem _ hu)
    | ret t o e =>
      rw [failed_cons (by simp)]
      exact ih fun u hu => hg u (List.mem_cons_of_mem _ hu)
    | raise t e =>
      exfalso
      have hl := H.loc t
      unfold Local at hl
      rw [e] at hl
      refine hg t (List.mem_cons_of_mem _ ?_)
      revert hl
      rename_i b
      generalize b.trace = l
      induction l with
      | nil => simp [lastCall]
      | cons e es ih =>
        cases e with
        | call u a =>
          simp only [lastCall]
          split_ifs with c
          · intro e; injection e with e
            rw [c, e]; exact List.mem_cons_self
          · exact fun e => List.mem_cons_of_mem _ (ih e)
        | ret u o => exact fun e => List.mem_cons_of_mem _ (ih e)
        | raise u => exact fun e => List.mem_cons_of_mem _ (ih e)
    | acquire t a e hl => exact ih hg
    | noneYes t a e => exact ih hg
    | noneNo t a c e => exact ih hg
    | yearYes t a c e => exact ih hg
    | yearNo t a c e => exact ih hg
    | build t y e => exact ih hg
    | store t o e => exact ih hg
    | read t c e => exact ih hg
    | release t o e => exact ih hg

/-- **C44** (full statement: also after a failing call, which `C44_violated` refutes).  As long as every
call so far had an integer argument, a thread that is waiting anywhere in `fromYear` can always be
completed: from every reachable state there is a continuation in which it gets its answer. -/
theorem C44_can_complete_partial (A : Astro) (s : State) (h : Steps A init s) (hg : Good s.trace) (t : ℕ)
    (ht : (s.pc t).calling) : ∃ s' o, Steps A s s' ∧ s'.trace = .ret t o :: s.trace := by
  have H := inv_of_steps h
  have last : ∀ (s : State), Reach A s t → ∃ s' o, Steps A s s' ∧ s'.trace = .ret t o :: s.trace := by
    rintro s ⟨x, o, a, b, _, d, _⟩
    exact ⟨_, o, a.tail (.ret x t o b), by rw [← d]⟩
  have acq : ∀ (s : State), Steps A init s → Good s.trace → ∀ a, s.pc t = .acquire a → s.locked = false →
      ∃ s' o, Steps A s s' ∧ s'.trace = .ret t o :: s.trace := by
    intro s hs hg a e hl
    have st : Step A s _ := .acquire s t a e hl
    refine last s (Reach.step st rfl others ?_)
    exact reach_inside (inv_of_steps (hs.tail st)) hg t (by simp [State.goto, PC.inside])
  cases e : s.pc t with
  | idle => rw [e] at ht; exact ht.elim
  | acquire a =>
    cases hl : s.locked with
    | false => exact acq s h hg a e hl
    | true =>
      rcases H.free hl with c | ⟨u, hu⟩
      · exact absurd c (not_failed_of_good h hg)
      · obtain ⟨x, o, r1, r2, r3, r4, r5⟩ := reach_inside H hg u hu
        have hut : t ≠ u := by rintro rfl; rw [e] at hu; exact hu.elim
        obtain ⟨y, o', q1, q2⟩ := acq x (h.trans r1) (by rw [r4]; exact hg) a (by rw [r5 t hut]; exact e) r3
        exact ⟨y, o', r1.trans q1, by rw [q2, r4]⟩
  | ret o => exact ⟨_, o, .single (.ret s t o e), rfl⟩
  | testNone a => exact last s (reach_inside H hg t (by rw [e]; trivial))
  | testYear a => exact last s (reach_inside H hg t (by rw [e]; trivial))
  | build a => exact last s (reach_inside H hg t (by rw [e]; trivial))
  | store a => exact last s (reach_inside H hg t (by rw [e]; trivial))
  | read => exact last s (reach_inside H hg t (by rw [e]; trivial))
  | release a => exact last s (reach_inside H hg t (by rw [e]; trivial))

/-- two threads: 0 asks for 2024 and gets it, 1 asks for 2025 while 0 is inside and is waiting -/
example (A : Astro) : ∃ s, Steps A init s ∧ Good s.trace ∧ s.locked = true ∧
    s.pc 0 = .store (make A 2024) ∧ s.pc 1 = .acquire (.int 2025) := by
  refine ⟨_, ((((Relation.ReflTransGen.single (.call _ 0 (.int 2024) rfl)).tail
    (.acquire _ 0 (.int 2024) (by simp [State.goto]) rfl)).tail
    (.noneYes _ 0 (.int 2024) (by simp [State.goto]) rfl)).tail
    (.call _ 1 (.int 2025) (by simp [State.goto, init]))).tail (.build _ 0 2024 (by simp [State.goto])), ?_, rfl, ?_, ?_⟩
  · intro t; simp [State.goto, init]
  · simp [State.goto]
  · simp [State.goto]

end
