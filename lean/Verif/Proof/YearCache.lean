import Verif.Spec.Threads
import Verif.Proof.LunarYear
import Mathlib.Logic.Relation

/-! # Invariants of the cache -/

namespace YearCache
open LunarYear

/-- what is known about the position of thread `t`, given the events so far -/
def Local (A : Astro) (s : State) (t : ℕ) : Prop :=
  match s.pc t with
  | .idle => True
  | .acquire a | .testNone a | .build a => lastCall t s.trace = some a
  | .testYear a => lastCall t s.trace = some a ∧ ∃ c, s.cache = some c
  | .store o | .release o | .ret o => ∃ y, lastCall t s.trace = some (.int y) ∧ o = make A y
  | .read => ∃ c, s.cache = some c ∧ lastCall t s.trace = some (.int c.year)

structure Inv (A : Astro) (s : State) : Prop where
  locked : ∀ t, (s.pc t).inside → s.locked = true
  alone : ∀ t u, (s.pc t).inside → (s.pc u).inside → t = u
  dead : Failed s.trace → s.locked = true ∧ ∀ t, ¬ (s.pc t).inside
  free : s.locked = true → Failed s.trace ∨ ∃ t, (s.pc t).inside
  cached : ∀ c, s.cache = some c → ∃ y, c = make A y
  loc : ∀ t, Local A s t
  ans : WellAnswered A s.trace

theorem inv_init (A : Astro) : Inv A init where
  locked t h := by simp [init, PC.inside] at h
  alone t u h := by simp [init, PC.inside] at h
  dead h := by simp [init, Failed] at h
  free h := by simp [init] at h
  cached c h := by simp [init] at h
  loc t := by simp [init, Local]
  ans t o es h := by simp [init] at h

theorem failed_cons {e : Event} {es : List Event} (h : ∀ t, e ≠ .raise t) : Failed (e :: es) ↔ Failed es := by
  unfold Failed
  constructor
  · rintro ⟨t, ht⟩
    rcases List.mem_cons.mp ht with c | c
    · exact absurd c.symm (h t)
    · exact ⟨t, c⟩
  · rintro ⟨t, ht⟩
    exact ⟨t, List.mem_cons_of_mem _ ht⟩

theorem ans_cons {A : Astro} {e : Event} {es : List Event} (h : ∀ t o, e ≠ .ret t o) (w : WellAnswered A es) :
    WellAnswered A (e :: es) := by
  intro t o l hl
  rcases List.suffix_cons_iff.mp hl with c | c
  · exact absurd (List.cons.inj c).1.symm (h t o)
  · exact w t o l c

/-- a step of a thread that stays inside (or goes there with its own lock), with the lock and the events
unchanged -/
theorem Inv.inner {A : Astro} {s : State} (H : Inv A s) (t : ℕ) (p : PC) (cache : Option LunarYear)
    (h1 : (s.pc t).inside) (h2 : p.inside)
    (hc : ∀ c, cache = some c → ∃ y, c = make A y)
    (hl : Local A { s.goto t p with cache := cache } t) : Inv A { s.goto t p with cache := cache } := by
  have key : ∀ u, (Function.update s.pc t p u).inside → (s.pc u).inside := by
    intro u hu
    by_cases e : u = t
    · rw [e]; exact h1
    · rwa [Function.update_of_ne e] at hu
  refine ⟨fun u hu => H.locked u (key u hu), fun u v hu hv => H.alone u v (key u hu) (key v hv),
    fun h => ?_, fun h => ?_, hc, fun u => ?_, H.ans⟩
  · exact absurd h1 ((H.dead h).2 t)
  · refine Or.inr ⟨t, ?_⟩
    simpa [State.goto] using h2
  · by_cases e : u = t
    · rw [e]; exact hl
    · have h := H.loc u
      have hn : ¬ (s.pc u).inside := fun hu => e (H.alone u t hu h1)
      unfold Local at h ⊢
      simp only [State.goto, Function.update_of_ne e]
      revert h hn
      cases s.pc u <;> simp [PC.inside]

theorem Inv.step {A : Astro} {s s' : State} (H : Inv A s) (h : Step A s s') : Inv A s' := by
  cases h with
  | call t a h =>
    have key : ∀ u, (Function.update s.pc t (.acquire a) u).inside ↔ (s.pc u).inside := by
      intro u
      by_cases e : u = t
      · rw [e, h]; simp [PC.inside]
      · rw [Function.update_of_ne e]
    refine ⟨fun u hu => H.locked u ((key u).mp hu), fun u v hu hv => H.alone u v ((key u).mp hu) ((key v).mp hv),
      fun hf => ?_, fun hf => ?_, H.cached, fun u => ?_, ans_cons (by simp) H.ans⟩
    · obtain ⟨a1, a2⟩ := H.dead ((failed_cons (by simp)).mp hf)
      exact ⟨a1, fun u hu => a2 u ((key u).mp hu)⟩
    · rcases H.free hf with c | ⟨u, hu⟩
      · exact Or.inl ((failed_cons (by simp)).mpr c)
      · exact Or.inr ⟨u, (key u).mpr hu⟩
    · by_cases e : u = t
      · rw [e]; simp [Local, State.goto, lastCall]
      · have h := H.loc u
        unfold Local at h ⊢
        simp only [State.goto, Function.update_of_ne e, lastCall, if_neg (Ne.symm e)]
        exact h
  | ret t o h =>
    have key : ∀ u, (Function.update s.pc t .idle u).inside ↔ (s.pc u).inside := by
      intro u
      by_cases e : u = t
      · rw [e, h]; simp [PC.inside]
      · rw [Function.update_of_ne e]
    refine ⟨fun u hu => H.locked u ((key u).mp hu), fun u v hu hv => H.alone u v ((key u).mp hu) ((key v).mp hv),
      fun hf => ?_, fun hf => ?_, H.cached, fun u => ?_, ?_⟩
    · obtain ⟨a1, a2⟩ := H.dead ((failed_cons (by simp)).mp hf)
      exact ⟨a1, fun u hu => a2 u ((key u).mp hu)⟩
    · rcases H.free hf with c | ⟨u, hu⟩
      · exact Or.inl ((failed_cons (by simp)).mpr c)
      · exact Or.inr ⟨u, (key u).mpr hu⟩
    · by_cases e : u = t
      · rw [e]; simp [Local, State.goto]
      · have h := H.loc u
        unfold Local at h ⊢
        simp only [State.goto, Function.update_of_ne e, lastCall]
        exact h
    · intro u o' l hl
      rcases List.suffix_cons_iff.mp hl with c | c
      · obtain ⟨c1, c2⟩ := List.cons.inj c
        injection c1 with c3 c4
        have h' := H.loc t
        unfold Local at h'
        rw [h] at h'
        subst c2 c3 c4
        exact h'
      · exact H.ans u o' l c
  | acquire t a h hl =>
    have hno : ∀ u, ¬ (s.pc u).inside := fun u hu => by have := H.locked u hu; rw [hl] at this; cases this
    have key : ∀ u, (Function.update s.pc t (.testNone a) u).inside → u = t := by
      intro u hu
      by_contra e
      rw [Function.update_of_ne e] at hu
      exact hno u hu
    refine ⟨fun _ _ => rfl, fun u v hu hv => (key u hu).trans (key v hv).symm, fun hf => ?_, fun _ => ?_, H.cached,
      fun u => ?_, H.ans⟩
    · have := (H.dead hf).1
      rw [hl] at this; cases this
    · exact Or.inr ⟨t, by simp [State.goto, PC.inside]⟩
    · by_cases e : u = t
      · rw [e]
        have h' := H.loc t
        unfold Local at h'
        rw [h] at h'
        simp [Local, State.goto, h']
      · have h := H.loc u
        unfold Local at h ⊢
        simp only [State.goto, Function.update_of_ne e]
        exact h
  | noneYes t a h hc =>
    refine H.inner t _ s.cache (by rw [h]; trivial) trivial H.cached ?_
    have h' := H.loc t
    unfold Local at h'
    rw [h] at h'
    simpa [Local, State.goto] using h'
  | noneNo t a c h hc =>
    refine H.inner t _ s.cache (by rw [h]; trivial) trivial H.cached ?_
    have h' := H.loc t
    unfold Local at h'
    rw [h] at h'
    simpa [Local, State.goto, hc] using h'
  | yearYes t a c h hc hy =>
    refine H.inner t _ s.cache (by rw [h]; trivial) trivial H.cached ?_
    have h' := H.loc t
    unfold Local at h'
    rw [h] at h'
    simpa [Local, State.goto] using h'.1
  | yearNo t a c h hc hy =>
    refine H.inner t _ s.cache (by rw [h]; trivial) trivial H.cached ?_
    have h' := H.loc t
    unfold Local at h'
    rw [h, hy] at h'
    simpa [Local, State.goto, hc] using h'.1
  | build t y h =>
    refine H.inner t _ s.cache (by rw [h]; trivial) trivial H.cached ?_
    have h' := H.loc t
    unfold Local at h'
    rw [h] at h'
    simp only [Local, State.goto, Function.update_self]
    exact ⟨y, h', rfl⟩
  | store t o h =>
    have h' := H.loc t
    unfold Local at h'
    rw [h] at h'
    refine H.inner t _ (some o) (by rw [h]; trivial) trivial ?_ ?_
    · rintro c e
      injection e with e
      obtain ⟨y, _, hy⟩ := h'
      exact ⟨y, e ▸ hy⟩
    · simp only [Local, State.goto, Function.update_self]
      exact h'
  | read t c h hc =>
    have h' := H.loc t
    unfold Local at h'
    rw [h] at h'
    refine H.inner t _ s.cache (by rw [h]; trivial) trivial H.cached ?_
    simp only [Local, State.goto, Function.update_self]
    obtain ⟨c', e, hl⟩ := h'
    rw [hc] at e
    injection e with e
    subst e
    obtain ⟨y, hy⟩ := H.cached c hc
    refine ⟨c.year, hl, ?_⟩
    rw [hy, make_year]
  | release t o h =>
    have hin : (s.pc t).inside := by rw [h]; trivial
    have hno : ∀ u, ¬ (Function.update s.pc t (.ret o) u).inside := by
      intro u hu
      by_cases e : u = t
      · rw [e] at hu; simp [PC.inside] at hu
      · rw [Function.update_of_ne e] at hu
        exact e (H.alone u t hu hin)
    refine ⟨fun u hu => absurd hu (hno u), fun u v hu => absurd hu (hno u), fun hf => ?_, fun hf => ?_, H.cached,
      fun u => ?_, H.ans⟩
    · exact absurd hin ((H.dead hf).2 t)
    · cases hf
    · by_cases e : u = t
      · rw [e]
        have h' := H.loc t
        unfold Local at h'
        rw [h] at h'
        simp only [Local, State.goto, Function.update_self]
        exact h'
      · have h := H.loc u
        unfold Local at h ⊢
        simp only [State.goto, Function.update_of_ne e]
        exact h
  | raise t h =>
    have hin : (s.pc t).inside := by rw [h]; trivial
    have hno : ∀ u, ¬ (Function.update s.pc t .idle u).inside := by
      intro u hu
      by_cases e : u = t
      · rw [e] at hu; simp [PC.inside] at hu
      · rw [Function.update_of_ne e] at hu
        exact e (H.alone u t hu hin)
    refine ⟨fun u hu => absurd hu (hno u), fun u v hu => absurd hu (hno u),
      fun _ => ⟨H.locked t hin, hno⟩, fun _ => Or.inl ⟨t, List.mem_cons_self⟩, H.cached,
      fun u => ?_, ans_cons (by simp) H.ans⟩
    by_cases e : u = t
    · rw [e]; simp [Local, State.goto]
    · have h := H.loc u
      unfold Local at h ⊢
      simp only [State.goto, Function.update_of_ne e, lastCall]
      exact h

theorem inv_of_steps {A : Astro} {s : State} (h : Steps A init s) : Inv A s := by
  induction h with
  | refl => exact inv_init A
  | tail _ h ih => exact ih.step h

end YearCache
