import Verif.Proof.Almanac

/-! # `LunarMonth.next` -/

namespace Almanac
open LunarYear

attribute [local irreducible] make

variable {A : Astro} {lo hi : ℤ} (H : Almanac A lo hi)
include H

/-- the object `m` describes month `k` -/
def Is (k : ℤ) (m : LunarMonth) : Prop :=
  (m.year, m.month) = H.key k ∧ m.firstJulianDay = H.first k ∧ m.dayCount = H.first (k + 1) - H.first k

theorem at_window {Y k : ℤ} (h1 : lo ≤ Y) (h2 : Y ≤ hi) (a : H.start Y ≤ k) (b : k < H.start Y + 15) :
    ∃ m, (make A Y).months[(k - H.start Y).toNat]? = some m ∧ H.Is k m := by
  obtain ⟨m, e, h⟩ := H.window Y h1 h2 (k - H.start Y).toNat (by omega)
  rw [show H.start Y + ((k - H.start Y).toNat : ℤ) = k by omega] at h
  exact ⟨m, e, h⟩

theorem findIdx_window {Y k : ℤ} (h1 : lo ≤ Y) (h2 : Y ≤ hi) (a : H.start Y ≤ k) (b : k < H.start Y + 15) :
    (make A Y).months.findIdx? (fun m => m.year = (H.key k).1 ∧ m.month = (H.key k).2) = some (k - H.start Y).toNat := by
  obtain ⟨m, e, h, -⟩ := H.at_window h1 h2 a b
  rw [List.findIdx?_eq_some_iff_getElem]
  obtain ⟨hl, hm⟩ := List.getElem?_eq_some_iff.mp e
  refine ⟨hl, ?_, ?_⟩
  · rw [hm, ← h]; simp
  · intro j hj
    obtain ⟨i, _, hi', hk, -⟩ := H.window' h1 h2 (List.getElem_mem (show j < (make A Y).months.length by omega))
    obtain ⟨m', e', hk', -⟩ := H.window Y h1 h2 j (by rw [months_length] at hl; omega)
    rw [List.getElem?_eq_getElem (show j < (make A Y).months.length by omega)] at e'
    have e' := Option.some.inj e'
    rw [e']
    simp only [decide_eq_true_eq, not_and]
    intro c1 c2
    have := H.key_inj (H.start Y + j) k (by rw [← hk', c1, c2])
    omega

theorem nextFwd_ok (fuel : ℕ) : ∀ (Y k : ℤ) (index rest : ℕ), lo ≤ Y → Y ≤ hi → H.start Y ≤ k → k < H.start Y + 15 →
    k + rest < H.start hi + 14 → rest + (if k = H.start Y + 14 then 1 else 0) < fuel →
    ∃ m, LunarMonth.nextFwd A fuel Y (H.key k).1 (H.key k).2 index rest = some m ∧ H.Is (k + rest) m := by
  induction fuel with
  | zero => intro Y k index rest _ _ _ _ _ h; omega
  | succ fuel ih =>
    intro Y k index rest h1 h2 a b hr hf
    unfold LunarMonth.nextFwd
    dsimp only
    rw [H.findIdx_window h1 h2 a b, Option.getD_some, months_length]
    split_ifs with c
    · obtain ⟨m, e, h⟩ := H.at_window (k := k + rest) h1 h2 (by omega) (by omega)
      rw [show (k + rest - H.start Y).toNat = (k - H.start Y).toNat + rest by omega] at e
      exact ⟨m, e, h⟩
    · have hlast : (make A Y).months.getLast? = (make A Y).months[14]? := by
        rw [List.getLast?_eq_getElem?, months_length]
      obtain ⟨z, e, hz, -⟩ := H.at_window (k := H.start Y + 14) h1 h2 (by omega) (by omega)
      rw [show (H.start Y + 14 - H.start Y).toNat = 14 by omega] at e
      rw [hlast, e]
      dsimp only
      have hlt : Y < hi := by
        by_contra hc
        obtain rfl : Y = hi := by omega
        omega
      obtain ⟨o1, o2⟩ := H.overlap Y h1 hlt
      have hzy : z.year = (H.key (H.start Y + 14)).1 := congrArg Prod.fst hz
      have hzm : z.month = (H.key (H.start Y + 14)).2 := congrArg Prod.snd hz
      rw [hzy, hzm]
      obtain ⟨m, em, hm⟩ := ih (Y + 1) (H.start Y + 14) (k - H.start Y).toNat (rest - (15 - (k - H.start Y).toNat - 1))
        (by omega) (by omega) (by omega) (by omega) (by omega) (by
          rw [if_neg (by omega)]
          split_ifs at hf <;> omega)
      refine ⟨m, em, ?_⟩
      rwa [show H.start Y + 14 + ((rest - (15 - (k - H.start Y).toNat - 1) : ℕ) : ℤ) = k + rest by omega] at hm

theorem nextBwd_ok (fuel : ℕ) : ∀ (Y k : ℤ) (index rest : ℕ), lo ≤ Y → Y ≤ hi → H.start Y ≤ k → k < H.start Y + 15 →
    H.start lo ≤ k - rest → rest + (if k = H.start Y then 1 else 0) < fuel →
    ∃ m, LunarMonth.nextBwd A fuel Y (H.key k).1 (H.key k).2 index rest = some m ∧ H.Is (k - rest) m := by
  induction fuel with
  | zero => intro Y k index rest _ _ _ _ _ h; omega
  | succ fuel ih =>
    intro Y k index rest h1 h2 a b hr hf
    unfold LunarMonth.nextBwd
    dsimp only
    rw [H.findIdx_window h1 h2 a b, Option.getD_some]
    split_ifs with c
    · obtain ⟨m, e, h⟩ := H.at_window (k := k - rest) h1 h2 (by omega) (by omega)
      rw [show (k - rest - H.start Y).toNat = (k - H.start Y).toNat - rest by omega] at e
      exact ⟨m, e, h⟩
    · obtain ⟨z, e, hz, -⟩ := H.at_window (k := H.start Y) h1 h2 (by omega) (by omega)
      rw [show (H.start Y - H.start Y).toNat = 0 by omega] at e
      rw [List.head?_eq_getElem?, e]
      dsimp only
      have hlt : lo < Y := by
        by_contra hc
        obtain rfl : Y = lo := by omega
        omega
      obtain ⟨o1, o2⟩ := H.overlap (Y - 1) (by omega) (by omega)
      rw [sub_add_cancel] at o1 o2
      have hzy : z.year = (H.key (H.start Y)).1 := congrArg Prod.fst hz
      have hzm : z.month = (H.key (H.start Y)).2 := congrArg Prod.snd hz
      rw [hzy, hzm]
      obtain ⟨m, em, hm⟩ := ih (Y - 1) (H.start Y) (k - H.start Y).toNat (rest - (k - H.start Y).toNat)
        (by omega) (by omega) (by omega) (by omega) (by omega) (by
          rw [if_neg (by omega)]
          split_ifs at hf <;> omega)
      refine ⟨m, em, ?_⟩
      rwa [show H.start Y - ((rest - (k - H.start Y).toNat : ℕ) : ℤ) = k - rest by omega] at hm

end Almanac
