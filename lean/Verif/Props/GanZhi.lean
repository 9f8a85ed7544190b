import Verif.Model.LunarUtil
import Verif.Spec.GanZhi
import Mathlib.Tactic.IntervalCases

/-! # C29, C30: the sixty pairs -/

section
open Spec LunarUtil

private theorem ganZhi_emod (n : ℤ) : ganZhi (n % 60) = ganZhi n := by
  unfold ganZhi stem branch
  rw [show n % 60 % 10 = n % 10 by omega, show n % 60 % 12 = n % 12 by omega]

private theorem lift60 {P : List Char → ℤ → Prop} (h : ∀ i : Fin 60, P (ganZhi (i : ℕ)) ((i : ℕ) : ℤ)) (n : ℤ) :
    P (ganZhi n) (n % 60) := by
  have := h ⟨(n % 60).toNat, by omega⟩
  simp only [show (((n % 60).toNat : ℕ) : ℤ) = n % 60 by omega, ganZhi_emod] at this
  exact this

private theorem jiaZi_eq : JIA_ZI = (List.range 60).map (fun i : ℕ => ganZhi i) := by decide +kernel

/-- **C29** `getJiaZiIndex` of the `n`-th pair is `n` mod 60. -/
theorem C29_index (n : ℤ) : getJiaZiIndex (ganZhi n) = n % 60 :=
  lift60 (P := fun s i => getJiaZiIndex s = i) (by decide +kernel) n

/-- **C29** every string with a nonnegative index is the pair of that index, which is below 60. -/
theorem C29_only_pairs (s : PyStr) (h : getJiaZiIndex s ≠ -1) :
    0 ≤ getJiaZiIndex s ∧ getJiaZiIndex s < 60 ∧ s = ganZhi (getJiaZiIndex s) := by
  unfold getJiaZiIndex at *
  cases hf : JIA_ZI.findIdx? (fun x => x == s) with
  | none => rw [hf] at h; exact absurd rfl h
  | some i =>
    simp only
    rw [List.findIdx?_eq_some_iff_getElem] at hf
    obtain ⟨hi, he, _⟩ := hf
    have hi' : i < 60 := by rw [jiaZi_eq] at hi; simpa using hi
    refine ⟨by omega, by omega, ?_⟩
    rw [beq_iff_eq] at he
    rw [← he]
    simp only [jiaZi_eq, List.getElem_map, List.getElem_range]

/-- **C29** strings that are none of the sixty pairs give -1. -/
theorem C29_others (s : PyStr) : getJiaZiIndex s = -1 ↔ ∀ n : ℤ, s ≠ ganZhi n := by
  constructor
  · rintro h n rfl
    rw [C29_index] at h
    omega
  · intro h
    by_contra hc
    exact h _ (C29_only_pairs s hc).2.2

/-- **C29** stem number `g` with branch number `z` is one of the sixty pairs iff `g`, `z` have the
same parity, and then its index has remainder `g` mod 10 and `z` mod 12. -/
theorem C29_crt (g z : ℤ) :
    if (g - z) % 2 = 0 then
      getJiaZiIndex [stem g, branch z] % 10 = g % 10 ∧ getJiaZiIndex [stem g, branch z] % 12 = z % 12 ∧
      0 ≤ getJiaZiIndex [stem g, branch z]
    else getJiaZiIndex [stem g, branch z] = -1 := by
  have key : ∀ a : Fin 10, ∀ b : Fin 12,
      if (((a : ℕ) : ℤ) - ((b : ℕ) : ℤ)) % 2 = 0 then
        getJiaZiIndex [stem (a : ℕ), branch (b : ℕ)] % 10 = (a : ℕ) ∧
        getJiaZiIndex [stem (a : ℕ), branch (b : ℕ)] % 12 = (b : ℕ) ∧
        0 ≤ getJiaZiIndex [stem (a : ℕ), branch (b : ℕ)]
      else getJiaZiIndex [stem (a : ℕ), branch (b : ℕ)] = -1 := by decide +kernel
  have := key ⟨(g % 10).toNat, by omega⟩ ⟨(z % 12).toNat, by omega⟩
  simp only [show (((g % 10).toNat : ℕ) : ℤ) = g % 10 by omega,
    show (((z % 12).toNat : ℕ) : ℤ) = z % 12 by omega] at this
  have e1 : stem (g % 10) = stem g := by unfold stem; rw [Int.emod_emod]
  have e2 : branch (z % 12) = branch z := by unfold branch; rw [Int.emod_emod]
  rw [e1, e2] at this
  by_cases h : (g - z) % 2 = 0
  · rw [if_pos h]
    rwa [if_pos (by omega)] at this
  · rw [if_neg h]
    rwa [if_neg (by omega)] at this

example : getJiaZiIndex ['丙', '寅'] = 2 ∧ ganZhi 62 = ['丙', '寅'] ∧ getJiaZiIndex ['甲', '丑'] = -1 := by
  decide +kernel

/-- **C30** `getXun` of a pair is the pair opening its block of ten. -/
theorem C30_xun (n : ℤ) : getXun (ganZhi n) = .ok (ganZhi (10 * (n % 60 / 10))) :=
  lift60 (P := fun s i => getXun s = .ok (ganZhi (10 * (i / 10)))) (by decide +kernel) n

/-- **C30** `getXunKong` names, in order, exactly the two branches that occur nowhere in the block of
ten the pair belongs to. -/
theorem C30_xunKong (n : ℤ) : ∃ a b : ℤ, b = a + 1 ∧ getXunKong (ganZhi n) = .ok [branch a, branch b] ∧
    ∀ c : Char, c ∈ branches →
      ((c = branch a ∨ c = branch b) ↔ ∀ k : ℤ, 0 ≤ k → k < 10 → c ≠ branch (10 * (n % 60 / 10) + k)) := by
  refine lift60 (P := fun s i => ∃ a b : ℤ, b = a + 1 ∧ getXunKong s = .ok [branch a, branch b] ∧
    ∀ c : Char, c ∈ branches →
      ((c = branch a ∨ c = branch b) ↔ ∀ k : ℤ, 0 ≤ k → k < 10 → c ≠ branch (10 * (i / 10) + k))) ?_ n
  intro i
  refine ⟨10 * (((i : ℕ) : ℤ) / 10) + 10, _, rfl, ?_, ?_⟩
  · revert i; decide +kernel
  · have key : ∀ i : Fin 60, ∀ c ∈ branches,
      ((c = branch (10 * (((i : ℕ) : ℤ) / 10) + 10) ∨ c = branch (10 * (((i : ℕ) : ℤ) / 10) + 10 + 1)) ↔
        ∀ k : Fin 10, c ≠ branch (10 * (((i : ℕ) : ℤ) / 10) + ((k : ℕ) : ℤ))) := by decide +kernel
    intro c hc
    rw [key i c hc]
    constructor
    · intro h k h0 h1
      have := h ⟨k.toNat, by omega⟩
      simpa only [show ((k.toNat : ℕ) : ℤ) = k by omega] using this
    · intro h k
      exact h _ (by omega) (by omega)

example : getXunKong (ganZhi 62) = .ok ['戌', '亥'] ∧ getXun (ganZhi 62) = .ok ['甲', '子'] := by decide +kernel

end
