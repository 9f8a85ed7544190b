import Verif.Proof.EightChar
import Verif.Props.GanZhi

/-! # C36 (derived pillars), C56, C57, C58, C64: readings of a chart

`e.lunar.Proper` says that the lunar date is as made by the constructors in a year with a proper table
of solar terms (C38 shows that all dates are, over an almanac). -/

section
open Spec LunarUtil Lunar EightChar
variable {e : EightChar}

/-- a fact about all pairs needs to be checked for the sixty only -/
private theorem lift60 {P : ℤ → List Char → Prop} (h : ∀ i : Fin 60, P ((i : ℕ) : ℤ) (ganZhi (i : ℕ))) (n : ℤ) :
    P (n % 60) (ganZhi n) := by
  have := h ⟨(n % 60).toNat, by omega⟩
  simp only [show (((n % 60).toNat : ℕ) : ℤ) = n % 60 by omega] at this
  rwa [show ganZhi (n % 60) = ganZhi n from ganZhi_eq_iff.2 (by omega)] at this

/-! ## C64 -/

/-- **C64** every pair has a NaYin ending in the phase of the pair by the counting rule. -/
theorem C64_naYin_phase (n : ℤ) : ∃ s, pyDictGet NAYIN (ganZhi n) = some s ∧ s.getLast? = some (pairPhase n) := by
  have key : ∀ i : Fin 60, ∃ s, pyDictGet NAYIN (ganZhi (i : ℕ)) = some s ∧ s.getLast? = some (pairPhase ((i : ℕ) : ℤ)) := by
    have : ∀ i : Fin 60, ((pyDictGet NAYIN (ganZhi (i : ℕ))).map List.getLast?) = some (some (pairPhase ((i : ℕ) : ℤ))) := by
      decide +kernel
    intro i
    have := this i
    rw [Option.map_eq_some_iff] at this
    exact this
  have := lift60 (P := fun k z => ∃ s, pyDictGet NAYIN z = some s ∧ s.getLast? = some (pairPhase k)) key n
  rwa [show pairPhase (n % 60) = pairPhase n by
    unfold pairPhase
    rw [show n % 60 % 10 = n % 10 by omega, show n % 60 % 6 = n % 6 by omega]] at this

/-- **C64** two pairs have the same NaYin exactly if they are the two of one couple `2 k`, `2 k + 1`. -/
theorem C64_naYin_couples (n m : ℤ) : pyDictGet NAYIN (ganZhi n) = pyDictGet NAYIN (ganZhi m) ↔ n % 60 / 2 = m % 60 / 2 := by
  have key : ∀ i j : Fin 60, pyDictGet NAYIN (ganZhi (i : ℕ)) = pyDictGet NAYIN (ganZhi (j : ℕ)) ↔
      ((i : ℕ) : ℤ) / 2 = ((j : ℕ) : ℤ) / 2 := by decide +kernel
  exact lift60 (P := fun k z => pyDictGet NAYIN z = pyDictGet NAYIN (ganZhi m) ↔ k / 2 = m % 60 / 2)
    (fun i => lift60 (P := fun k z => pyDictGet NAYIN (ganZhi (i : ℕ)) = pyDictGet NAYIN z ↔ ((i : ℕ) : ℤ) / 2 = k / 2)
      (fun j => key i j) m) n

/-- **C64** phases of a pillar: of its stem, then of its branch. -/
theorem C64_wuXing (h : e.lunar.Proper) (p : Pos) (n : ℤ) (hn : e.get p = .ok (ganZhi n)) :
    e.getWuXing p = .ok [phaseName (stemPhase n), phaseName (branchPhase n)] := by
  have a := at_of_get h hn
  unfold getWuXing
  rw [a.getGan, a.getZhi]
  have h1 := lift10 (P := fun k c => pyDictGet WU_XING_GAN [c] = some [phaseName (stemPhase k)]) (by decide +kernel) n
  have h2 := lift12 (P := fun k c => pyDictGet WU_XING_ZHI [c] = some [phaseName (branchPhase k)]) (by decide +kernel) n
  simp only [bind, Except.bind]
  rw [h1, h2]
  have e1 : stemPhase (n % 10) = stemPhase n := by unfold stemPhase; rw [Int.emod_emod]
  have e2 : branchPhase (n % 12) = branchPhase n := by
    unfold branchPhase
    rw [show n % 12 % 3 = n % 3 by omega, show (n % 12 - 2) % 12 = (n - 2) % 12 by omega]
  rw [e1, e2]
  rfl

/-- **C64** the NaYin of each pillar of a chart is defined. -/
theorem C64_naYin_of (h : e.lunar.Proper) (p : Pos) (n : ℤ) (hn : e.get p = .ok (ganZhi n)) :
    ∃ s, e.getNaYin p = .ok (some s) ∧ s.getLast? = some (pairPhase n) := by
  obtain ⟨s, h1, h2⟩ := C64_naYin_phase n
  refine ⟨s, ?_, h2⟩
  unfold getNaYin
  rw [hn]
  show Except.ok _ = _
  rw [h1]

/-! ## C56 -/

instance (g o : ℤ) (s : List Char) : Decidable (IsTenGod g o s) := by
  unfold IsTenGod Generates Overcomes; infer_instance

private theorem isTenGod_emod (g o : ℤ) (s : List Char) : IsTenGod (g % 10) (o % 10) s ↔ IsTenGod g o s := by
  have e1 : stemPhase (g % 10) = stemPhase g := by unfold stemPhase; rw [Int.emod_emod]
  have e2 : stemPhase (o % 10) = stemPhase o := by unfold stemPhase; rw [Int.emod_emod]
  have e3 : ((g % 10 - o % 10) % 2 = 0) = ((g - o) % 2 = 0) := propext (by omega)
  unfold IsTenGod
  simp only [e1, e2, e3]

/-- **C56** the table of ten gods is the relation of phases and polarities, for all pairs of stems. -/
theorem C56_table (g o : ℤ) : ∃ s, pyDictGet SHI_SHEN [stem g, stem o] = some s ∧ IsTenGod g o s := by
  have key : ∀ i j : Fin 10, ∃ s, pyDictGet SHI_SHEN [stem (i : ℕ), stem (j : ℕ)] = some s ∧ IsTenGod (i : ℕ) (j : ℕ) s := by
    have : ∀ i j : Fin 10, (pyDictGet SHI_SHEN [stem (i : ℕ), stem (j : ℕ)]).map
        (fun s => decide (IsTenGod (i : ℕ) (j : ℕ) s)) = some true := by decide +kernel
    intro i j
    obtain ⟨s, h1, h2⟩ := Option.map_eq_some_iff.1 (this i j)
    exact ⟨s, h1, of_decide_eq_true h2⟩
  have := lift10 (P := fun k c => ∃ s, pyDictGet SHI_SHEN [c, stem o] = some s ∧ IsTenGod k (o % 10) s)
    (fun i => lift10 (P := fun k c => ∃ s, pyDictGet SHI_SHEN [stem (i : ℕ), c] = some s ∧ IsTenGod (i : ℕ) k s)
      (fun j => key i j) o) g
  simpa only [isTenGod_emod] using this

/-- **C56** the ten gods of a relation are unique (so `C56_table` determines the table). -/
theorem C56_unique (g o : ℤ) (s t : List Char) (hs : IsTenGod g o s) (ht : IsTenGod g o t) : s = t := by
  unfold IsTenGod Generates Overcomes at hs ht
  have a0 : 0 ≤ stemPhase g ∧ stemPhase g < 5 := by unfold stemPhase; omega
  have b0 : 0 ≤ stemPhase o ∧ stemPhase o < 5 := by unfold stemPhase; omega
  dsimp only at hs ht
  generalize stemPhase g = a at *
  generalize stemPhase o = b at *
  rcases hs with ⟨h1, h2, rfl⟩ | ⟨h1, h2, rfl⟩ | ⟨h1, h2, rfl⟩ | ⟨h1, h2, rfl⟩ | ⟨h1, h2, rfl⟩ | ⟨h1, h2, rfl⟩ | ⟨h1, h2, rfl⟩ |
    ⟨h1, h2, rfl⟩ | ⟨h1, h2, rfl⟩ | ⟨h1, h2, rfl⟩ <;>
  rcases ht with ⟨k1, k2, rfl⟩ | ⟨k1, k2, rfl⟩ | ⟨k1, k2, rfl⟩ | ⟨k1, k2, rfl⟩ | ⟨k1, k2, rfl⟩ | ⟨k1, k2, rfl⟩ | ⟨k1, k2, rfl⟩ |
    ⟨k1, k2, rfl⟩ | ⟨k1, k2, rfl⟩ | ⟨k1, k2, rfl⟩ <;> first | rfl | omega

/-- **C56** the ten god of the stem of the year, month or hour pillar. -/
theorem C56_stem (h : e.lunar.Proper) (p : Pos) (hp : p ≠ .day) (d n : ℤ) (hd : e.get .day = .ok (ganZhi d))
    (hn : e.get p = .ok (ganZhi n)) : ∃ s, e.getShiShenGan p = .ok (some s) ∧ IsTenGod d n s := by
  have a := at_of_get h hd
  have b := at_of_get h hn
  obtain ⟨s, h1, h2⟩ := C56_table d n
  refine ⟨s, ?_, h2⟩
  have : e.getShiShenGan p = (do return pyDictGet SHI_SHEN ((← e.getGan .day) ++ (← e.getGan p))) := by
    cases p <;> first | rfl | exact absurd rfl hp
  rw [this, a.getGan, b.getGan]
  show Except.ok _ = _
  rw [← h1]
  rfl

private theorem hide_eq (n : ℤ) : pyDictGet ZHI_HIDE_GAN [branch n] = some ((hiddenStems n).map (fun g => [stem g])) := by
  have := lift12 (P := fun k c => pyDictGet ZHI_HIDE_GAN [c] = some ((hiddenStems k).map (fun g => [stem g]))) (by decide +kernel) n
  rwa [show hiddenStems (n % 12) = hiddenStems n by unfold hiddenStems; rw [Int.emod_emod]] at this

/-- **C56** the stems hidden in the branch of any pillar, ... -/
theorem C56_hidden (h : e.lunar.Proper) (p : Pos) (n : ℤ) (hn : e.get p = .ok (ganZhi n)) :
    e.getHideGan p = .ok (some ((hiddenStems n).map (fun g => [stem g]))) := by
  have b := at_of_get h hn
  unfold getHideGan
  rw [b.getZhi]
  show Except.ok _ = _
  rw [hide_eq]

/-- **C56** ... and the ten gods of each of them. -/
theorem C56_hidden_gods (h : e.lunar.Proper) (p : Pos) (d n : ℤ) (hd : e.get .day = .ok (ganZhi d))
    (hn : e.get p = .ok (ganZhi n)) :
    ∃ r, e.getShiShenZhi p = .ok r ∧ List.Forall₂ (fun o x => ∃ s, x = some s ∧ IsTenGod d o s) (hiddenStems n) r := by
  have a := at_of_get h hd
  have b := at_of_get h hn
  have main : ∀ hs : List ℤ, ∃ r, (hs.map (fun g => [stem g])).mapM (m := Except PyErr)
      (fun gan => do return pyDictGet SHI_SHEN ((← e.getGan .day) ++ gan)) = .ok r ∧
      List.Forall₂ (fun o x => ∃ s, x = some s ∧ IsTenGod d o s) hs r := by
    intro hs
    induction hs with
    | nil => exact ⟨[], rfl, .nil⟩
    | cons o os ih =>
      obtain ⟨r, e1, e2⟩ := ih
      obtain ⟨s, h1, h2⟩ := C56_table d o
      refine ⟨some s :: r, ?_, .cons ⟨s, rfl, h2⟩ e2⟩
      rw [List.map_cons, List.mapM_cons, e1, a.getGan]
      show Except.ok (pyDictGet SHI_SHEN ([stem d] ++ [stem o]) :: r) = _
      rw [← h1]
      rfl
  obtain ⟨r, e1, e2⟩ := main (hiddenStems n)
  refine ⟨r, ?_, e2⟩
  unfold getShiShenZhi
  rw [b.getZhi]
  simp only [bind, Except.bind]
  rw [hide_eq]
  exact e1

/-! ## C57 -/

/-- **C57** the life stage of the branch of a pillar, counted from the branch where the day stem is
born, forward for yang stems and backward for yin stems. -/
theorem C57_life_stage (h : e.lunar.Proper) (p : Pos) (d n : ℤ) (hd : e.get .day = .ok (ganZhi d))
    (hn : e.get p = .ok (ganZhi n)) :
    e.getDiShi p = .ok (lifeStage (if d % 2 = 0 then n - birthBranch d else birthBranch d - n)) := by
  have a := at_of_get h hd
  have b := at_of_get h hn
  unfold getDiShi
  rw [a.getGan]
  have h1 := lift10 (P := fun k c => pyDictGet CHANG_SHENG_OFFSET [c] =
    some (if k % 2 = 0 then (12 - birthBranch k) % 12 else birthBranch k)) (by decide +kernel) d
  simp only [bind, Except.bind]
  rw [h1]
  dsimp only
  have hg : e.getDayGanIndex = d % 10 := a.gan
  rw [hg, b.zhi]
  rw [show birthBranch (d % 10) = birthBranch d by unfold birthBranch; rw [Int.emod_emod], show d % 10 % 2 = d % 2 by omega]
  have bb : 0 ≤ birthBranch d ∧ birthBranch d < 12 := by
    have := lift10 (P := fun k _ => 0 ≤ birthBranch k ∧ birthBranch k < 12) (by decide +kernel) d
    rwa [show birthBranch (d % 10) = birthBranch d by unfold birthBranch; rw [Int.emod_emod]] at this
  generalize birthBranch d = o at *
  have stage : ∀ i : ℤ, 0 ≤ i → i < 12 → pyIndex CHANG_SHENG i = .ok (lifeStage i) := by
    intro i h0 h1
    have : ∀ i : Fin 12, pyIndex CHANG_SHENG ((i : ℕ) : ℤ) = .ok (lifeStage ((i : ℕ) : ℤ)) := by decide +kernel
    have := this ⟨i.toNat, by omega⟩
    simpa only [show ((i.toNat : ℕ) : ℤ) = i by omega] using this
  have lift : ∀ x y : ℤ, 0 ≤ x → x < 12 → x % 12 = y % 12 → pyIndex CHANG_SHENG x = .ok (lifeStage y) := by
    intro x y h0 h1 hxy
    rw [stage x h0 h1]
    unfold lifeStage
    rw [hxy]
  by_cases c : d % 2 = 0
  · simp only [c, if_true]
    apply lift <;> split_ifs <;> omega
  · simp only [c, if_false]
    apply lift <;> split_ifs <;> omega

/-! ## C58 -/

private theorem pos_eq (n : ℤ) : monthZhiPos [branch n] = monthOrd n := by
  have := lift12 (P := fun k c => monthZhiPos [c] = monthOrd k) (by decide +kernel) n
  rw [this]
  unfold monthOrd
  omega

private theorem zhiPos_eq (n : ℤ) : indexOr0 ZHI [branch n] = n % 12 + 1 :=
  lift12 (P := fun k c => indexOr0 ZHI [c] = k + 1) (by decide +kernel) n

private theorem monthZhi_at (o : ℤ) (h0 : 1 ≤ o) (h1 : o ≤ 12) : pyIndex EightChar.MONTH_ZHI o = .ok [branch (o + 1)] := by
  have : ∀ i : Fin 12, pyIndex EightChar.MONTH_ZHI (((i : ℕ) : ℤ) + 1) = .ok [branch (((i : ℕ) : ℤ) + 1 + 1)] := by decide +kernel
  have := this ⟨(o - 1).toNat, by omega⟩
  simpa only [show (((o - 1).toNat : ℕ) : ℤ) + 1 = o by omega] using this

private theorem gan_at (x : ℤ) (hx : 0 < x) : pyIndex GAN (whileSub 10 x) = .ok [stem (x - 1)] := by
  rw [whileSub_eq 10 (by decide) x hx, gan_index (by omega) (by omega)]
  show Except.ok [stem ((x - 1) % 10)] = _
  rw [stem_emod]

/-- **C58** Ming Gong: the pillar that month `o` of the birth year has, where the places of `o`, the
birth month and the birth hour among the months (寅 = 1) add up to 14 or 26. -/
theorem C58_mingGong (h : e.lunar.Proper) (y m t : ℤ) (hy : e.get .year = .ok (ganZhi y)) (hm : e.get .month = .ok (ganZhi m))
    (ht : e.get .time = .ok (ganZhi t)) :
    ∃ o, 1 ≤ o ∧ o ≤ 12 ∧ (monthOrd m + monthOrd t + o = 14 ∨ monthOrd m + monthOrd t + o = 26) ∧
      e.getMingGong = .ok (ganZhi (12 * y + o + 1)) ∧ branch (12 * y + o + 1) = branch (o + 1) ∧
      ∃ s, naYinOf e.getMingGong = .ok (some s) := by
  have ay := at_of_get h hy
  have am := at_of_get h hm
  have at' := at_of_get h ht
  have om : 1 ≤ monthOrd m ∧ monthOrd m ≤ 12 := by unfold monthOrd; omega
  have ot : 1 ≤ monthOrd t ∧ monthOrd t ≤ 12 := by unfold monthOrd; omega
  have hyg : e.lunar.yearGanIndexExact = y % 10 := ay.gan
  have hb : ∀ o, branch (12 * y + o + 1) = branch (o + 1) := fun o => by
    unfold branch; rw [show (12 * y + o + 1) % 12 = (o + 1) % 12 by omega]
  have main : e.getMingGong = .ok (ganZhi (12 * y + (if monthOrd m + monthOrd t ≥ 14 then 26 - (monthOrd m + monthOrd t)
      else 14 - (monthOrd m + monthOrd t)) + 1)) := by
    unfold getMingGong
    rw [am.getZhi, at'.getZhi]
    simp only [bind, Except.bind]
    rw [pos_eq, pos_eq, hyg]
    have ho : 1 ≤ (if monthOrd m + monthOrd t ≥ 14 then 26 - (monthOrd m + monthOrd t) else 14 - (monthOrd m + monthOrd t)) ∧
        (if monthOrd m + monthOrd t ≥ 14 then 26 - (monthOrd m + monthOrd t) else 14 - (monthOrd m + monthOrd t)) ≤ 12 := by
      split_ifs <;> omega
    generalize (if monthOrd m + monthOrd t ≥ 14 then 26 - (monthOrd m + monthOrd t) else 14 - (monthOrd m + monthOrd t)) = o at ho ⊢
    rw [gan_at _ (by omega), monthZhi_at o ho.1 ho.2]
    show Except.ok [stem ((y % 10 + 1) * 2 + o - 1), branch (o + 1)] = _
    unfold ganZhi
    rw [hb]
    unfold stem
    rw [show ((y % 10 + 1) * 2 + o - 1) % 10 = (12 * y + o + 1) % 10 by omega]
  refine ⟨_, ?_, ?_, ?_, main, hb _, ?_⟩
  · split_ifs <;> omega
  · split_ifs <;> omega
  · split_ifs <;> omega
  · obtain ⟨s, h1, -⟩ := C64_naYin_phase (12 * y + (if monthOrd m + monthOrd t ≥ 14 then 26 - (monthOrd m + monthOrd t)
      else 14 - (monthOrd m + monthOrd t)) + 1)
    refine ⟨s, ?_⟩
    rw [main, ← h1]; rfl

/-- **C58** Shen Gong: branch and NaYin likewise, `o` being the sum (modulo 12) of the place of the birth
month (寅 = 1) and that of the birth hour (子 = 1); the stem is that of month `o`, for `o = 12` that of
the 丑 month *before* the year. -/
theorem C58_shenGong (h : e.lunar.Proper) (y m t : ℤ) (hy : e.get .year = .ok (ganZhi y)) (hm : e.get .month = .ok (ganZhi m))
    (ht : e.get .time = .ok (ganZhi t)) :
    ∃ o, 1 ≤ o ∧ o ≤ 12 ∧ (o = monthOrd m + (t % 12 + 1) ∨ o + 12 = monthOrd m + (t % 12 + 1)) ∧
      e.getShenGong = .ok (ganZhi (12 * y + o % 12 + 1)) ∧ branch (12 * y + o % 12 + 1) = branch (o + 1) ∧
      ∃ s, naYinOf e.getShenGong = .ok (some s) := by
  have ay := at_of_get h hy
  have am := at_of_get h hm
  have at' := at_of_get h ht
  have om : 1 ≤ monthOrd m ∧ monthOrd m ≤ 12 := by unfold monthOrd; omega
  have hyg : e.lunar.yearGanIndexExact = y % 10 := ay.gan
  have hb : ∀ o, branch (12 * y + o % 12 + 1) = branch (o + 1) := fun o => by
    unfold branch; rw [show (12 * y + o % 12 + 1) % 12 = (o + 1) % 12 by omega]
  have main : e.getShenGong = .ok (ganZhi (12 * y + ((monthOrd m + (t % 12 + 1) - 1) % 12 + 1) % 12 + 1)) := by
    unfold getShenGong
    rw [am.getZhi, at'.getZhi]
    simp only [bind, Except.bind]
    rw [pos_eq, zhiPos_eq, hyg, whileSub_eq 12 (by decide) _ (by omega)]
    rw [show ((12 : ℕ) : ℤ) = 12 from rfl]
    have ho : 1 ≤ (monthOrd m + (t % 12 + 1) - 1) % 12 + 1 ∧ (monthOrd m + (t % 12 + 1) - 1) % 12 + 1 ≤ 12 := by omega
    generalize (monthOrd m + (t % 12 + 1) - 1) % 12 + 1 = o at ho ⊢
    rw [gan_at _ (by omega), monthZhi_at o ho.1 ho.2]
    show Except.ok [stem ((y % 10 + 1) * 2 + o % 12 - 1), branch (o + 1)] = _
    unfold ganZhi
    rw [hb]
    unfold stem
    rw [show ((y % 10 + 1) * 2 + o % 12 - 1) % 10 = (12 * y + o % 12 + 1) % 10 by omega]
  refine ⟨_, ?_, ?_, ?_, main, hb _, ?_⟩
  · omega
  · omega
  · omega
  · obtain ⟨s, h1, -⟩ := C64_naYin_phase (12 * y + ((monthOrd m + (t % 12 + 1) - 1) % 12 + 1) % 12 + 1)
    refine ⟨s, ?_⟩
    rw [main, ← h1]; rfl

/-! ## C36 -/

/-- **C36** the four pillars of a chart are pairs, with their Xun and XunKong. -/
theorem C36_chart (h : e.lunar.Proper) (p : Pos) : ∃ n, e.get p = .ok (ganZhi n) ∧
    (∃ x, e.getXun p = .ok x) ∧ (∃ x, e.getXunKong p = .ok x) := by
  obtain ⟨n, a⟩ := exists_at h p
  refine ⟨n, a.get, ?_, ?_⟩
  · refine ⟨ganZhi (10 * (n % 60 / 10)), ?_⟩
    unfold EightChar.getXun
    rw [a.get]
    exact C30_xun n
  · obtain ⟨x, y, -, hx, -⟩ := C30_xunKong n
    refine ⟨[branch x, branch y], ?_⟩
    unfold EightChar.getXunKong
    rw [a.get]
    exact hx

/-- **C36** Tai Yuan: stem one, branch three after those of the month. -/
theorem C36_taiYuan (h : e.lunar.Proper) (m : ℤ) (hm : e.get .month = .ok (ganZhi m)) :
    e.getTaiYuan = .ok (ganZhi (m + 51)) ∧ ganZhi (m + 51) = [stem (m + 1), branch (m + 3)] := by
  have a := at_of_get h hm
  have hg : e.lunar.monthGanIndexExact = m % 10 := a.gan
  have hz : e.lunar.monthZhiIndexExact = m % 12 := a.zhi
  have g2 : ganZhi (m + 51) = [stem (m + 1), branch (m + 3)] := by
    unfold ganZhi stem branch
    rw [show (m + 51) % 10 = (m + 1) % 10 by omega, show (m + 51) % 12 = (m + 3) % 12 by omega]
  refine ⟨?_, g2⟩
  unfold getTaiYuan
  dsimp only
  rw [hg, hz, gan_index (by split_ifs <;> omega) (by split_ifs <;> omega), zhi_index (by split_ifs <;> omega) (by split_ifs <;> omega), g2]
  show Except.ok [stem _, branch _] = _
  unfold stem branch
  rw [show (if m % 10 + 1 ≥ 10 then m % 10 + 1 - 10 else m % 10 + 1) % 10 = (m + 1) % 10 by split_ifs <;> omega,
    show (if m % 12 + 3 ≥ 12 then m % 12 + 3 - 12 else m % 12 + 3) % 12 = (m + 3) % 12 by split_ifs <;> omega]

/-- **C36** Tai Xi: the stem and the branch that combine with those of the day (甲己 ..., 子丑, 寅亥 ...). -/
theorem C36_taiXi (h : e.lunar.Proper) (d : ℤ) (hd : e.get .day = .ok (ganZhi d)) :
    e.getTaiXi = .ok (ganZhi (11 * d + 25)) ∧ ganZhi (11 * d + 25) = [stem (d + 5), branch (1 - d)] := by
  have a := at_of_get h hd
  have hg : e.getDayGanIndex = d % 10 := a.gan
  have hz : e.getDayZhiIndex = d % 12 := a.zhi
  have g2 : ganZhi (11 * d + 25) = [stem (d + 5), branch (1 - d)] := by
    unfold ganZhi stem branch
    rw [show (11 * d + 25) % 10 = (d + 5) % 10 by omega, show (11 * d + 25) % 12 = (1 - d) % 12 by omega]
  refine ⟨?_, g2⟩
  unfold getTaiXi
  rw [hg, hz, g2]
  have h1 := lift10 (P := fun k _ => pyIndex HE_GAN_5 k = .ok [stem (k + 5)]) (by decide +kernel) d
  have h2 := lift12 (P := fun k _ => pyIndex HE_ZHI_6 k = .ok [branch (1 - k)]) (by decide +kernel) d
  rw [h1, h2]
  show Except.ok [stem _, branch _] = _
  unfold stem branch
  rw [show (d % 10 + 5) % 10 = (d + 5) % 10 by omega, show (1 - d % 12) % 12 = (1 - d) % 12 by omega]

/-- the chart of 2024-02-04 23:30: 甲辰 丙寅 戊戌 甲子 -/
theorem sample_proper : sample.Proper :=
  ⟨sample_made, by decide, terms2024_table, by decide⟩

example : (fromLunar sample).toString = .ok "甲辰 丙寅 戊戌 甲子".toList ∧
    (fromLunar sample).getShiShenGan .year = .ok (some ['七', '杀']) ∧
    (fromLunar sample).getShiShenZhi .month = .ok [some ['七', '杀'], some ['偏', '印'], some ['比', '肩']] ∧
    (fromLunar sample).getDiShi .day = .ok ['墓'] ∧
    (fromLunar sample).getTaiYuan = .ok ['丁', '巳'] ∧ (fromLunar sample).getTaiXi = .ok ['癸', '卯'] := by
  decide +kernel

example : (fromLunar sample).getMingGong = .ok ['丁', '卯'] ∧ (fromLunar sample).getShenGong = .ok ['丁', '卯'] := by
  have y : (fromLunar sample).get .year = .ok (ganZhi 40) := by decide +kernel
  have m : (fromLunar sample).get .month = .ok (ganZhi 2) := by decide +kernel
  have t : (fromLunar sample).get .time = .ok (ganZhi 0) := by decide +kernel
  have m1 : monthOrd 2 = 1 := by decide
  have m2 : monthOrd 0 = 11 := by decide
  constructor
  · obtain ⟨o, h1, h2, h3, h4, -⟩ := C58_mingGong (e := fromLunar sample) sample_proper 40 2 0 y m t
    have : o = 2 := by omega
    subst this
    exact h4
  · obtain ⟨o, h1, h2, h3, h4, -⟩ := C58_shenGong (e := fromLunar sample) sample_proper 40 2 0 y m t
    have : o = 2 := by omega
    subst this
    exact h4

end
