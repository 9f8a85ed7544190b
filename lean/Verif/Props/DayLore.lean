import Verif.Proof.Cycles
import Verif.Proof.Keys
import Verif.Props.EightChar
import Verif.Props.GanZhi

/-! # C71-C77: traditional attributes of a day -/

section
open Spec LunarUtil Lunar

/-! ## C71: clash and evil -/

private theorem chong_num (n : ℤ) : pyIndex CHONG (n % 12) = .ok [branch (n + 6)] := by
  have := Cycle.mod (P := fun k => pyIndex CHONG k = .ok [branch (k + 6)]) 12 (by decide) (by decide +kernel) n
  rw [this, Cycle.branch_congr (by omega : (n % 12 + 6) % 12 = (n + 6) % 12)]

private theorem chongGan_num (n : ℤ) : pyIndex CHONG_GAN (n % 10) = .ok [stem (n - 6)] := by
  have := Cycle.mod (P := fun k => pyIndex CHONG_GAN k = .ok [stem (k - 6)]) 10 (by decide) (by decide +kernel) n
  rw [this, Cycle.stem_congr (by omega : (n % 10 - 6) % 10 = (n - 6) % 10)]

private theorem shengXiao_num (n : ℤ) : shengXiaoOf [branch n] = .ok [animal n] := by
  have := Cycle.mod (P := fun k => shengXiaoOf [branch k] = .ok [animal k]) 12 (by decide) (by decide +kernel) n
  rwa [Cycle.branch_congr (by omega : n % 12 % 12 = n % 12), Cycle.animal_congr (by omega : n % 12 % 12 = n % 12)] at this

private theorem sha_num (n : ℤ) : pyDict SHA [branch n] = .ok [sha n] := by
  have := Cycle.mod (P := fun k => pyDict SHA [branch k] = .ok [sha k]) 12 (by decide) (by decide +kernel) n
  rw [Cycle.branch_congr (by omega : n % 12 % 12 = n % 12)] at this
  rw [this]
  unfold sha
  rw [show n % 12 % 4 = n % 4 by omega]

private theorem tie_num (n : ℤ) : ∃ k, pyIndex CHONG_GAN_TIE (n % 10) = .ok [stem k] ∧ Overcomes (stemPhase n) (stemPhase k) ∧ (n - k) % 2 = 1 := by
  have key : ∀ i ∈ List.range 10, ∃ k ∈ List.range 10, pyIndex CHONG_GAN_TIE (i : ℤ) = .ok [stem (k : ℤ)] ∧
      ((stemPhase (k : ℤ)) % 5 = (stemPhase (i : ℤ) + 2) % 5) ∧ ((i : ℤ) - k) % 2 = 1 := by decide +kernel
  have := Cycle.mod (P := fun x => ∃ k ∈ List.range 10, pyIndex CHONG_GAN_TIE x = .ok [stem (k : ℤ)] ∧
      ((stemPhase (k : ℤ)) % 5 = (stemPhase x + 2) % 5) ∧ (x - k) % 2 = 1) 10 (by decide) key n
  obtain ⟨k, -, a, b, c⟩ := this
  refine ⟨k, a, ?_, by omega⟩
  unfold Overcomes
  rw [b]
  unfold stemPhase
  rw [show n % 10 % 10 = n % 10 by omega]

/-- **C71** what clashes with the day: the pillar six before (its branch is the opposite one, its stem is overcome by the
stem of the day, with the same polarity), the animal of that branch, the direction of the evil; the `Tie` stem is the one
that is overcome, with the other polarity -/
theorem C71_day (l : Lunar) (h : l.Proper) (n : ℤ) (hn : l.getDayInGanZhi = .ok (ganZhi n)) :
    (l.getDayChong = .ok [branch (n + 6)] ∧ l.getDayChongGan = .ok [stem (n - 6)]) ∧
    l.getDayChongShengXiao = .ok [animal (n + 6)] ∧
    l.getDayChongDesc = .ok (['('] ++ ganZhi (n - 6) ++ [')', animal (n + 6)]) ∧
    l.getDaySha = .ok [sha n] ∧
    ∃ k, l.getDayChongGanTie = .ok [stem k] ∧ Overcomes (stemPhase n) (stemPhase k) ∧ (n - k) % 2 = 1 := by
  obtain ⟨dg, dz⟩ := h.day hn
  have c1 : l.getDayChong = .ok [branch (n + 6)] := by unfold getDayChong; rw [dz]; exact chong_num n
  have c2 : l.getDayChongGan = .ok [stem (n - 6)] := by unfold getDayChongGan; rw [dg]; exact chongGan_num n
  have c3 : l.getDayChongShengXiao = .ok [animal (n + 6)] := by
    unfold getDayChongShengXiao
    rw [c1]
    exact shengXiao_num _
  refine ⟨⟨c1, c2⟩, c3, ?_, ?_, ?_⟩
  · unfold getDayChongDesc
    rw [c1, c2, c3]
    unfold ganZhi
    rw [Cycle.branch_congr (by omega : (n - 6) % 12 = (n + 6) % 12)]
    rfl
  · unfold getDaySha getDayZhi
    rw [dz, zhi_num]
    exact sha_num n
  · unfold getDayChongGanTie
    rw [dg]
    exact tie_num n

/-- **C71** the same for the hour -/
theorem C71_time (l : Lunar) (h : l.Proper) (n : ℤ) (hn : l.getTimeInGanZhi = .ok (ganZhi n)) :
    (l.getTimeChong = .ok [branch (n + 6)] ∧ l.getTimeChongGan = .ok [stem (n - 6)]) ∧
    l.getTimeChongShengXiao = .ok [animal (n + 6)] ∧
    l.getTimeChongDesc = .ok (['('] ++ ganZhi (n - 6) ++ [')', animal (n + 6)]) ∧
    l.getTimeSha = .ok [sha n] ∧
    ∃ k, l.getTimeChongGanTie = .ok [stem k] ∧ Overcomes (stemPhase n) (stemPhase k) ∧ (n - k) % 2 = 1 := by
  obtain ⟨dg, dz⟩ := h.time hn
  have c1 : l.getTimeChong = .ok [branch (n + 6)] := by unfold getTimeChong; rw [dz]; exact chong_num n
  have c2 : l.getTimeChongGan = .ok [stem (n - 6)] := by unfold getTimeChongGan; rw [dg]; exact chongGan_num n
  have c3 : l.getTimeChongShengXiao = .ok [animal (n + 6)] := by
    unfold getTimeChongShengXiao
    rw [c1]
    exact shengXiao_num _
  refine ⟨⟨c1, c2⟩, c3, ?_, ?_, ?_⟩
  · unfold getTimeChongDesc
    rw [c1, c2, c3]
    unfold ganZhi
    rw [Cycle.branch_congr (by omega : (n - 6) % 12 = (n + 6) % 12)]
    rfl
  · unfold getTimeSha getTimeZhi
    rw [dz, zhi_num]
    exact sha_num n
  · unfold getTimeChongGanTie
    rw [dg]
    exact tie_num n

/-- 2024-02-04 is a 戊戌 day: it clashes with (壬辰)龙, the evil is in the north -/
example : sample.getDayInGanZhi = .ok (ganZhi 34) ∧ sample.getDayChongDesc = .ok ['(', '壬', '辰', ')', '龙'] ∧
    sample.getDaySha = .ok ['北'] ∧ sample.getTimeChongDesc = .ok ['(', '戊', '午', ')', '马'] := by decide +kernel

/-! ## C72: the twelve officers -/

private theorem officer_num {d m a b : ℤ} (ha : a = d % 12) (hb : b = m % 12) :
    pyIndex ZHI_XING ((if a - b < 0 then a - b + 12 else a - b) + 1) = .ok [officer (d - m)] := by
  have e : (if a - b < 0 then a - b + 12 else a - b) = (d - m) % 12 := by split_ifs <;> omega
  rw [e]
  have := Cycle.mod (P := fun k => pyIndex ZHI_XING (k + 1) = .ok [officer k]) 12 (by decide) (by decide +kernel) (d - m)
  rw [this]
  unfold officer
  rw [show (d - m) % 12 % 12 = (d - m) % 12 by omega]

/-- **C72** the officer of a day: 建 when the branches of day and month agree, then on in order -/
theorem C72_officer (l : Lunar) (h : l.Proper) (d m : ℤ) (hd : l.getDayInGanZhi = .ok (ganZhi d))
    (hm : l.getMonthInGanZhi = .ok (ganZhi m)) : l.getZhiXing = .ok [officer (d - m)] := by
  unfold getZhiXing
  dsimp only
  exact officer_num (h.day hd).2 (h.month hm).2

/-- **C72** from one day to the next the officers go on by one inside a month, and stay when the month pillar goes on
(the day of a Jie repeats the officer of the day before) -/
theorem C72_next (l l' : Lunar) (h : l.Proper) (h' : l'.Proper) (hd : l'.solar.date = tomorrow l.solar.date)
    (m : ℤ) (hm : l.getMonthInGanZhi = .ok (ganZhi m)) :
    ∃ k, l.getZhiXing = .ok [officer k] ∧
      (l'.getMonthInGanZhi = .ok (ganZhi m) → l'.getZhiXing = .ok [officer (k + 1)]) ∧
      (l'.getMonthInGanZhi = .ok (ganZhi (m + 1)) → l'.getZhiXing = .ok [officer k]) := by
  obtain ⟨d, e1, e2⟩ := C31_advances l l' h.made h'.made (by have := h.range; omega) h'.range.2 hd
  refine ⟨d - m, C72_officer l h d m e1 hm, fun hm' => ?_, fun hm' => ?_⟩
  · rw [C72_officer l' h' (d + 1) m e2 hm', show d + 1 - m = d - m + 1 by ring]
  · rw [C72_officer l' h' (d + 1) (m + 1) e2 hm', show d + 1 - (m + 1) = d - m by ring]

/-- 2024-02-04 is a 戊戌 day of a 丙寅 month: 成 -/
example : sample.getZhiXing = .ok ['成'] ∧ sample.getMonthInGanZhi = .ok (ganZhi 2) := by decide +kernel

/-! ## C73: the twelve spirits -/

private theorem spirit_num (d m : ℤ) : (do pyIndex TIAN_SHEN ((d % 12 + (← pyDict ZHI_TIAN_SHEN_OFFSET [branch m])) % 12 + 1) : Except PyErr PyStr) =
    .ok (spirit (d - dragonBranch m)) := by
  have k1 := Cycle.mod (P := fun k => pyDict ZHI_TIAN_SHEN_OFFSET [branch k] = .ok (-dragonBranch k % 12)) 12 (by decide) (by decide +kernel) m
  rw [Cycle.branch_congr (by omega : m % 12 % 12 = m % 12),
    show dragonBranch (m % 12) = dragonBranch m by unfold dragonBranch; omega] at k1
  rw [k1]
  show pyIndex TIAN_SHEN ((d % 12 + -dragonBranch m % 12) % 12 + 1) = _
  rw [show (d % 12 + -dragonBranch m % 12) % 12 = (d - dragonBranch m) % 12 by omega]
  have k2 := Cycle.mod (P := fun k => pyIndex TIAN_SHEN (k + 1) = .ok (spirit k)) 12 (by decide) (by decide +kernel) (d - dragonBranch m)
  rw [k2]
  unfold spirit
  rw [show (d - dragonBranch m) % 12 % 12 = (d - dragonBranch m) % 12 by omega]

private theorem road_num (n : ℤ) : pyDict TIAN_SHEN_TYPE (spirit n) = .ok (if Yellow n then ['黄', '道'] else ['黑', '道']) := by
  have := Cycle.mod (P := fun k => pyDict TIAN_SHEN_TYPE (spirit k) = .ok (if Yellow k then ['黄', '道'] else ['黑', '道'])) 12
    (by decide) (by decide +kernel) n
  have e : spirit (n % 12) = spirit n := by unfold spirit; rw [show n % 12 % 12 = n % 12 by omega]
  have y : Yellow (n % 12) ↔ Yellow n := by unfold Yellow; rw [show n % 12 % 12 = n % 12 by omega]
  rw [e] at this
  simpa only [y] using this

private theorem luck_num (c : Prop) [Decidable c] : pyDict TIAN_SHEN_TYPE_LUCK (if c then ['黄', '道'] else ['黑', '道']) =
    .ok (if c then ['吉'] else ['凶']) := by
  split_ifs <;> decide +kernel

/-- **C73** the spirit of the day: 青龙 at the branch given by the month, the others in order after it; six of them are on
the yellow road and lucky, the others on the black road and unlucky -/
theorem C73_day (l : Lunar) (h : l.Proper) (d m : ℤ) (hd : l.getDayInGanZhi = .ok (ganZhi d)) (hm : l.getMonthInGanZhi = .ok (ganZhi m)) :
    l.getDayTianShen = .ok (spirit (d - dragonBranch m)) ∧
    l.getDayTianShenType = .ok (if Yellow (d - dragonBranch m) then ['黄', '道'] else ['黑', '道']) ∧
    l.getDayTianShenLuck = .ok (if Yellow (d - dragonBranch m) then ['吉'] else ['凶']) := by
  have c1 : l.getDayTianShen = .ok (spirit (d - dragonBranch m)) := by
    unfold getDayTianShen getMonthZhi
    rw [(h.month hm).2, zhi_num, (h.day hd).2]
    exact spirit_num d m
  have c2 : l.getDayTianShenType = .ok (if Yellow (d - dragonBranch m) then ['黄', '道'] else ['黑', '道']) := by
    unfold getDayTianShenType
    rw [c1]
    exact road_num _
  refine ⟨c1, c2, ?_⟩
  unfold getDayTianShenLuck
  rw [c2]
  exact luck_num _

/-- **C73** the spirit of the hour, by the branch of the day (which changes at 23:00) -/
theorem C73_time (l : Lunar) (h : l.Proper) (t d : ℤ) (ht : l.getTimeInGanZhi = .ok (ganZhi t)) (hd : l.getDayInGanZhiExact = .ok (ganZhi d)) :
    l.getTimeTianShen = .ok (spirit (t - dragonBranch d)) ∧
    l.getTimeTianShenType = .ok (if Yellow (t - dragonBranch d) then ['黄', '道'] else ['黑', '道']) ∧
    l.getTimeTianShenLuck = .ok (if Yellow (t - dragonBranch d) then ['吉'] else ['凶']) := by
  obtain ⟨y, yl, ye, m, me, d', de, t', N⟩ := h.numbers
  have hde : l.dayZhiIndexExact = d % 12 := (pair_bounds (by rw [N.deg]; omega) (by rw [N.deg]; omega) (by rw [N.dez]; omega) (by rw [N.dez]; omega) hd).2
  have c1 : l.getTimeTianShen = .ok (spirit (t - dragonBranch d)) := by
    unfold getTimeTianShen getDayZhiExact
    rw [hde, zhi_num, (h.time ht).2]
    exact spirit_num t d
  have c2 : l.getTimeTianShenType = .ok (if Yellow (t - dragonBranch d) then ['黄', '道'] else ['黑', '道']) := by
    unfold getTimeTianShenType
    rw [c1]
    exact road_num _
  refine ⟨c1, c2, ?_⟩
  unfold getTimeTianShenLuck
  rw [c2]
  exact luck_num _

/-- 戊戌 in a 寅 month: 司命, on the yellow road; the 子 hour of the 己亥 day beginning at 23:00: 白虎 -/
example : sample.getDayTianShen = .ok ['司', '命'] ∧ sample.getDayTianShenLuck = .ok ['吉'] ∧
    sample.getTimeTianShen = .ok ['白', '虎'] ∧ sample.getTimeTianShenType = .ok ['黑', '道'] := by decide +kernel

/-! ## C74: directions of the gods -/

private theorem desc_num (k : ℤ) : pyDict POSITION_DESC [trigram k] = .ok (direction k) := by
  have := Cycle.mod (P := fun k => pyDict POSITION_DESC [trigram k] = .ok (direction k)) 8 (by decide) (by decide +kernel) k
  unfold trigram direction at *
  rwa [show k % 8 % 8 = k % 8 by omega] at this

private theorem ten {T : List PyStr} {f : ℤ → ℤ} (hf : ∀ n, f (n % 10) = f n)
    (h : ∀ i ∈ List.range 10, pyIndex T ((i : ℤ) + 1) = .ok [trigram (f (i : ℤ))]) (n : ℤ) : pyIndex T (n % 10 + 1) = .ok [trigram (f n)] := by
  have := Cycle.mod (P := fun k => pyIndex T (k + 1) = .ok [trigram (f k)]) 10 (by decide) h n
  rwa [hf] at this

theorem xi_num (n : ℤ) : pyIndex POSITION_XI (n % 10 + 1) = .ok [trigram (joy n)] :=
  ten (fun n => by unfold joy; rw [show n % 10 % 5 = n % 5 by omega]) (by decide +kernel) n
theorem cai_num (n : ℤ) : pyIndex POSITION_CAI (n % 10 + 1) = .ok [trigram (wealth n)] :=
  ten (fun n => by unfold wealth; rw [show n % 10 % 10 = n % 10 by omega]) (by decide +kernel) n
theorem fu_num (n : ℤ) : pyIndex POSITION_FU_2 (n % 10 + 1) = .ok [trigram (fortune n)] :=
  ten (fun n => by unfold fortune; rw [show n % 10 % 5 = n % 5 by omega]) (by decide +kernel) n
theorem fu1_num (n : ℤ) : pyIndex POSITION_FU (n % 10 + 1) = .ok [trigram (fortune1 n)] :=
  ten (fun n => by unfold fortune1; rw [show n % 10 % 10 = n % 10 by omega]) (by decide +kernel) n
theorem yang_num (n : ℤ) : pyIndex POSITION_YANG_GUI (n % 10 + 1) = .ok [trigram (nobleDay n)] :=
  ten (fun n => by unfold nobleDay; rw [show n % 10 % 10 = n % 10 by omega]) (by decide +kernel) n
theorem yin_num (n : ℤ) : pyIndex POSITION_YIN_GUI (n % 10 + 1) = .ok [trigram (nobleDay (nobleMate n))] :=
  ten (f := fun n => nobleDay (nobleMate n)) (fun n => by unfold nobleMate; rw [show n % 10 % 10 = n % 10 by omega]) (by decide +kernel) n

/-- a getter of a position and its description -/
def Stands (p d : Except PyErr PyStr) (k : ℤ) : Prop := p = .ok [trigram k] ∧ d = .ok (direction k)

theorem stands {p d : Except PyErr PyStr} {k : ℤ} (h : p = .ok [trigram k]) (hd : d = desc p) : Stands p d k := by
  refine ⟨h, ?_⟩
  rw [hd, h]
  exact desc_num k

/-- **C74** the directions of the gods of joy, wealth and fortune and of the two nobles follow the stem of the day; the
noble of the night is that of the day of the stem sharing its line of the song.  The descriptions name the direction of the
trigram. -/
theorem C74_day (l : Lunar) (h : l.Proper) (n : ℤ) (hn : l.getDayInGanZhi = .ok (ganZhi n)) :
    Stands l.getDayPositionXi l.getDayPositionXiDesc (joy n) ∧ Stands l.getDayPositionCai l.getDayPositionCaiDesc (wealth n) ∧
    (∀ sect, Stands (l.getDayPositionFu sect) (l.getDayPositionFuDesc sect) (if sect = 1 then fortune1 n else fortune n)) ∧
    Stands l.getDayPositionYangGui l.getDayPositionYangGuiDesc (nobleDay n) ∧
    Stands l.getDayPositionYinGui l.getDayPositionYinGuiDesc (nobleDay (nobleMate n)) := by
  obtain ⟨dg, -⟩ := h.day hn
  refine ⟨stands ?_ rfl, stands ?_ rfl, fun sect => stands ?_ rfl, stands ?_ rfl, stands ?_ rfl⟩
  · unfold getDayPositionXi; rw [dg]; exact xi_num n
  · unfold getDayPositionCai; rw [dg]; exact cai_num n
  · unfold getDayPositionFu
    rw [dg]
    by_cases c : sect = 1
    · rw [if_pos c, if_pos c.symm]; exact fu1_num n
    · rw [if_neg c, if_neg (show ¬ 1 = sect from fun e => c e.symm)]; exact fu_num n
  · unfold getDayPositionYangGui; rw [dg]; exact yang_num n
  · unfold getDayPositionYinGui; rw [dg]; exact yin_num n

/-- **C74** the same for the hour -/
theorem C74_time (l : Lunar) (h : l.Proper) (n : ℤ) (hn : l.getTimeInGanZhi = .ok (ganZhi n)) :
    Stands l.getTimePositionXi l.getTimePositionXiDesc (joy n) ∧ Stands l.getTimePositionCai l.getTimePositionCaiDesc (wealth n) ∧
    (∀ sect, Stands (l.getTimePositionFu sect) (l.getTimePositionFuDesc sect) (if sect = 1 then fortune1 n else fortune n)) ∧
    Stands l.getTimePositionYangGui l.getTimePositionYangGuiDesc (nobleDay n) ∧
    Stands l.getTimePositionYinGui l.getTimePositionYinGuiDesc (nobleDay (nobleMate n)) := by
  obtain ⟨dg, -⟩ := h.time hn
  refine ⟨stands ?_ rfl, stands ?_ rfl, fun sect => stands ?_ rfl, stands ?_ rfl, stands ?_ rfl⟩
  · unfold getTimePositionXi; rw [dg]; exact xi_num n
  · unfold getTimePositionCai; rw [dg]; exact cai_num n
  · unfold getTimePositionFu
    rw [dg]
    by_cases c : sect = 1
    · rw [if_pos c, if_pos c.symm]; exact fu1_num n
    · rw [if_neg c, if_neg (show ¬ 1 = sect from fun e => c e.symm)]; exact fu_num n
  · unfold getTimePositionYangGui; rw [dg]; exact yang_num n
  · unfold getTimePositionYinGui; rw [dg]; exact yin_num n

/-- a 戊 day -/
example : sample.getDayPositionXiDesc = .ok ['东', '南'] ∧ sample.getDayPositionFuDesc = .ok ['东', '北'] ∧
    sample.getDayPositionFuDesc 1 = .ok ['正', '北'] ∧ sample.getDayPositionYinGui = .ok ['坤'] := by decide +kernel

/-! ## C75: the great year god -/

private theorem taiSuiYear_congr {a b : ℤ} (h : a % 12 = b % 12) : taiSuiYear a = taiSuiYear b := by unfold taiSuiYear; rw [h]

theorem yearPlace_num (n : ℤ) : pyIndex POSITION_TAI_SUI_YEAR (n % 12) = .ok [taiSuiYear n] := by
  have := Cycle.mod (P := fun k => pyIndex POSITION_TAI_SUI_YEAR k = .ok [taiSuiYear k]) 12 (by decide) (by decide +kernel) n
  rwa [taiSuiYear_congr (by omega : n % 12 % 12 = n % 12)] at this

private theorem monthPlace_num (n : ℤ) : monthPositionTaiSui (n % 12) (n % 10) = .ok [taiSuiMonth n] := by
  have := Cycle.mod (P := fun k => monthPositionTaiSui (k % 12) (k % 10) = .ok [taiSuiMonth k]) 60 (by decide) (by decide +kernel) n
  rw [show n % 60 % 12 = n % 12 by omega, show n % 60 % 10 = n % 10 by omega] at this
  rw [this]
  unfold taiSuiMonth stemPlace
  rw [show n % 60 % 4 = n % 4 by omega, show n % 60 % 10 = n % 10 by omega]

private theorem dayPlace_num (n y : ℤ) (h : n % 60 ≠ 5 ∧ n % 60 ≠ 15 ∧ n % 60 ≠ 25) :
    dayPositionTaiSui (ganZhi n) (y % 12) = .ok [taiSuiDay y n] := by
  have k1 : ∀ i ∈ List.range 60, (i ≠ 5 ∧ i ≠ 15 ∧ i ≠ 25) → ∀ j ∈ List.range 12,
      dayPositionTaiSui (ganZhi (i : ℤ)) (j : ℤ) = .ok [taiSuiDay (j : ℤ) (i : ℤ)] := by decide +kernel
  have k2 := k1 (n % 60).toNat (by rw [List.mem_range]; omega) (by omega) (y % 12).toNat (by rw [List.mem_range]; omega)
  rw [show ((n % 60).toNat : ℤ) = n % 60 by omega, show ((y % 12).toNat : ℤ) = y % 12 by omega] at k2
  have e : ganZhi (n % 60) = ganZhi n := by
    unfold ganZhi
    rw [Cycle.stem_congr (by omega : n % 60 % 10 = n % 10), Cycle.branch_congr (by omega : n % 60 % 12 = n % 12)]
  rw [e] at k2
  rw [k2]
  unfold taiSuiDay
  rw [show n % 60 % 12 = n % 12 by omega, show n % 60 % 60 = n % 60 by omega, taiSuiYear_congr (by omega : y % 12 % 12 = y % 12)]

private theorem place_num {c : Char} (h : c ∈ '中' :: trigrams) : pyDict POSITION_DESC [c] = .ok (place c) := by
  have : ∀ c ∈ '中' :: trigrams, pyDict POSITION_DESC [c] = .ok (place c) := by decide +kernel
  exact this c h

theorem taiSuiYear_mem (n : ℤ) : taiSuiYear n ∈ '中' :: trigrams := by
  have := Cycle.mod (P := fun k => taiSuiYear k ∈ '中' :: trigrams) 12 (by decide) (by decide +kernel) n
  rwa [taiSuiYear_congr (by omega : n % 12 % 12 = n % 12)] at this

theorem five_mem {k : ℤ} (h : 0 ≤ k ∧ k < 5) : ['震', '离', '中', '兑', '坎'].getD k.toNat '?' ∈ '中' :: trigrams := by
  have := Cycle.mod (P := fun k => ['震', '离', '中', '兑', '坎'].getD k.toNat '?' ∈ '中' :: trigrams) 5 (by decide) (by decide +kernel) k
  rwa [show k % 5 = k by omega] at this

/-- a getter of a place and its description -/
def StandsAt (p d : Except PyErr PyStr) (c : Char) : Prop := p = .ok [c] ∧ d = .ok (place c)

theorem standsAt {p d : Except PyErr PyStr} {c : Char} (h : p = .ok [c]) (hd : d = desc p) (hc : c ∈ '中' :: trigrams) :
    StandsAt p d c := by
  refine ⟨h, ?_⟩
  rw [hd, h]
  exact place_num hc

/-- **C75** the place of the great year god for the year, with each of the three beginnings of the year -/
theorem C75_year (l : Lunar) (h : l.Proper) (sect y : ℤ)
    (hy : (if sect = 1 then l.getYearInGanZhi else if sect = 3 then l.getYearInGanZhiExact else l.getYearInGanZhiByLiChun) = .ok (ganZhi y)) :
    StandsAt (l.getYearPositionTaiSui sect) (l.getYearPositionTaiSuiDesc sect) (taiSuiYear y) := by
  obtain ⟨y1, y2, y3, m, me, d, de, t, N⟩ := h.numbers
  refine standsAt ?_ rfl (taiSuiYear_mem y)
  unfold getYearPositionTaiSui
  by_cases c1 : sect = 1
  · rw [if_pos c1] at hy
    have := (pair_bounds (by rw [N.yg]; omega) (by rw [N.yg]; omega) (by rw [N.yz]; omega) (by rw [N.yz]; omega) hy).2
    rw [if_pos c1.symm, this]
    exact yearPlace_num y
  · rw [if_neg c1] at hy
    rw [if_neg (show ¬ 1 = sect from fun e => c1 e.symm)]
    by_cases c3 : sect = 3
    · rw [if_pos c3] at hy
      have := (pair_bounds (by rw [N.yeg]; omega) (by rw [N.yeg]; omega) (by rw [N.yez]; omega) (by rw [N.yez]; omega) hy).2
      rw [if_pos c3.symm, this]
      exact yearPlace_num y
    · rw [if_neg c3] at hy
      have := (pair_bounds (by rw [N.ylg]; omega) (by rw [N.ylg]; omega) (by rw [N.ylz]; omega) (by rw [N.ylz]; omega) hy).2
      rw [if_neg (show ¬ 3 = sect from fun e => c3 e.symm), this]
      exact yearPlace_num y

/-- **C75** the same for the month -/
theorem C75_month (l : Lunar) (h : l.Proper) (sect m : ℤ)
    (hm : (if sect = 3 then l.getMonthInGanZhiExact else l.getMonthInGanZhi) = .ok (ganZhi m)) :
    StandsAt (l.getMonthPositionTaiSui sect) (l.getMonthPositionTaiSuiDesc sect) (taiSuiMonth m) := by
  obtain ⟨y1, y2, y3, m', me, d, de, t, N⟩ := h.numbers
  refine standsAt ?_ rfl ?_
  · unfold getMonthPositionTaiSui
    by_cases c3 : sect = 3
    · rw [if_pos c3] at hm
      have := pair_bounds (by rw [N.meg]; omega) (by rw [N.meg]; omega) (by rw [N.mez]; omega) (by rw [N.mez]; omega) hm
      rw [if_pos c3.symm, this.1, this.2]
      exact monthPlace_num m
    · rw [if_neg c3] at hm
      rw [if_neg (show ¬ 3 = sect from fun e => c3 e.symm), (h.month hm).1, (h.month hm).2]
      exact monthPlace_num m
  · unfold taiSuiMonth
    split_ifs
    · decide
    · decide
    · decide
    · exact five_mem (by omega)

/-- **C75** the same for the day, for every day of the sixty but 己巳, 己卯 and 己丑 (partial: on these three days the code
gives the place of the year, because its lists have the character 已 for 己) -/
theorem C75_day_partial (l : Lunar) (h : l.Proper) (sect y n : ℤ) (hn : l.getDayInGanZhi = .ok (ganZhi n))
    (hy : (if sect = 1 then l.getYearInGanZhi else if sect = 3 then l.getYearInGanZhiExact else l.getYearInGanZhiByLiChun) = .ok (ganZhi y))
    (ne : n % 60 ≠ 5 ∧ n % 60 ≠ 15 ∧ n % 60 ≠ 25) :
    StandsAt (l.getDayPositionTaiSui sect) (l.getDayPositionTaiSuiDesc sect) (taiSuiDay y n) := by
  obtain ⟨y1, y2, y3, m, me, d, de, t, N⟩ := h.numbers
  have hd := h.day hn
  have h2 : l.getDayInGanZhiExact2 = .ok (ganZhi n) := by
    rw [← hn]
    unfold getDayInGanZhiExact2 getDayInGanZhi
    rw [N.d2g, N.d2z, N.dg, N.dz]
  refine standsAt ?_ rfl ?_
  · unfold getDayPositionTaiSui
    by_cases c1 : sect = 1
    · rw [if_pos c1] at hy
      have := (pair_bounds (by rw [N.yg]; omega) (by rw [N.yg]; omega) (by rw [N.yz]; omega) (by rw [N.yz]; omega) hy).2
      rw [if_pos c1.symm, hn, this]
      exact dayPlace_num n y ne
    · rw [if_neg c1] at hy
      rw [if_neg (show ¬ 1 = sect from fun e => c1 e.symm)]
      by_cases c3 : sect = 3
      · rw [if_pos c3] at hy
        have := (pair_bounds (by rw [N.yeg]; omega) (by rw [N.yeg]; omega) (by rw [N.yez]; omega) (by rw [N.yez]; omega) hy).2
        rw [if_pos c3.symm, hn, this]
        exact dayPlace_num n y ne
      · rw [if_neg c3] at hy
        have := (pair_bounds (by rw [N.ylg]; omega) (by rw [N.ylg]; omega) (by rw [N.ylz]; omega) (by rw [N.ylz]; omega) hy).2
        rw [if_neg (show ¬ 3 = sect from fun e => c3 e.symm), h2, this]
        exact dayPlace_num n y ne
  · unfold taiSuiDay
    split_ifs
    · exact five_mem (by omega)
    · exact taiSuiYear_mem y

/-- the sample date: the year god of 癸卯 (before the new year) in the east, of 甲辰 (after 立春) in the southeast -/
example : sample.getYearPositionTaiSuiDesc 1 = .ok ['正', '东'] ∧ sample.getYearPositionTaiSuiDesc = .ok ['东', '南'] ∧
    sample.getMonthPositionTaiSui = .ok ['艮'] ∧ sample.getDayPositionTaiSuiDesc = .ok ['东', '南'] := by decide +kernel

/-- the lunar date of 2024-03-06 12:00 (2024 first month 26), a 己巳 day -/
def sampleJiSi : Lunar :=
  { year := 2024, month := 1, day := 26, hour := 12, minute := 0, second := 0
    solar := ⟨2024, 3, 6, 12, 0, 0⟩, jieQi := terms2024
    yearGanIndex := 0, yearZhiIndex := 4, yearGanIndexByLiChun := 0, yearZhiIndexByLiChun := 4
    yearGanIndexExact := 0, yearZhiIndexExact := 4, monthGanIndex := 3, monthZhiIndex := 3
    monthGanIndexExact := 3, monthZhiIndexExact := 3, dayGanIndex := 5, dayZhiIndex := 5
    dayGanIndexExact := 5, dayZhiIndexExact := 5, dayGanIndexExact2 := 5, dayZhiIndexExact2 := 5
    timeGanIndex := 6, timeZhiIndex := 6, weekIndex := 3 }

theorem sampleJiSi_proper : sampleJiSi.Proper := by
  refine ⟨⟨by decide, ?_⟩, by decide, terms2024_table, by decide⟩
  have hv : (⟨2024, 3, 6, 12, 0, 0⟩ : Solar).Valid := by decide
  have e1 := dayOffset_eq hv (by decide) (by decide)
  have e2 := JD.getWeek_eq hv (by decide) (by decide)
  have e3 : JD.jdn (⟨2024, 3, 6, 12, 0, 0⟩ : Solar).date = 2460376 := by decide
  rw [e3] at e1 e2
  unfold compute
  simp only [sampleJiSi]
  rw [e1, e2]
  decide +kernel

/-- **C75** the property as stated is false: on 2024-03-06, a 己巳 day of a 甲辰 year, the place is not east (震) as for the
other days of 甲子 … 戊辰, but that of the year -/
theorem C75_day_violated : ∃ l : Lunar, l.Proper ∧ l.getDayInGanZhi = .ok (ganZhi 5) ∧ l.getYearInGanZhiByLiChun = .ok (ganZhi 40) ∧
    taiSuiDay 40 5 = '震' ∧ l.getDayPositionTaiSui = .ok ['巽'] :=
  ⟨sampleJiSi, sampleJiSi_proper, by decide +kernel⟩

/-! ## C76: things told by the lunar day -/

/-- **C76** the six days: the 1st of months 1 and 7 is 先胜, of 2 and 8 友引 and so on; then one further each day (leap
months as the month before) -/
theorem C76_six_days (l : Lunar) : l.getLiuYao = .ok (sixDay (|l.month| - 1 + (l.day - 1))) := by
  unfold getLiuYao
  rw [show |l.month| + l.day - 2 = |l.month| - 1 + (l.day - 1) by ring]
  generalize |l.month| - 1 + (l.day - 1) = k
  have := Cycle.mod (P := fun k => pyIndex LIU_YAO k = .ok (sixDay k)) 6 (by decide) (by decide +kernel) k
  rw [this]
  unfold sixDay
  rw [show k % 6 % 6 = k % 6 by omega]

/-- **C76** the phase of the moon is told on each of the thirty days; new moon on the 1st, full moon on the 15th, quarters on
the 7th and 8th, the 22nd and 23rd, the dark moon on the 30th, and on no other day -/
theorem C76_phase (l : Lunar) (h : 1 ≤ l.day ∧ l.day ≤ 30) : ∃ s, l.getYueXiang = .ok s ∧
    (s = ['朔'] ↔ l.day = 1) ∧ (s = ['上', '弦'] ↔ l.day = 7 ∨ l.day = 8) ∧ (s = ['望'] ↔ l.day = 15) ∧
    (s = ['下', '弦'] ↔ l.day = 22 ∨ l.day = 23) ∧ (s = ['晦'] ↔ l.day = 30) := by
  unfold getYueXiang
  generalize l.day = d at *
  have key : ∀ i ∈ List.range 30, ∃ s ∈ YUE_XIANG, pyIndex YUE_XIANG ((i : ℤ) + 1) = .ok s ∧
      (s = ['朔'] ↔ (i : ℤ) + 1 = 1) ∧ (s = ['上', '弦'] ↔ (i : ℤ) + 1 = 7 ∨ (i : ℤ) + 1 = 8) ∧ (s = ['望'] ↔ (i : ℤ) + 1 = 15) ∧
      (s = ['下', '弦'] ↔ (i : ℤ) + 1 = 22 ∨ (i : ℤ) + 1 = 23) ∧ (s = ['晦'] ↔ (i : ℤ) + 1 = 30) := by decide +kernel
  obtain ⟨s, -, k⟩ := key (d - 1).toNat (by rw [List.mem_range]; omega)
  rw [show ((d - 1).toNat : ℤ) + 1 = d by omega] at k
  exact ⟨s, k⟩

/-- **C76** the season: three months each, 孟 仲 季 of spring, summer, autumn, winter -/
theorem C76_season (l : Lunar) (h : 1 ≤ |l.month| ∧ |l.month| ≤ 12) :
    l.getSeason = .ok [['孟', '仲', '季'].getD ((|l.month| - 1) % 3).toNat '?', ['春', '夏', '秋', '冬'].getD ((|l.month| - 1) / 3).toNat '?'] := by
  unfold getSeason
  generalize |l.month| = m at *
  have key : ∀ i ∈ List.range 12, pyIndex SEASON ((i : ℤ) + 1) =
      .ok [['孟', '仲', '季'].getD (((i : ℤ) + 1 - 1) % 3).toNat '?', ['春', '夏', '秋', '冬'].getD (((i : ℤ) + 1 - 1) / 3).toNat '?'] := by decide +kernel
  have k := key (m - 1).toNat (by rw [List.mem_range]; omega)
  rwa [show ((m - 1).toNat : ℤ) + 1 = m by omega] at k

/-- **C76** the salary of the day: the branch where the stem of the day has its salary, and the stems whose salary is at the
branch of the day, if there are any -/
theorem C76_salary (l : Lunar) (h : l.Proper) (n : ℤ) (hn : l.getDayInGanZhi = .ok (ganZhi n)) :
    l.getDayLu = .ok (branch (luBranch n) :: ['命', '互', '禄'] ++
      if n % 3 = 1 then [] else [' '] ++ luStems n ++ ['命', '进', '禄']) := by
  obtain ⟨dg, dz⟩ := h.day hn
  unfold getDayLu getDayGan getDayZhi
  rw [dg, dz, gan_num, zhi_num]
  have k1 := Cycle.mod (P := fun k => pyDict LU [stem k] = .ok [branch (luBranch k)]) 10 (by decide) (by decide +kernel) n
  rw [Cycle.stem_congr (by omega : n % 10 % 10 = n % 10), show luBranch (n % 10) = luBranch n by unfold luBranch; rw [show n % 10 % 10 = n % 10 by omega]] at k1
  have k2 := Cycle.mod (P := fun k => pyDictGet LU [branch k] = if k % 3 = 1 then none else some (luStems k)) 12 (by decide) (by decide +kernel) n
  rw [Cycle.branch_congr (by omega : n % 12 % 12 = n % 12), show n % 12 % 3 = n % 3 by omega,
    show luStems (n % 12) = luStems n by unfold luStems; rw [show n % 12 % 12 = n % 12 by omega]] at k2
  show (do
    let gan ← pyDict LU [stem n]
    let zhi := pyDictGet LU [branch n]
    let lu := gan ++ ['命', '互', '禄']
    return match zhi with
      | some z => lu ++ [' '] ++ z ++ ['命', '进', '禄']
      | none => lu : Except PyErr PyStr) = _
  rw [k1, k2]
  by_cases c : n % 3 = 1
  · simp only [if_pos c]; rfl
  · simp only [if_neg c]
    show Except.ok _ = Except.ok _
    simp

/-- lunar 2023-12-25, 戊戌: 戊 has its salary at 巳, no stem at 戌 -/
example : sample.getLiuYao = .ok ['赤', '口'] ∧ sample.getSeason = .ok ['季', '冬'] ∧ sample.getYueXiang = .ok ['有', '明'] ∧
    sample.getDayLu = .ok ['巳', '命', '互', '禄'] := by decide +kernel

/-! ## C77: the womb god -/

/-- **C77** the place of the womb god of the day: the thing named by the stem and the thing named by the branch, and its round of
the sixty days through the directions outside and inside the house -/
theorem C77_day (l : Lunar) (n : ℤ) (hn : l.getDayInGanZhi = .ok (ganZhi n)) :
    l.getDayPositionTai = .ok (womb n ++ [' '] ++ wombPlace n) := by
  unfold getDayPositionTai
  rw [hn]
  have := Cycle.mod (P := fun k => pyIndex POSITION_TAI_DAY (getJiaZiIndex (ganZhi k)) = .ok (womb k ++ [' '] ++ wombPlace k)) 60
    (by decide) (by decide +kernel) n
  have e : ganZhi (n % 60) = ganZhi n := by
    unfold ganZhi
    rw [Cycle.stem_congr (by omega : n % 60 % 10 = n % 10), Cycle.branch_congr (by omega : n % 60 % 12 = n % 12)]
  have w : womb (n % 60) = womb n := by
    unfold womb wombBranch wombStem
    rw [show n % 60 % 5 = n % 5 by omega, show n % 60 % 6 = n % 6 by omega]
  have p : wombPlace (n % 60) = wombPlace n := by unfold wombPlace; rw [show n % 60 % 60 = n % 60 by omega]
  rw [e, w, p] at this
  exact this

/-- **C77** the place of the month is told in the twelve months and not in leap months -/
theorem C77_month (l : Lunar) (h : 1 ≤ |l.month| ∧ |l.month| ≤ 12) : ∃ s, l.getMonthPositionTai = .ok s ∧ (s = [] ↔ l.month < 0) := by
  unfold getMonthPositionTai
  by_cases c : l.month < 0
  · rw [if_pos c]; exact ⟨[], rfl, by simp [c]⟩
  · rw [if_neg c]
    rw [abs_of_nonneg (by omega)] at h
    have key : ∀ i ∈ List.range 12, ∃ s ∈ POSITION_TAI_MONTH, pyIndex POSITION_TAI_MONTH (i : ℤ) = .ok s ∧ s ≠ [] := by decide +kernel
    obtain ⟨s, -, k1, k2⟩ := key (l.month - 1).toNat (by rw [List.mem_range]; omega)
    rw [show ((l.month - 1).toNat : ℤ) = l.month - 1 by omega] at k1
    exact ⟨s, k1, by simp [c, k2]⟩

example : sample.getDayPositionTai = .ok ['房', '床', '栖', ' ', '房', '内', '中'] ∧ sample.getMonthPositionTai = .ok ['占', '房', '床'] := by
  decide +kernel

end
