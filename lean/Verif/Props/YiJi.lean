import Verif.Proof.LunarDay
import Verif.Proof.YiJiRecords
import Verif.Props.EightChar
import Verif.Props.GanZhi

/-! # C54: the daily and hourly lists of the almanac -/

section
open Spec LunarUtil Packed YiJi

private theorem yj_nodup : YI_JI.Nodup := by decide +kernel
private theorem ss_nodup : SHEN_SHA.Nodup := by decide +kernel
private theorem yj_none : YI_JI.getD 141 [] = ['无'] := by decide +kernel
private theorem ss_none : SHEN_SHA.getD 0 [] = ['无'] := by decide +kernel

private theorem getD_mem {T : List PyStr} {b : ℕ} (h : b < T.length) : T.getD b [] ∈ T := by
  rw [List.getD_eq_getElem?_getD, List.getElem?_eq_getElem h]
  exact List.getElem_mem h

private theorem getD_inj {T : List PyStr} (hT : T.Nodup) {a b : ℕ} (ha : a < T.length) (hb : b < T.length)
    (h : T.getD a [] = T.getD b []) : a = b := by
  rw [List.getD_eq_getElem?_getD, List.getElem?_eq_getElem ha, List.getD_eq_getElem?_getD, List.getElem?_eq_getElem hb] at h
  exact (List.Nodup.getElem_inj_iff hT).1 h

private theorem names_known {T : List PyStr} {n : ℕ} (h : ∀ b ∈ bytes n, b < T.length) : ∀ x ∈ namesOf T n, x ∈ T := by
  intro x hx
  obtain ⟨b, hb, rfl⟩ := List.mem_map.1 hx
  exact getD_mem (h b hb)

private theorem names_nodup {T : List PyStr} {n : ℕ} (hT : T.Nodup) (h : ∀ b ∈ bytes n, b < T.length) (hn : (bytes n).Nodup) :
    (namesOf T n).Nodup :=
  List.Nodup.map_on (fun a ha b hb e => getD_inj hT (h a ha) (h b hb) e) hn

private theorem names_none {T : List PyStr} {n k : ℕ} (hT : T.Nodup) (hk : k < T.length) (h : ∀ b ∈ bytes n, b < T.length)
    (e : T.getD k [] = ['无']) (hn : k ∈ bytes n → bytes n = [k]) : ['无'] ∈ namesOf T n → namesOf T n = [['无']] := by
  intro hx
  obtain ⟨b, hb, hx⟩ := List.mem_map.1 hx
  have := getD_inj hT (h b hb) hk (hx.trans e.symm)
  subst this
  unfold namesOf
  rw [hn hb, List.map_singleton, e]

private theorem names_apart {T : List PyStr} {n m : ℕ} (hT : T.Nodup) (h : ∀ b ∈ bytes n, b < T.length) (h' : ∀ b ∈ bytes m, b < T.length)
    (hd : ∀ b ∈ bytes n, b ∉ bytes m) : ∀ x ∈ namesOf T n, x ∉ namesOf T m := by
  intro x hx hx'
  obtain ⟨b, hb, rfl⟩ := List.mem_map.1 hx
  obtain ⟨c, hc, e⟩ := List.mem_map.1 hx'
  exact hd b hb (getD_inj hT (h' c hc) (h b hb) e ▸ hc)

private theorem names_ne {T : List PyStr} {n : ℕ} (h : bytes n ≠ []) : namesOf T n ≠ [] := by
  unfold namesOf
  simpa using h

/-- the same, of lists that may be empty and are then 无 -/
private theorem lists_orNone {T : List PyStr} {n m k : ℕ} (hT : T.Nodup) (hk : k < T.length) (h : ∀ b ∈ bytes n, b < T.length)
    (h' : ∀ b ∈ bytes m, b < T.length) (e : T.getD k [] = ['无']) (hn : k ∈ bytes n → bytes n = [k]) (hm : k ∈ bytes m → bytes m = [k])
    (hd : ∀ b ∈ bytes n, b ∉ bytes m) : Lists T (namesOrNone T n) (namesOrNone T m) := by
  have known : ∀ {n : ℕ}, (∀ b ∈ bytes n, b < T.length) → ∀ x ∈ namesOrNone T n, x ∈ T := by
    intro n h x hx
    unfold namesOrNone at hx
    split at hx
    · rw [List.mem_singleton] at hx
      rw [hx, ← e]
      exact getD_mem hk
    · exact names_known h x hx
  have ne : ∀ {n : ℕ}, namesOrNone T n ≠ [] := by
    intro n
    unfold namesOrNone
    split
    · simp
    · exact names_ne ‹_›
  have none : ∀ {n : ℕ}, (∀ b ∈ bytes n, b < T.length) → (k ∈ bytes n → bytes n = [k]) → ['无'] ∈ namesOrNone T n → namesOrNone T n = [['无']] := by
    intro n h hn
    unfold namesOrNone
    split
    · intro _; rfl
    · exact names_none hT hk h e hn
  refine ⟨ne, ne, known h, known h', ?_, none h hn, none h' hm⟩
  intro x hx hx'
  unfold namesOrNone at hx hx'
  split at hx
  · exact List.mem_singleton.1 hx
  · split at hx'
    · exact List.mem_singleton.1 hx'
    · exact absurd hx' (names_apart hT h h' hd x hx)

private theorem orNone_ne {T : List PyStr} {n : ℕ} (h : bytes n ≠ []) : namesOrNone T n = namesOf T n := by
  unfold namesOrNone
  rw [if_neg h]

private theorem num (n : ℤ) : ((n % 60).toNat : ℤ) = n % 60 ∧ (n % 60).toNat < 60 := by omega

/-! ## days -/

private def yiOf : Option PyStr → Except PyErr (List PyStr)
  | none => .ok (orNone [])
  | some left => decode YI_JI (pySlice left (pyFindI [':'] left + 1) (pyFindI [','] left)) >>= fun x => pure (orNone x)

private def jiOf : Option PyStr → Except PyErr (List PyStr)
  | none => .ok (orNone [])
  | some left => decode YI_JI (pySlice left (pyFindI [','] left + 1) left.length) >>= fun x => pure (orNone x)

private theorem day_of (month day : PyStr) :
    LunarUtil.getDayYi month day = yiOf (dayRecord (LunarUtil.hex (getJiaZiIndex day)) (LunarUtil.hex (getJiaZiIndex month)) DAY_YI_JI) ∧
    LunarUtil.getDayJi month day = jiOf (dayRecord (LunarUtil.hex (getJiaZiIndex day)) (LunarUtil.hex (getJiaZiIndex month)) DAY_YI_JI) :=
  ⟨rfl, rfl⟩

/-- **C54** the lists of a day of the sexagenary day `n` in the month of the pair `p` are those of the record of the day
that has the month. -/
theorem C54_day_record (r : ℕ × ℕ × ℕ × ℕ) (hr : r ∈ DAY_YI_JI_RECORDS) (p n : ℤ) (hn : (r.1 : ℤ) = 256 + n % 60)
    (hp : (p % 60).toNat ∈ bytes r.2.1) :
    LunarUtil.getDayYi (ganZhi p) (ganZhi n) = .ok (namesOf YI_JI r.2.2.1) ∧
    LunarUtil.getDayJi (ganZhi p) (ganZhi n) = .ok (namesOf YI_JI r.2.2.2) := by
  have h := dayRecord_some hr (d := (n % 60).toNat) (by omega) hp
  rw [(num n).1, (num p).1] at h
  have o := day_ok r hr
  rw [← C29_index n, ← C29_index p] at h
  rw [(day_of _ _).1, (day_of _ _).2, h]
  unfold yiOf jiOf
  dsimp only
  rw [(day_lists hr).1, (day_lists hr).2]
  simp only [bind, Except.bind, pure, Except.pure, orNone_names, orNone_ne o.yi_ne, orNone_ne o.ji_ne, and_self]

example : (0x130, 0x1192531010D, 0x1838454151A4C200C1E23221D212726, 0x1030F522E1F) ∈ DAY_YI_JI_RECORDS ∧
    ((0x130 : ℕ) : ℤ) = 256 + (48 : ℤ) % 60 ∧ ((25 : ℤ) % 60).toNat ∈ bytes 0x1192531010D := by decide +kernel

/-- **C54** there is exactly one such record for each of the 3600 pairs of month and day. -/
theorem C54_day_unique (p n : ℤ) :
    ∃! r : ℕ × ℕ × ℕ × ℕ, r ∈ DAY_YI_JI_RECORDS ∧ (r.1 : ℤ) = 256 + n % 60 ∧ (p % 60).toNat ∈ bytes r.2.1 := by
  obtain ⟨r, hr, h1, h2⟩ := day_record (num n).2 (num p).2
  refine ⟨r, ⟨hr, by have := (num n).1; omega, h2⟩, ?_⟩
  rintro r' ⟨hr', h1', h2'⟩
  exact day_unique hr' hr (by omega) h2' h2

/-- **C54** what to do and what to avoid on a day: whatever the pairs of month and day, both lists are found, are not
empty, hold known names, each once, and none in both. -/
theorem C54_day (p n : ℤ) : ∃ yi ji, LunarUtil.getDayYi (ganZhi p) (ganZhi n) = .ok yi ∧ LunarUtil.getDayJi (ganZhi p) (ganZhi n) = .ok ji ∧
    Lists YI_JI yi ji ∧ yi.Nodup ∧ ji.Nodup ∧ ∀ x ∈ yi, x ∉ ji := by
  obtain ⟨r, ⟨hr, h1, h2⟩, _⟩ := C54_day_unique p n
  have h := C54_day_record r hr p n h1 h2
  have o := day_ok r hr
  have n1 := List.nodup_append.1 o.nodup
  have s1 : ∀ b ∈ bytes r.2.2.1, b < YI_JI.length := fun b hb => by rw [yj_len]; exact o.small b (by simp [hb])
  have s2 : ∀ b ∈ bytes r.2.2.2, b < YI_JI.length := fun b hb => by rw [yj_len]; exact o.small b (by simp [hb])
  have ap : ∀ b ∈ bytes r.2.2.1, b ∉ bytes r.2.2.2 := fun b hb hb' => n1.2.2 b hb b hb' rfl
  have hl := lists_orNone yj_nodup (by rw [yj_len]; omega) s1 s2 yj_none o.yi_none o.ji_none ap
  rw [orNone_ne o.yi_ne, orNone_ne o.ji_ne] at hl
  exact ⟨_, _, h.1, h.2, hl, names_nodup yj_nodup s1 n1.1, names_nodup yj_nodup s2 n1.2.1, names_apart yj_nodup s1 s2 ap⟩

/-- **C54** a text that is no pair of the cycle, as month or as day, has the list 无. -/
theorem C54_day_unknown (month day : PyStr) (h : (∀ n, month ≠ ganZhi n) ∨ ∀ n, day ≠ ganZhi n) :
    LunarUtil.getDayYi month day = .ok [['无']] ∧ LunarUtil.getDayJi month day = .ok [['无']] := by
  have hf : dayRecord (LunarUtil.hex (getJiaZiIndex day)) (LunarUtil.hex (getJiaZiIndex month)) DAY_YI_JI = none := by
    by_cases hd : getJiaZiIndex day = -1
    · rw [hd]; exact dayRecord_none_day
    · have hm : getJiaZiIndex month = -1 := by
        rcases h with h | h
        · exact (C29_others month).2 h
        · exact absurd ((C29_others day).2 h) hd
      have hb := C29_only_pairs day hd
      have hx := hex_ok ⟨(getJiaZiIndex day).toNat, by omega⟩
      dsimp only at hx
      rw [show ((getJiaZiIndex day).toNat : ℤ) = getJiaZiIndex day by omega] at hx
      rw [hm]
      exact dayRecord_none_month hx.1 hx.2
  rw [(day_of _ _).1, (day_of _ _).2, hf]
  exact ⟨rfl, rfl⟩

example : (∀ n, (['甲'] : PyStr) ≠ ganZhi n) := fun n h => by simpa [ganZhi] using congrArg List.length h

/-! ## hours -/

/-- the hour pair `t` occurs on the day `n` (the rule of the five rats) -/
private theorem rats_iff (n t : ℤ) : rats (60 * (n % 60).toNat + (t % 60).toNat) = true ↔ t % 10 = (n % 5 * 2 + t % 12) % 10 := by
  unfold rats
  rw [Nat.beq_eq, show (60 * (n % 60).toNat + (t % 60).toNat) % 60 = (t % 60).toNat by omega,
    show (60 * (n % 60).toNat + (t % 60).toNat) / 60 = (n % 60).toNat by omega]
  have a1 : ((t % 60).toNat % 10 : ℕ) = (t % 10).toNat := by omega
  have a2 : ((t % 60).toNat % 12 : ℕ) = (t % 12).toNat := by omega
  have a3 : ((n % 60).toNat % 5 : ℕ) = (n % 5).toNat := by omega
  rw [a1, a2, a3]
  omega

private theorem time_key_len (n t : ℤ) : (LunarUtil.hex (n % 60) ++ LunarUtil.hex (t % 60)).length = 4 ∧ '=' ∉ LunarUtil.hex (n % 60) ++ LunarUtil.hex (t % 60) := by
  have hx := hex_ok ⟨(n % 60).toNat, by omega⟩
  have hy := hex_ok ⟨(t % 60).toNat, by omega⟩
  dsimp only at hx hy
  rw [(num _).1] at hx hy
  exact ⟨by rw [List.length_append, hx.1, hy.1], by simp only [List.mem_append, not_or]; exact ⟨hx.2, hy.2⟩⟩

private theorem time_of_find {K : PyStr} (hl : K.length = 4) (hK : '=' ∉ K) {r : KeyRec}
    (hf : TIME_YI_JI_RECORDS.find? (fun r => (keyPart r).1 = K) = some r) :
    ∃ i, pyFind (K ++ ['=']) TIME_YI_JI = some i ∧ upToKey (TIME_YI_JI.drop (i + 5)) 4 = (keyPart r).2 := by
  have h := time_find K hl hK
  rw [hf] at h
  exact Option.map_eq_some_iff.1 h

private theorem time_of_none {K : PyStr} (hl : K.length = 4) (hK : '=' ∉ K)
    (hf : TIME_YI_JI_RECORDS.find? (fun r => (keyPart r).1 = K) = none) : pyFind (K ++ ['=']) TIME_YI_JI = none := by
  have h := time_find K hl hK
  rw [hf] at h
  exact Option.map_eq_none_iff.1 h

/-- **C54** the lists of an hour with the pair `t` on a day with the pair `n` are those of its record. -/
theorem C54_time_record (r : ℕ × ℕ × ℕ) (hr : r ∈ TIME_YI_JI_RECORDS) (n t : ℤ) (hn : (r.1 : ℤ) = 65536 + 256 * (n % 60) + t % 60) :
    LunarUtil.getTimeYi (ganZhi n) (ganZhi t) = .ok (namesOrNone YI_JI r.2.1) ∧
    LunarUtil.getTimeJi (ganZhi n) (ganZhi t) = .ok (namesOrNone YI_JI r.2.2) := by
  have hf := time_some hr (d := (n % 60).toNat) (t := (t % 60).toNat) (by omega) (by omega)
  rw [(num n).1, (num t).1] at hf
  obtain ⟨hl, hK⟩ := time_key_len n t
  obtain ⟨i, h1, h2⟩ := time_of_find hl hK hf
  have hd := (time_ok r hr).fields
  rw [← yj_len] at hd
  have hd := hd.lists (by rw [yj_len]; omega)
  unfold LunarUtil.getTimeYi LunarUtil.getTimeJi
  rw [C29_index, C29_index]
  dsimp only
  rw [h1]
  dsimp only
  rw [h2, hd.1, hd.2]
  simp only [bind, Except.bind, pure, Except.pure, orNone_names, and_self]

example : ∃ r ∈ TIME_YI_JI_RECORDS, (r.1 : ℤ) = 65536 + 256 * ((34 : ℤ) % 60) + (48 : ℤ) % 60 ∧ bytes r.2.1 ≠ [] ∧ bytes r.2.2 ≠ [] := by decide +kernel

/-- **C54** what to do and what to avoid in an hour: for the hour pairs that occur on the day both lists are found, are
not empty and hold known names, none in both. -/
theorem C54_time (n t : ℤ) (h : t % 10 = (n % 5 * 2 + t % 12) % 10) :
    ∃ yi ji, LunarUtil.getTimeYi (ganZhi n) (ganZhi t) = .ok yi ∧ LunarUtil.getTimeJi (ganZhi n) (ganZhi t) = .ok ji ∧
    Lists YI_JI yi ji ∧ yi.Nodup ∧ ji.Nodup := by
  obtain ⟨r, hr, e⟩ := time_record (num n).2 (num t).2 ((rats_iff n t).2 h)
  have hx := C54_time_record r hr n t (by omega)
  have o := time_ok r hr
  have n1 := List.nodup_append.1 o.nodup
  have s1 : ∀ b ∈ bytes r.2.1, b < YI_JI.length := fun b hb => by rw [yj_len]; exact o.fields.small b (by simp [hb])
  have s2 : ∀ b ∈ bytes r.2.2, b < YI_JI.length := fun b hb => by rw [yj_len]; exact o.fields.small b (by simp [hb])
  have ap : ∀ b ∈ bytes r.2.1, b ∉ bytes r.2.2 := fun b hb hb' => n1.2.2 b hb b hb' rfl
  refine ⟨_, _, hx.1, hx.2, lists_orNone yj_nodup (by rw [yj_len]; omega) s1 s2 yj_none o.yi_none o.ji_none ap, ?_, ?_⟩
  · unfold namesOrNone
    split
    · simp
    · exact names_nodup yj_nodup s1 n1.1
  · unfold namesOrNone
    split
    · simp
    · exact names_nodup yj_nodup s2 n1.2.1

example : (48 : ℤ) % 10 = ((34 : ℤ) % 5 * 2 + (48 : ℤ) % 12) % 10 := by decide

/-- **C54** an hour pair that cannot occur on the day, or a text that is no pair of the cycle, has the list 无. -/
theorem C54_time_unknown (day time : PyStr)
    (h : (∀ n, day ≠ ganZhi n) ∨ (∀ n, time ≠ ganZhi n) ∨ ∃ n t, day = ganZhi n ∧ time = ganZhi t ∧ t % 10 ≠ (n % 5 * 2 + t % 12) % 10) :
    LunarUtil.getTimeYi day time = .ok [['无']] ∧ LunarUtil.getTimeJi day time = .ok [['无']] := by
  have len2 : ∀ s, (LunarUtil.hex (getJiaZiIndex s)).length = 2 ∧ '=' ∉ LunarUtil.hex (getJiaZiIndex s) := by
    intro s
    by_cases hs : getJiaZiIndex s = -1
    · rw [hs, hex_neg]; decide
    · have hb := C29_only_pairs s hs
      have hx := hex_ok ⟨(getJiaZiIndex s).toNat, by omega⟩
      dsimp only at hx
      rwa [show ((getJiaZiIndex s).toNat : ℤ) = getJiaZiIndex s by omega] at hx
  have hf : TIME_YI_JI_RECORDS.find? (fun r => (keyPart r).1 = LunarUtil.hex (getJiaZiIndex day) ++ LunarUtil.hex (getJiaZiIndex time)) = none := by
    rcases h with h | h | ⟨n, t, rfl, rfl, h⟩
    · rw [(C29_others day).2 h]
      exact time_none_neg ⟨_, (len2 time).1, Or.inr rfl⟩
    · rw [(C29_others time).2 h]
      exact time_none_neg ⟨_, (len2 day).1, Or.inl rfl⟩
    · rw [C29_index, C29_index]
      have hx := time_none (num n).2 (num t).2 (by rw [Bool.eq_false_iff]; intro hh; exact h ((rats_iff n t).1 hh))
      rwa [(num n).1, (num t).1] at hx
  have hn := time_of_none (by rw [List.length_append, (len2 day).1, (len2 time).1])
    (by simp only [List.mem_append, not_or]; exact ⟨(len2 day).2, (len2 time).2⟩) hf
  unfold LunarUtil.getTimeYi LunarUtil.getTimeJi
  dsimp only
  rw [hn]
  exact ⟨rfl, rfl⟩

example : ∃ n t : ℤ, ganZhi n = ['甲', '子'] ∧ ganZhi t = ['丙', '子'] ∧ t % 10 ≠ (n % 5 * 2 + t % 12) % 10 := ⟨0, 12, by decide +kernel, by decide +kernel, by decide⟩

/-! ## spirits of the day -/

private theorem shen_key_len {m : ℕ} (hm : m < 16) (s : PyStr) (hs : s.length = 2) (hs' : '=' ∉ s) :
    (pyHex ((m : ℕ) : ℤ) ++ s).length = 3 ∧ '=' ∉ pyHex ((m : ℕ) : ℤ) ++ s := by
  have hx := pyHex_len ⟨m, hm⟩
  exact ⟨by rw [List.length_append, hx.1, hs], by simp only [List.mem_append, not_or]; exact ⟨hx.2, hs'⟩⟩

/-- **C54** the lucky and unlucky spirits of a day `n` in the lunar month `month` (leap or not) are those of its record. -/
theorem C54_shen_record (r : ℕ × ℕ × ℕ) (hr : r ∈ DAY_SHEN_SHA_RECORDS) (month n : ℤ) (hn : (r.1 : ℤ) = 4096 + 256 * |month| + n % 60) :
    LunarUtil.getDayJiShen month (ganZhi n) = .ok (namesOf SHEN_SHA r.2.1) ∧
    LunarUtil.getDayXiongSha month (ganZhi n) = .ok (namesOf SHEN_SHA r.2.2) := by
  have hm : ((|month|).toNat : ℤ) = |month| := by have := abs_nonneg month; omega
  have hk := (shen_ok r hr).key
  have hf := shen_some hr (m := (|month|).toNat) (d := (n % 60).toNat) (by omega) (by omega)
  rw [hm, (num n).1] at hf
  have hx := hex_ok ⟨(n % 60).toNat, by omega⟩
  dsimp only at hx
  rw [(num _).1] at hx
  obtain ⟨hl, hK⟩ := shen_key_len (m := (|month|).toNat) (by omega) _ hx.1 hx.2
  rw [hm] at hl hK
  have h := shen_find _ hl hK
  rw [hf] at h
  obtain ⟨i, h1, h2⟩ := Option.map_eq_some_iff.1 h
  have o := shen_ok r hr
  have hd := o.fields
  rw [← ss_len] at hd
  have hd := hd.lists (by rw [ss_len]; omega)
  unfold LunarUtil.getDayJiShen LunarUtil.getDayXiongSha
  rw [C29_index]
  dsimp only
  rw [h1]
  dsimp only
  rw [h2, hd.1, hd.2]
  simp only [bind, Except.bind, pure, Except.pure, orNone_names, orNone_ne o.yi_ne, orNone_ne o.ji_ne, and_self]

example : ∃ r ∈ DAY_SHEN_SHA_RECORDS, (r.1 : ℤ) = 4096 + 256 * |(-12 : ℤ)| + (34 : ℤ) % 60 := by decide +kernel

/-- **C54** the spirits of a day: in every lunar month, leap or not, and for every day pair both lists are found, are not
empty and hold known names, none in both and each once, but for the tenth day pair of the eighth month. -/
theorem C54_shen (month n : ℤ) (h1 : 1 ≤ |month|) (h12 : |month| ≤ 12) :
    ∃ ji xiong, LunarUtil.getDayJiShen month (ganZhi n) = .ok ji ∧ LunarUtil.getDayXiongSha month (ganZhi n) = .ok xiong ∧
    Lists SHEN_SHA ji xiong ∧ (∀ x ∈ ji, x ∉ xiong) ∧ (¬ (|month| = 8 ∧ n % 60 = 9) → ji.Nodup ∧ xiong.Nodup) := by
  obtain ⟨r, hr, e⟩ := shen_record (m := (|month|).toNat) (by omega) (by omega) (num n).2
  have hx := C54_shen_record r hr month n (by omega)
  have o := shen_ok r hr
  have s1 : ∀ b ∈ bytes r.2.1, b < SHEN_SHA.length := fun b hb => by rw [ss_len]; exact o.fields.small b (by simp [hb])
  have s2 : ∀ b ∈ bytes r.2.2, b < SHEN_SHA.length := fun b hb => by rw [ss_len]; exact o.fields.small b (by simp [hb])
  have hl := lists_orNone ss_nodup (by rw [ss_len]; omega) s1 s2 ss_none o.yi_none o.ji_none o.disjoint
  rw [orNone_ne o.yi_ne, orNone_ne o.ji_ne] at hl
  refine ⟨_, _, hx.1, hx.2, hl, names_apart ss_nodup s1 s2 o.disjoint, fun hc => ?_⟩
  have := o.nodup (by omega)
  exact ⟨names_nodup ss_nodup s1 this.1, names_nodup ss_nodup s2 this.2⟩

example : (1 : ℤ) ≤ |(-4 : ℤ)| ∧ |(-4 : ℤ)| ≤ 12 ∧ ¬ (|(-4 : ℤ)| = 8 ∧ (59 : ℤ) % 60 = 9) := by decide

/-- **C54** on the tenth day pair (癸酉) of the eighth month one lucky spirit is listed twice. -/
theorem C54_shen_twice (month n : ℤ) (h : |month| = 8) (hn : n % 60 = 9) :
    ∃ ji, LunarUtil.getDayJiShen month (ganZhi n) = .ok ji ∧ ¬ ji.Nodup := by
  have key : DAY_SHEN_SHA_RECORDS.find? (fun r => Nat.beq r.1 0x1809) = some (0x1809, 0x11718252F0553534B45, 0x11F20213B323356) := by
    decide +kernel
  have hd : ¬ (namesOf SHEN_SHA 0x11718252F0553534B45).Nodup := by decide +kernel
  exact ⟨_, (C54_shen_record _ (List.mem_of_find?_eq_some key) month n (by rw [h, hn]; rfl)).1, hd⟩

example : |(8 : ℤ)| = 8 ∧ (69 : ℤ) % 60 = 9 := by decide

/-- **C54** a text that is no pair of the cycle, or a month number 0, 13, 14 or 15, has the list 无. -/
theorem C54_shen_unknown (month : ℤ) (day : PyStr) (h16 : |month| < 16) (h : month = 0 ∨ 13 ≤ |month| ∨ ∀ n, day ≠ ganZhi n) :
    LunarUtil.getDayJiShen month day = .ok [['无']] ∧ LunarUtil.getDayXiongSha month day = .ok [['无']] := by
  have hm : ((|month|).toNat : ℤ) = |month| := by have := abs_nonneg month; omega
  have len2 : (LunarUtil.hex (getJiaZiIndex day)).length = 2 ∧ '=' ∉ LunarUtil.hex (getJiaZiIndex day) := by
    by_cases hs : getJiaZiIndex day = -1
    · rw [hs, hex_neg]; decide
    · have hb := C29_only_pairs day hs
      have hx := hex_ok ⟨(getJiaZiIndex day).toNat, by omega⟩
      dsimp only at hx
      rwa [show ((getJiaZiIndex day).toNat : ℤ) = getJiaZiIndex day by omega] at hx
  have hf := shen_none (m := (|month|).toNat) (s := LunarUtil.hex (getJiaZiIndex day)) (by omega) (by
    rcases h with h | h | h
    · left; rw [h]; rfl
    · right; left; omega
    · right; right; rw [(C29_others day).2 h])
  obtain ⟨hl, hK⟩ := shen_key_len (m := (|month|).toNat) (by omega) _ len2.1 len2.2
  rw [hm] at hl hK hf
  have hn := shen_find _ hl hK
  rw [hf] at hn
  have hn := Option.map_eq_none_iff.1 hn
  unfold LunarUtil.getDayJiShen LunarUtil.getDayXiongSha
  dsimp only
  rw [hn]
  exact ⟨rfl, rfl⟩

example : |(13 : ℤ)| < 16 ∧ 13 ≤ |(13 : ℤ)| := by decide

/-! ## the calls on a date -/

private theorem ok_bind {α β : Type} (a : α) (f : α → Except PyErr β) : ((.ok a : Except PyErr α) >>= f) = f a := rfl

/-- **C54** on every date the six calls give lists of known names that are not empty. -/
theorem C54_lunar (l : Lunar) (hl : l.Proper) (h1 : 1 ≤ |l.month|) (h12 : |l.month| ≤ 12) (sect : ℤ) :
    (∃ yi ji, l.getDayYi sect = .ok yi ∧ l.getDayJi sect = .ok ji ∧ Lists YI_JI yi ji) ∧
    (∃ yi ji, l.getTimeYi = .ok yi ∧ l.getTimeJi = .ok ji ∧ Lists YI_JI yi ji) ∧
    (∃ ji xiong, l.getDayJiShen = .ok ji ∧ l.getDayXiongSha = .ok xiong ∧ Lists SHEN_SHA ji xiong) := by
  obtain ⟨y, yl, ye, m, me, d, de, t, N⟩ := hl.numbers
  have em : l.getMonthInGanZhi = .ok (ganZhi m) := Lunar.pair_eq N.mg N.mz
  have eme : l.getMonthInGanZhiExact = .ok (ganZhi me) := Lunar.pair_eq N.meg N.mez
  have ed : l.getDayInGanZhi = .ok (ganZhi d) := Lunar.pair_eq N.dg N.dz
  have ede : l.getDayInGanZhiExact = .ok (ganZhi de) := Lunar.pair_eq N.deg N.dez
  have et : l.getTimeInGanZhi = .ok (ganZhi t) := Lunar.pair_eq N.tg N.tz
  refine ⟨?_, ?_, ?_⟩
  · unfold Lunar.getDayYi Lunar.getDayJi
    by_cases hs : 2 = sect
    · obtain ⟨yi, ji, a, b, c, _⟩ := C54_day me d
      refine ⟨yi, ji, ?_, ?_, c⟩
      · rw [eme, ed, if_pos hs]; simp only [ok_bind]; exact a
      · rw [eme, ed, if_pos hs]; simp only [ok_bind]; exact b
    · obtain ⟨yi, ji, a, b, c, _⟩ := C54_day m d
      refine ⟨yi, ji, ?_, ?_, c⟩
      · rw [em, ed, if_neg hs]; simp only [ok_bind]; exact a
      · rw [em, ed, if_neg hs]; simp only [ok_bind]; exact b
  · have ht : t % 10 = (de % 5 * 2 + t % 12) % 10 := by
      obtain ⟨_, _, _, ⟨t1, t2⟩, _⟩ := Lunar.made_fields hl.made (by have := hl.range; omega) hl.range.2
      have := N.tg; have := N.tz; have := N.deg
      omega
    obtain ⟨yi, ji, a, b, c, _⟩ := C54_time de t ht
    refine ⟨yi, ji, ?_, ?_, c⟩
    · unfold Lunar.getTimeYi; rw [ede, et]; simp only [ok_bind]; exact a
    · unfold Lunar.getTimeJi; rw [ede, et]; simp only [ok_bind]; exact b
  · obtain ⟨ji, xiong, a, b, c, _⟩ := C54_shen l.month d h1 h12
    refine ⟨ji, xiong, ?_, ?_, c⟩
    · unfold Lunar.getDayJiShen; rw [ed]; simp only [ok_bind]; exact a
    · unfold Lunar.getDayXiongSha; rw [ed]; simp only [ok_bind]; exact b

example : sample.Proper ∧ 1 ≤ |sample.month| ∧ |sample.month| ≤ 12 := by
  refine ⟨sample_proper, ?_⟩
  decide +kernel
end
