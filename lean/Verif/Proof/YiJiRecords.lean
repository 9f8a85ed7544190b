import Mathlib.Data.List.Nodup
import Verif.Proof.Packed
import Verif.Proof.YiJi

/-! # The records of the almanac texts -/

namespace YiJi
open Spec LunarUtil Packed

/-! ## fields -/

theorem pySlice_left (a b : PyStr) : pySlice (a ++ b) 0 (a.length : ℤ) = a := by
  unfold pySlice
  dsimp only
  rw [if_neg (by omega), if_neg (by omega)]
  simp

theorem pySlice_right (a b : PyStr) : pySlice (a ++ b) (a.length : ℤ) ((a ++ b).length : ℤ) = b := by
  unfold pySlice
  dsimp only
  rw [if_neg (by omega), if_neg (by omega)]
  simp

theorem pySlice_mid (a b c : PyStr) : pySlice (a ++ (b ++ c)) (a.length : ℤ) ((a.length + b.length : ℕ) : ℤ) = b := by
  unfold pySlice
  dsimp only
  rw [if_neg (by omega), if_neg (by omega)]
  simp

theorem findI_sep {c : Char} {a s : PyStr} (h : c ∉ a) : pyFindI [c] (a ++ c :: s) = (a.length : ℕ) := by
  unfold pyFindI
  rw [find_sep h]

theorem before_sep {c : Char} {a s : PyStr} (h : c ∉ a) : pySlice (a ++ c :: s) 0 (pyFindI [c] (a ++ c :: s)) = a := by
  rw [findI_sep h, pySlice_left]

theorem after_sep {c : Char} {a s : PyStr} (h : c ∉ a) :
    pySlice (a ++ c :: s) (pyFindI [c] (a ++ c :: s) + 1) ((a ++ c :: s).length : ℤ) = s := by
  rw [findI_sep h, show a ++ c :: s = (a ++ [c]) ++ s by simp, show ((a.length : ℕ) : ℤ) + 1 = ((a ++ [c]).length : ℕ) by simp]
  exact pySlice_right _ _

theorem between {a b s : PyStr} (h1 : ':' ∉ a) (h2 : ',' ∉ a) (h3 : ',' ∉ b) :
    pySlice (a ++ ':' :: (b ++ ',' :: s)) (pyFindI [':'] (a ++ ':' :: (b ++ ',' :: s)) + 1) (pyFindI [','] (a ++ ':' :: (b ++ ',' :: s))) = b := by
  rw [findI_sep h1]
  rw [show a ++ ':' :: (b ++ ',' :: s) = (a ++ ':' :: b) ++ ',' :: s by simp, findI_sep (by simp [h2, h3]),
    show (a ++ ':' :: b) ++ ',' :: s = (a ++ [':']) ++ (b ++ ',' :: s) by simp,
    show ((a.length : ℕ) : ℤ) + 1 = ((a ++ [':']).length : ℕ) by simp,
    show ((a ++ ':' :: b).length : ℤ) = (((a ++ [':']).length + b.length : ℕ) : ℤ) by simp; omega]
  exact pySlice_mid _ _ _

theorem int_hex : ∀ a : Fin 256, pyIntHex (LunarUtil.hex (((a : ℕ) : ℤ))) = .ok ((a : ℕ) : ℤ) := by decide +kernel

theorem index_ok {T : List PyStr} {b : ℕ} (h : b < T.length) : pyIndex T (b : ℤ) = .ok (T.getD b []) := by
  unfold pyIndex
  simp only [show ¬ ((b : ℤ) < 0) by omega, if_false, Int.toNat_natCast]
  rw [List.getElem?_eq_getElem h, List.getD_eq_getElem?_getD, List.getElem?_eq_getElem h]
  rfl

/-- decoding a list of numbers -/
theorem decode_bytes {T : List PyStr} {ys : PyStr} {bs : List ℕ} (h : pairs ys = bs.map fun b => LunarUtil.hex ((b : ℕ) : ℤ))
    (hT : T.length ≤ 256) (hb : ∀ b ∈ bs, b < T.length) : decode T ys = .ok (bs.map fun i => T.getD i []) := by
  unfold decode
  rw [h]
  clear h
  induction bs with
  | nil => rfl
  | cons b bs ih =>
    have h1 : b < T.length := hb b (by simp)
    have h2 := int_hex ⟨b, by omega⟩
    dsimp only at h2
    rw [List.map_cons, List.mapM_cons, ih (fun x hx => hb x (by simp [hx])), h2]
    simp only [bind, Except.bind, pure, Except.pure, index_ok h1, List.map_cons]

/-- a packed field of a table: put together again from its entries -/
def Field (n : ℕ) : Prop := pack (bytes n) = n

theorem decode_field {T : List PyStr} {n : ℕ} (h : Field n) (hT : T.length ≤ 256) (hb : ∀ b ∈ bytes n, b < T.length) :
    decode T (hexField n) = .ok (namesOf T n) := by
  rw [hexField_eq h]
  exact decode_bytes (pairs_hexes _ bytes_lt) hT hb

theorem Field.sep {n : ℕ} (h : Field n) : '=' ∉ hexField n ∧ ':' ∉ hexField n ∧ ',' ∉ hexField n := by
  rw [hexField_eq h]
  have := hexes_chars (bytes n) bytes_lt
  exact ⟨fun hc => (this _ hc).1 rfl, fun hc => (this _ hc).2.1 rfl, fun hc => (this _ hc).2.2 rfl⟩

theorem orNone_names (T : List PyStr) (n : ℕ) : orNone (namesOf T n) = namesOrNone T n := by
  unfold orNone namesOrNone namesOf
  cases bytes n <;> simp

theorem yj_len : YI_JI.length = 142 := by decide +kernel
theorem ss_len : SHEN_SHA.length = 148 := by decide +kernel

theorem hex_inj : ∀ a b : Fin 256, LunarUtil.hex (((a : ℕ) : ℤ)) = LunarUtil.hex (((b : ℕ) : ℤ)) → a = b := by
  intro a b h
  have ha := int_hex a
  rw [h, int_hex b] at ha
  injection ha with ha
  exact Fin.ext (by omega)

theorem hex_ok : ∀ a : Fin 256, (LunarUtil.hex (((a : ℕ) : ℤ))).length = 2 ∧ '=' ∉ LunarUtil.hex (((a : ℕ) : ℤ)) := by
  intro a
  refine ⟨by rw [hex_byte]; rfl, fun h => (hex_chars a _ h).1 rfl⟩

theorem hex_neg : LunarUtil.hex (-1) = ['-', '1'] := by decide +kernel

theorem hex_no_minus : ∀ a : Fin 256, LunarUtil.hex (((a : ℕ) : ℤ)) ≠ ['-', '1'] := by decide +kernel

theorem hexes_hex (bs : List ℕ) (h : ∀ b ∈ bs, b < 256) : hexField (pack bs) = hexes bs := by
  unfold hexField
  rw [toDigits_pack bs h]
  rfl

/-! ## the table of days -/

abbrev DayRec := ℕ × ℕ × ℕ × ℕ
abbrev KeyRec := ℕ × ℕ × ℕ

def dayPart (r : DayRec) : PyStr × PyStr :=
  (hexField r.1, hexField r.2.1 ++ ':' :: (hexField r.2.2.1 ++ ',' :: hexField r.2.2.2))

def keyPart (r : KeyRec) : PyStr × PyStr := (hexField r.1, hexField r.2.1 ++ ',' :: hexField r.2.2)

theorem day_text : DAY_YI_JI = text (DAY_YI_JI_RECORDS.map dayPart) := by
  unfold DAY_YI_JI text
  rw [List.map_map]
  rfl

theorem time_text : TIME_YI_JI = text (TIME_YI_JI_RECORDS.map keyPart) := by
  unfold TIME_YI_JI text
  rw [List.map_map]
  rfl

theorem shen_text : DAY_SHEN_SHA = text (DAY_SHEN_SHA_RECORDS.map keyPart) := by
  unfold DAY_SHEN_SHA text
  rw [List.map_map]
  rfl

/-- nothing else beside "none" -/
def alone (none : ℕ) (n : ℕ) : Bool := Nat.beq (fastBytes n).length 1 || (fastBytes n).all fun b => !Nat.beq b none

theorem alone_iff {x n : ℕ} (h : alone x n = true) (hx : x ∈ bytes n) : bytes n = [x] := by
  unfold alone at h
  rw [fastBytes_eq, Bool.or_eq_true] at h
  rcases h with h | h
  · rw [Nat.beq_eq] at h
    obtain ⟨a, ha⟩ := List.length_eq_one_iff.1 h
    rw [ha, List.mem_singleton] at hx
    rw [ha, hx]
  · rw [List.all_eq_true] at h
    have := h x hx
    simp at this

def dayCheck (r : DayRec) : Bool :=
  Nat.ble 256 r.1 && Nat.blt r.1 316 && Nat.beq (pack (fastBytes r.2.1)) r.2.1 && Nat.beq (pack (fastBytes r.2.2.1)) r.2.2.1 &&
  Nat.beq (pack (fastBytes r.2.2.2)) r.2.2.2 && Nat.blt (run 142 (fastBytes r.2.2.1 ++ fastBytes r.2.2.2) 0) (2 ^ 142) &&
  !(fastBytes r.2.2.1).isEmpty && !(fastBytes r.2.2.2).isEmpty && alone 141 r.2.2.1 && alone 141 r.2.2.2

theorem day_checked : DAY_YI_JI_RECORDS.all dayCheck = true := by decide +kernel

/-- what a record of the table of days is like -/
structure DayOk (r : DayRec) : Prop where
  key : 256 ≤ r.1 ∧ r.1 < 316
  months : Field r.2.1
  yi : Field r.2.2.1
  ji : Field r.2.2.2
  nodup : (bytes r.2.2.1 ++ bytes r.2.2.2).Nodup
  small : ∀ b ∈ bytes r.2.2.1 ++ bytes r.2.2.2, b < 142
  yi_ne : bytes r.2.2.1 ≠ []
  ji_ne : bytes r.2.2.2 ≠ []
  yi_none : 141 ∈ bytes r.2.2.1 → bytes r.2.2.1 = [141]
  ji_none : 141 ∈ bytes r.2.2.2 → bytes r.2.2.2 = [141]

theorem day_ok (r : DayRec) (hr : r ∈ DAY_YI_JI_RECORDS) : DayOk r := by
  have h := List.all_eq_true.1 day_checked r hr
  unfold dayCheck at h
  rw [fastBytes_eq] at h
  simp only [Bool.and_eq_true, Nat.ble_eq, Nat.blt_eq, Nat.beq_eq, Bool.not_eq_true', List.isEmpty_eq_false_iff] at h
  obtain ⟨⟨⟨⟨⟨⟨⟨⟨⟨h1, h2⟩, h3⟩, h4⟩, h5⟩, h6⟩, h7⟩, h8⟩, h9⟩, h10⟩ := h
  obtain ⟨n1, n2, n3⟩ := run_zero h6
  exact ⟨⟨h1, h2⟩, h3, h4, h5, n1, n2, h7, h8, alone_iff h9, alone_iff h10⟩

def dayKeys : List ℕ := DAY_YI_JI_RECORDS.flatMap fun r => (bytes r.2.1).map (60 * (r.1 - 256) + ·)

theorem day_keys_run : Nat.beq (run 3600 (DAY_YI_JI_RECORDS.flatMap fun r => (fastBytes r.2.1).map (60 * (r.1 - 256) + ·)) 0 + 1) (2 ^ 3600) = true := by
  decide +kernel

def monthCheck (r : DayRec) : Bool := (fastBytes r.2.1).all fun b => Nat.blt b 60

theorem months_checked : DAY_YI_JI_RECORDS.all monthCheck = true := by decide +kernel

theorem months_lt {r : DayRec} (hr : r ∈ DAY_YI_JI_RECORDS) : ∀ b ∈ bytes r.2.1, b < 60 := by
  have h := List.all_eq_true.1 months_checked r hr
  unfold monthCheck at h
  rw [fastBytes_eq, List.all_eq_true] at h
  intro b hb
  have := h b hb
  rwa [Nat.blt_eq] at this

theorem flatMap_inj {α β : Type} {f : α → List β} : ∀ {l : List α}, (l.flatMap f).Nodup → ∀ {a b : α} {x : β}, a ∈ l → b ∈ l →
    x ∈ f a → x ∈ f b → a = b
  | [], _, _, _, _, h, _, _, _ => by cases h
  | c :: l, h, a, b, x, ha, hb, hxa, hxb => by
    rw [List.flatMap_cons, List.nodup_append] at h
    obtain ⟨_, h2, h3⟩ := h
    rcases List.mem_cons.1 ha with rfl | ha' <;> rcases List.mem_cons.1 hb with rfl | hb'
    · rfl
    · exact absurd rfl (h3 x hxa x (List.mem_flatMap.2 ⟨b, hb', hxb⟩))
    · exact absurd rfl (h3 x hxb x (List.mem_flatMap.2 ⟨a, ha', hxa⟩))
    · exact flatMap_inj h2 ha' hb' hxa hxb

theorem day_keys : dayKeys.Nodup ∧ ∀ a, a ∈ dayKeys ↔ a < 3600 := by
  have h := Nat.eq_of_beq_eq_true day_keys_run
  rw [fastBytes_eq] at h
  exact run_full h

/-- every day and month has its record -/
theorem day_record {d m : ℕ} (hd : d < 60) (hm : m < 60) : ∃ r ∈ DAY_YI_JI_RECORDS, r.1 = 256 + d ∧ m ∈ bytes r.2.1 := by
  have h := (day_keys.2 (60 * d + m)).2 (by omega)
  unfold dayKeys at h
  obtain ⟨r, hr, h⟩ := List.mem_flatMap.1 h
  obtain ⟨b, hb, h⟩ := List.mem_map.1 h
  have := (day_ok r hr).key
  have := months_lt hr b hb
  refine ⟨r, hr, by omega, ?_⟩
  rwa [show m = b by omega]

/-- and only one -/
theorem day_unique {r r' : DayRec} (hr : r ∈ DAY_YI_JI_RECORDS) (hr' : r' ∈ DAY_YI_JI_RECORDS) (h : r.1 = r'.1) {m : ℕ}
    (hm : m ∈ bytes r.2.1) (hm' : m ∈ bytes r'.2.1) : r = r' :=
  flatMap_inj (x := 60 * (r.1 - 256) + m) day_keys.1 hr hr' (List.mem_map.2 ⟨m, hm, rfl⟩) (List.mem_map.2 ⟨m, hm', by rw [h]⟩)

theorem day_key {d : ℕ} (hd : d < 256) : hexField (256 + d) = LunarUtil.hex ((d : ℕ) : ℤ) := by
  have := hexes_hex [d] (by simpa using hd)
  rw [show pack [d] = 256 + d by simp [pack]] at this
  rw [this]
  simp [hexes]

theorem dayPart_key {r : DayRec} (hr : r ∈ DAY_YI_JI_RECORDS) : (dayPart r).1 = LunarUtil.hex ((r.1 - 256 : ℕ) : ℤ) := by
  have := (day_ok r hr).key
  have e := day_key (d := r.1 - 256) (by omega)
  rw [show 256 + (r.1 - 256) = r.1 by omega] at e
  exact e

theorem day_good : Good 2 (DAY_YI_JI_RECORDS.map dayPart) := by
  intro q hq
  obtain ⟨r, hr, rfl⟩ := List.mem_map.1 hq
  have hk := (day_ok r hr).key
  have hx := hex_ok ⟨r.1 - 256, by omega⟩
  rw [dayPart_key hr]
  refine ⟨hx.1, hx.2, ?_⟩
  have o := day_ok r hr
  simp [dayPart, o.months.sep.1, o.yi.sep.1, o.ji.sep.1]

theorem dayPart_month {r : DayRec} (hr : r ∈ DAY_YI_JI_RECORDS) (month : PyStr) :
    hasMonth (dayPart r).2 month = true ↔ ∃ b ∈ bytes r.2.1, LunarUtil.hex ((b : ℕ) : ℤ) = month := by
  have o := day_ok r hr
  unfold hasMonth dayPart
  rw [before_sep o.months.sep.2.1, hexField_eq o.months, pairs_hexes _ bytes_lt, List.any_eq_true]
  simp

theorem dayRecord_find {day month : PyStr} (hl : day.length = 2) (hd : '=' ∉ day) :
    dayRecord day month DAY_YI_JI =
      (DAY_YI_JI_RECORDS.find? (fun r => (dayPart r).1 = day ∧ hasMonth (dayPart r).2 month)).map fun r => (dayPart r).2 := by
  have := dayRecord_eq (month := month) hl hd _ (DAY_YI_JI_RECORDS.map dayPart) [] (Nat.le_refl _) day_good (by simp)
  rw [List.nil_append, ← day_text] at this
  rw [this, List.find?_map, Option.map_map]
  rfl

/-- the search for a day and a month finds its record -/
theorem dayRecord_some {r : DayRec} (hr : r ∈ DAY_YI_JI_RECORDS) {d m : ℕ} (hd : r.1 = 256 + d) (hm : m ∈ bytes r.2.1) :
    dayRecord (LunarUtil.hex ((d : ℕ) : ℤ)) (LunarUtil.hex ((m : ℕ) : ℤ)) DAY_YI_JI = some (dayPart r).2 := by
  have hk := (day_ok r hr).key
  have hx := hex_ok ⟨d, by omega⟩
  rw [dayRecord_find hx.1 hx.2]
  have hself : (dayPart r).1 = LunarUtil.hex ((d : ℕ) : ℤ) ∧ hasMonth (dayPart r).2 (LunarUtil.hex ((m : ℕ) : ℤ)) = true := by
    refine ⟨?_, (dayPart_month hr _).2 ⟨m, hm, rfl⟩⟩
    rw [dayPart_key hr, hd, show 256 + d - 256 = d by omega]
  cases hf : DAY_YI_JI_RECORDS.find? (fun r => (dayPart r).1 = LunarUtil.hex ((d : ℕ) : ℤ) ∧ hasMonth (dayPart r).2 (LunarUtil.hex ((m : ℕ) : ℤ))) with
  | none =>
    have := List.find?_eq_none.1 hf r hr
    simp [hself.1, hself.2] at this
  | some r' =>
    have hr' := List.mem_of_find?_eq_some hf
    have hp := List.find?_some hf
    simp only [decide_eq_true_eq] at hp
    obtain ⟨h1, h2⟩ := hp
    have hk' := (day_ok r' hr').key
    rw [dayPart_key hr'] at h1
    have e1 := congrArg Fin.val (hex_inj ⟨r'.1 - 256, by omega⟩ ⟨d, by omega⟩ h1)
    obtain ⟨b, hb, e2⟩ := (dayPart_month hr' _).1 h2
    have e3 := congrArg Fin.val (hex_inj ⟨b, bytes_lt b hb⟩ ⟨m, bytes_lt m hm⟩ e2)
    dsimp only at e1 e3
    rw [day_unique hr hr' (by omega) hm (e3 ▸ hb)]
    rfl

theorem dayRecord_none_day {month : PyStr} : dayRecord (LunarUtil.hex (-1)) month DAY_YI_JI = none := by
  rw [hex_neg, dayRecord_find (by rfl) (by decide), Option.map_eq_none_iff, List.find?_eq_none]
  intro r hr
  rw [dayPart_key hr]
  have hk := (day_ok r hr).key
  have := hex_no_minus ⟨r.1 - 256, by omega⟩
  dsimp only at this
  simp [this]

theorem dayRecord_none_month {day : PyStr} (hl : day.length = 2) (hd : '=' ∉ day) : dayRecord day (LunarUtil.hex (-1)) DAY_YI_JI = none := by
  rw [hex_neg, dayRecord_find hl hd, Option.map_eq_none_iff, List.find?_eq_none]
  intro r hr
  have : ¬ hasMonth (dayPart r).2 ['-', '1'] = true := by
    rw [dayPart_month hr]
    rintro ⟨b, hb, e⟩
    exact hex_no_minus ⟨b, bytes_lt b hb⟩ e
  simp [this]

theorem day_lists {r : DayRec} (hr : r ∈ DAY_YI_JI_RECORDS) :
    decode YI_JI (pySlice (dayPart r).2 (pyFindI [':'] (dayPart r).2 + 1) (pyFindI [','] (dayPart r).2)) = .ok (namesOf YI_JI r.2.2.1) ∧
    decode YI_JI (pySlice (dayPart r).2 (pyFindI [','] (dayPart r).2 + 1) (dayPart r).2.length) = .ok (namesOf YI_JI r.2.2.2) := by
  have o := day_ok r hr
  constructor
  · unfold dayPart
    rw [between o.months.sep.2.1 o.months.sep.2.2 o.yi.sep.2.2]
    exact decode_field o.yi (by rw [yj_len]; omega) fun b hb => by rw [yj_len]; exact o.small b (by simp [hb])
  · unfold dayPart
    dsimp only
    rw [show hexField r.2.1 ++ ':' :: (hexField r.2.2.1 ++ ',' :: hexField r.2.2.2) =
      (hexField r.2.1 ++ ':' :: hexField r.2.2.1) ++ ',' :: hexField r.2.2.2 by simp, after_sep (by simp [o.months.sep.2.2, o.yi.sep.2.2])]
    exact decode_field o.ji (by rw [yj_len]; omega) fun b hb => by rw [yj_len]; exact o.small b (by simp [hb])

/-! ## the tables with a key -/

/-- what a record of the other tables is like, with names from a table of `T` -/
structure KeyOk (T : ℕ) (r : KeyRec) : Prop where
  yi : Field r.2.1
  ji : Field r.2.2
  small : ∀ b ∈ bytes r.2.1 ++ bytes r.2.2, b < T

theorem KeyOk.lists {T : List PyStr} {r : KeyRec} (o : KeyOk T.length r) (hT : T.length ≤ 256) :
    decode T (pySlice (keyPart r).2 0 (pyFindI [','] (keyPart r).2)) = .ok (namesOf T r.2.1) ∧
    decode T (pySlice (keyPart r).2 (pyFindI [','] (keyPart r).2 + 1) (keyPart r).2.length) = .ok (namesOf T r.2.2) := by
  unfold keyPart
  dsimp only
  rw [before_sep o.yi.sep.2.2, after_sep o.yi.sep.2.2]
  exact ⟨decode_field o.yi hT fun b hb => o.small b (by simp [hb]), decode_field o.ji hT fun b hb => o.small b (by simp [hb])⟩

/-- search by key, when the keys are different texts of the same length -/
theorem key_find {k : ℕ} {K : PyStr} {L : List KeyRec} (hl : K.length = k) (hK : '=' ∉ K) (hR : Good k (L.map keyPart)) :
    (pyFind (K ++ ['=']) (text (L.map keyPart))).map (fun i => upToKey ((text (L.map keyPart)).drop (i + (k + 1))) k) =
      (L.find? (fun r => (keyPart r).1 = K)).map fun r => (keyPart r).2 := by
  rw [record_eq hl hK hR, List.find?_map, Option.map_map]
  rfl

theorem key_some {K : PyStr} {L : List KeyRec} {r : KeyRec} (hr : r ∈ L) (h : (keyPart r).1 = K)
    (hu : ∀ r' ∈ L, (keyPart r').1 = K → r' = r) : L.find? (fun r => (keyPart r).1 = K) = some r := by
  cases hf : L.find? (fun r => (keyPart r).1 = K) with
  | none =>
    have := List.find?_eq_none.1 hf r hr
    simp [h] at this
  | some r' =>
    have hp := List.find?_some hf
    simp only [decide_eq_true_eq] at hp
    rw [hu r' (List.mem_of_find?_eq_some hf) hp]

/-! ## the table of hours -/

def timeCheck (r : KeyRec) : Bool :=
  Nat.ble 65536 r.1 && Nat.blt (r.1 - 65536) (60 * 256) && Nat.blt ((r.1 - 65536) % 256) 60 &&
  Nat.beq (pack (fastBytes r.2.1)) r.2.1 && Nat.beq (pack (fastBytes r.2.2)) r.2.2 &&
  Nat.blt (run 142 (fastBytes r.2.1 ++ fastBytes r.2.2) 0) (2 ^ 142) && alone 141 r.2.1 && alone 141 r.2.2

theorem time_checked : TIME_YI_JI_RECORDS.all timeCheck = true := by decide +kernel

structure TimeOk (r : KeyRec) : Prop where
  key : 65536 ≤ r.1 ∧ r.1 - 65536 < 60 * 256 ∧ (r.1 - 65536) % 256 < 60
  fields : KeyOk 142 r
  nodup : (bytes r.2.1 ++ bytes r.2.2).Nodup
  yi_none : 141 ∈ bytes r.2.1 → bytes r.2.1 = [141]
  ji_none : 141 ∈ bytes r.2.2 → bytes r.2.2 = [141]

theorem time_ok (r : KeyRec) (hr : r ∈ TIME_YI_JI_RECORDS) : TimeOk r := by
  have h := List.all_eq_true.1 time_checked r hr
  unfold timeCheck at h
  rw [fastBytes_eq] at h
  simp only [Bool.and_eq_true, Nat.ble_eq, Nat.blt_eq, Nat.beq_eq] at h
  obtain ⟨⟨⟨⟨⟨⟨⟨h1, h2⟩, h3⟩, h4⟩, h5⟩, h6⟩, h9⟩, h10⟩ := h
  obtain ⟨n1, n2, n3⟩ := run_zero h6
  exact ⟨⟨h1, h2, h3⟩, ⟨h4, h5, n2⟩, n1, alone_iff h9, alone_iff h10⟩

def timeNumber (r : KeyRec) : ℕ := 60 * ((r.1 - 65536) / 256) + (r.1 - 65536) % 256

/-- the day and the hour that go together by the rule of the five rats -/
def rats (i : ℕ) : Bool := Nat.beq (i % 60 % 10) ((i / 60 % 5 * 2 + i % 60 % 12) % 10)

theorem time_keys_run : Nat.beq (run 3600 (TIME_YI_JI_RECORDS.map timeNumber) 0) (run 3600 ((List.range 3600).filter rats) 0) = true := by
  decide +kernel

theorem time_keys_small : Nat.blt (run 3600 ((List.range 3600).filter rats) 0) (2 ^ 3600) = true := by decide +kernel

theorem time_keys : (TIME_YI_JI_RECORDS.map timeNumber).Nodup ∧ ∀ i, i ∈ TIME_YI_JI_RECORDS.map timeNumber ↔ i < 3600 ∧ rats i = true := by
  have h := Nat.eq_of_beq_eq_true time_keys_run
  have h2 := time_keys_small
  rw [Nat.blt_eq] at h2
  have r2 := run_zero h2
  rw [← h] at h2
  have r1 := run_zero h2
  refine ⟨r1.1, fun i => ?_⟩
  rw [← r1.2.2 i, h, r2.2.2 i, List.mem_filter, List.mem_range]

theorem pack_two (a b : ℕ) : pack [a, b] = 256 * (256 * 1 + a) + b := rfl

theorem keyPart_time {r : KeyRec} (hr : r ∈ TIME_YI_JI_RECORDS) :
    (keyPart r).1 = LunarUtil.hex (((r.1 - 65536) / 256 : ℕ) : ℤ) ++ LunarUtil.hex (((r.1 - 65536) % 256 : ℕ) : ℤ) := by
  have hk := (time_ok r hr).key
  have e := hexes_hex [(r.1 - 65536) / 256, (r.1 - 65536) % 256] (by intro b hb; simp at hb; omega)
  rw [pack_two, show 256 * (256 * 1 + (r.1 - 65536) / 256) + (r.1 - 65536) % 256 = r.1 by omega] at e
  unfold keyPart
  dsimp only
  rw [e]
  simp [hexes]

theorem time_good : Good 4 (TIME_YI_JI_RECORDS.map keyPart) := by
  intro q hq
  obtain ⟨r, hr, rfl⟩ := List.mem_map.1 hq
  have o := time_ok r hr
  have hk := o.key
  have hx := hex_ok ⟨(r.1 - 65536) / 256, by omega⟩
  have hy := hex_ok ⟨(r.1 - 65536) % 256, by omega⟩
  rw [keyPart_time hr]
  refine ⟨by rw [List.length_append, hx.1, hy.1], by simp only [List.mem_append, not_or]; exact ⟨hx.2, hy.2⟩, ?_⟩
  simp [keyPart, o.fields.yi.sep.1, o.fields.ji.sep.1]

theorem hex2_inj {a b c d : ℕ} (ha : a < 256) (hb : b < 256) (hc : c < 256) (hd : d < 256)
    (h : LunarUtil.hex ((a : ℕ) : ℤ) ++ LunarUtil.hex ((b : ℕ) : ℤ) = LunarUtil.hex ((c : ℕ) : ℤ) ++ LunarUtil.hex ((d : ℕ) : ℤ)) : a = c ∧ b = d := by
  have h1 := hex_ok ⟨a, ha⟩
  have h2 := hex_ok ⟨c, hc⟩
  obtain ⟨e1, e2⟩ := List.append_inj h (h1.1.trans h2.1.symm)
  exact ⟨congrArg Fin.val (hex_inj ⟨a, ha⟩ ⟨c, hc⟩ e1), congrArg Fin.val (hex_inj ⟨b, hb⟩ ⟨d, hd⟩ e2)⟩

theorem time_find (K : PyStr) (hl : K.length = 4) (hK : '=' ∉ K) :
    (pyFind (K ++ ['=']) TIME_YI_JI).map (fun i => upToKey (TIME_YI_JI.drop (i + 5)) 4) =
      (TIME_YI_JI_RECORDS.find? (fun r => (keyPart r).1 = K)).map fun r => (keyPart r).2 := by
  rw [time_text]
  exact key_find hl hK time_good

theorem time_some {r : KeyRec} (hr : r ∈ TIME_YI_JI_RECORDS) {d t : ℕ} (ht : t < 256) (h : r.1 = 65536 + 256 * d + t) :
    TIME_YI_JI_RECORDS.find? (fun r => (keyPart r).1 = LunarUtil.hex ((d : ℕ) : ℤ) ++ LunarUtil.hex ((t : ℕ) : ℤ)) = some r := by
  have hk := (time_ok r hr).key
  have e1 : (r.1 - 65536) / 256 = d := by omega
  have e2 : (r.1 - 65536) % 256 = t := by omega
  refine key_some hr (by rw [keyPart_time hr, e1, e2]) ?_
  intro r' hr' h'
  have hk' := (time_ok r' hr').key
  rw [keyPart_time hr'] at h'
  obtain ⟨e3, e4⟩ := hex2_inj (by omega) (by omega) (by omega) ht h'
  apply List.inj_on_of_nodup_map time_keys.1 hr' hr
  unfold timeNumber
  rw [e1, e2, e3, e4]

theorem time_record {d t : ℕ} (hd : d < 60) (ht : t < 60) (h : rats (60 * d + t) = true) :
    ∃ r ∈ TIME_YI_JI_RECORDS, r.1 = 65536 + 256 * d + t := by
  obtain ⟨r, hr, e⟩ := List.mem_map.1 ((time_keys.2 (60 * d + t)).2 ⟨by omega, h⟩)
  have hk := (time_ok r hr).key
  unfold timeNumber at e
  exact ⟨r, hr, by omega⟩

theorem time_none {d t : ℕ} (hd : d < 60) (ht : t < 60) (h : rats (60 * d + t) = false) :
    TIME_YI_JI_RECORDS.find? (fun r => (keyPart r).1 = LunarUtil.hex ((d : ℕ) : ℤ) ++ LunarUtil.hex ((t : ℕ) : ℤ)) = none := by
  rw [List.find?_eq_none]
  intro r hr hp
  simp only [decide_eq_true_eq] at hp
  have hk := (time_ok r hr).key
  rw [keyPart_time hr] at hp
  obtain ⟨e3, e4⟩ := hex2_inj (by omega) (by omega) (by omega) (by omega) hp
  have := (time_keys.2 (timeNumber r)).1 (List.mem_map.2 ⟨r, hr, rfl⟩)
  unfold timeNumber at this
  rw [e3, e4, h] at this
  cases this.2

theorem time_none_neg {K : PyStr} (h : ∃ s, s.length = 2 ∧ (K = s ++ LunarUtil.hex (-1) ∨ K = LunarUtil.hex (-1) ++ s)) :
    TIME_YI_JI_RECORDS.find? (fun r => (keyPart r).1 = K) = none := by
  rw [List.find?_eq_none]
  intro r hr hp
  simp only [decide_eq_true_eq] at hp
  have hk := (time_ok r hr).key
  have hx := hex_ok ⟨(r.1 - 65536) / 256, by omega⟩
  rw [keyPart_time hr] at hp
  obtain ⟨s, hs, rfl | rfl⟩ := h
  · obtain ⟨_, e⟩ := List.append_inj hp (hx.1.trans hs.symm)
    rw [hex_neg] at e
    exact hex_no_minus ⟨_, by omega⟩ e
  · obtain ⟨e, _⟩ := List.append_inj hp (hx.1.trans (by rw [hex_neg]; rfl))
    rw [hex_neg] at e
    exact hex_no_minus ⟨_, by omega⟩ e

/-! ## the table of spirits -/

def shenCheck (r : KeyRec) : Bool :=
  Nat.ble 4352 r.1 && Nat.blt r.1 7424 && Nat.blt (r.1 % 256) 60 &&
  Nat.beq (pack (fastBytes r.2.1)) r.2.1 && Nat.beq (pack (fastBytes r.2.2)) r.2.2 &&
  (fastBytes r.2.1).all (fun b => Nat.blt b 148 && (fastBytes r.2.2).all fun c => !Nat.beq b c) && (fastBytes r.2.2).all (fun b => Nat.blt b 148) &&
  (Nat.blt (run 148 (fastBytes r.2.1) 0) (2 ^ 148) && Nat.blt (run 148 (fastBytes r.2.2) 0) (2 ^ 148) || Nat.beq r.1 0x1809) &&
  !(fastBytes r.2.1).isEmpty && !(fastBytes r.2.2).isEmpty && alone 0 r.2.1 && alone 0 r.2.2

theorem shen_checked : DAY_SHEN_SHA_RECORDS.all shenCheck = true := by decide +kernel

structure ShenOk (r : KeyRec) : Prop where
  key : 4352 ≤ r.1 ∧ r.1 < 7424 ∧ r.1 % 256 < 60
  fields : KeyOk 148 r
  disjoint : ∀ b ∈ bytes r.2.1, b ∉ bytes r.2.2
  nodup : r.1 ≠ 0x1809 → (bytes r.2.1).Nodup ∧ (bytes r.2.2).Nodup
  yi_ne : bytes r.2.1 ≠ []
  ji_ne : bytes r.2.2 ≠ []
  yi_none : 0 ∈ bytes r.2.1 → bytes r.2.1 = [0]
  ji_none : 0 ∈ bytes r.2.2 → bytes r.2.2 = [0]

theorem shen_ok (r : KeyRec) (hr : r ∈ DAY_SHEN_SHA_RECORDS) : ShenOk r := by
  have h := List.all_eq_true.1 shen_checked r hr
  unfold shenCheck at h
  rw [fastBytes_eq] at h
  simp only [Bool.and_eq_true, Bool.or_eq_true, Nat.ble_eq, Nat.blt_eq, Nat.beq_eq, Bool.not_eq_true', List.isEmpty_eq_false_iff,
    List.all_eq_true] at h
  obtain ⟨⟨⟨⟨⟨⟨⟨⟨⟨⟨⟨h1, h2⟩, h3⟩, h4⟩, h5⟩, h6⟩, h7⟩, h8⟩, h9⟩, h10⟩, h11⟩, h12⟩ := h
  refine ⟨⟨h1, h2, h3⟩, ⟨h4, h5, fun b hb => ?_⟩, fun b hb hc => ?_, fun hn => ?_, h9, h10, alone_iff h11, alone_iff h12⟩
  · rcases List.mem_append.1 hb with hb | hb
    · exact (h6 b hb).1
    · exact h7 b hb
  · have := (h6 b hb).2 b hc
    simp at this
  · rcases h8 with h8 | h8
    · exact ⟨(run_zero h8.1).1, (run_zero h8.2).1⟩
    · exact absurd h8 hn

def shenNumber (r : KeyRec) : ℕ := 60 * (r.1 / 256 - 17) + r.1 % 256

theorem shen_keys_run : Nat.beq (run 720 (DAY_SHEN_SHA_RECORDS.map shenNumber) 0 + 1) (2 ^ 720) = true := by decide +kernel

theorem shen_keys : (DAY_SHEN_SHA_RECORDS.map shenNumber).Nodup ∧ ∀ i, i ∈ DAY_SHEN_SHA_RECORDS.map shenNumber ↔ i < 720 := by
  have h := Nat.eq_of_beq_eq_true shen_keys_run
  exact run_full h

theorem pyHex_month : ∀ m : Fin 16, (Nat.toDigits 16 (16 + (m : ℕ))).map Char.toUpper = '1' :: pyHex (((m : ℕ) : ℤ)) := by decide +kernel

theorem pyHex_len : ∀ m : Fin 16, (pyHex (((m : ℕ) : ℤ))).length = 1 ∧ '=' ∉ pyHex (((m : ℕ) : ℤ)) := by decide +kernel

theorem pyHex_inj : ∀ m n : Fin 16, pyHex (((m : ℕ) : ℤ)) = pyHex (((n : ℕ) : ℤ)) → m = n := by decide +kernel

theorem keyPart_shen {r : KeyRec} (hr : r ∈ DAY_SHEN_SHA_RECORDS) :
    (keyPart r).1 = pyHex ((r.1 / 256 - 16 : ℕ) : ℤ) ++ LunarUtil.hex ((r.1 % 256 : ℕ) : ℤ) := by
  have hk := (shen_ok r hr).key
  unfold keyPart hexField
  dsimp only
  have := pyHex_month ⟨r.1 / 256 - 16, by omega⟩
  dsimp only at this
  rw [toDigits_step (by omega), List.map_append, show r.1 / 256 = 16 + (r.1 / 256 - 16) by omega, this, hex_byte ⟨r.1 % 256, by omega⟩]
  rw [show 16 + (r.1 / 256 - 16) - 16 = r.1 / 256 - 16 by omega]
  rw [show r.1 % 16 = r.1 % 256 % 16 by omega]
  rfl

theorem shen_good : Good 3 (DAY_SHEN_SHA_RECORDS.map keyPart) := by
  intro q hq
  obtain ⟨r, hr, rfl⟩ := List.mem_map.1 hq
  have o := shen_ok r hr
  have hk := o.key
  have hx := pyHex_len ⟨r.1 / 256 - 16, by omega⟩
  have hy := hex_ok ⟨r.1 % 256, by omega⟩
  rw [keyPart_shen hr]
  refine ⟨by rw [List.length_append, hx.1, hy.1], by simp only [List.mem_append, not_or]; exact ⟨hx.2, hy.2⟩, ?_⟩
  simp [keyPart, o.fields.yi.sep.1, o.fields.ji.sep.1]

theorem shen_find (K : PyStr) (hl : K.length = 3) (hK : '=' ∉ K) :
    (pyFind (K ++ ['=']) DAY_SHEN_SHA).map (fun i => upToKey (DAY_SHEN_SHA.drop (i + 4)) 3) =
      (DAY_SHEN_SHA_RECORDS.find? (fun r => (keyPart r).1 = K)).map fun r => (keyPart r).2 := by
  rw [shen_text]
  exact key_find hl hK shen_good

theorem shen_inj {a b c d : ℕ} (ha : a < 16) (hb : b < 256) (hc : c < 16) (hd : d < 256)
    (h : pyHex ((a : ℕ) : ℤ) ++ LunarUtil.hex ((b : ℕ) : ℤ) = pyHex ((c : ℕ) : ℤ) ++ LunarUtil.hex ((d : ℕ) : ℤ)) : a = c ∧ b = d := by
  have h1 := pyHex_len ⟨a, ha⟩
  have h2 := pyHex_len ⟨c, hc⟩
  obtain ⟨e1, e2⟩ := List.append_inj h (h1.1.trans h2.1.symm)
  exact ⟨congrArg Fin.val (pyHex_inj ⟨a, ha⟩ ⟨c, hc⟩ e1), congrArg Fin.val (hex_inj ⟨b, hb⟩ ⟨d, hd⟩ e2)⟩

theorem shen_some {r : KeyRec} (hr : r ∈ DAY_SHEN_SHA_RECORDS) {m d : ℕ} (hd : d < 256) (h : r.1 = 4096 + 256 * m + d) :
    DAY_SHEN_SHA_RECORDS.find? (fun r => (keyPart r).1 = pyHex ((m : ℕ) : ℤ) ++ LunarUtil.hex ((d : ℕ) : ℤ)) = some r := by
  have hk := (shen_ok r hr).key
  have e1 : r.1 / 256 - 16 = m := by omega
  have e2 : r.1 % 256 = d := by omega
  refine key_some hr (by rw [keyPart_shen hr, e1, e2]) ?_
  intro r' hr' h'
  have hk' := (shen_ok r' hr').key
  rw [keyPart_shen hr'] at h'
  obtain ⟨e3, e4⟩ := shen_inj (by omega) (by omega) (by omega) hd h'
  apply List.inj_on_of_nodup_map shen_keys.1 hr' hr
  unfold shenNumber
  omega

theorem shen_record {m d : ℕ} (hm : 1 ≤ m) (hm' : m ≤ 12) (hd : d < 60) :
    ∃ r ∈ DAY_SHEN_SHA_RECORDS, r.1 = 4096 + 256 * m + d := by
  obtain ⟨r, hr, e⟩ := List.mem_map.1 ((shen_keys.2 (60 * (m - 1) + d)).2 (by omega))
  have hk := (shen_ok r hr).key
  unfold shenNumber at e
  exact ⟨r, hr, by omega⟩

theorem shen_none {m : ℕ} {s : PyStr} (hm : m < 16) (h : m = 0 ∨ 13 ≤ m ∨ s = LunarUtil.hex (-1)) :
    DAY_SHEN_SHA_RECORDS.find? (fun r => (keyPart r).1 = pyHex ((m : ℕ) : ℤ) ++ s) = none := by
  rw [List.find?_eq_none]
  intro r hr hp
  simp only [decide_eq_true_eq] at hp
  have hk := (shen_ok r hr).key
  rw [keyPart_shen hr] at hp
  have h1 := pyHex_len ⟨r.1 / 256 - 16, by omega⟩
  have h2 := pyHex_len ⟨m, hm⟩
  obtain ⟨e1, e2⟩ := List.append_inj hp (h1.1.trans h2.1.symm)
  have e3 := congrArg Fin.val (pyHex_inj ⟨r.1 / 256 - 16, by omega⟩ ⟨m, hm⟩ e1)
  dsimp only at e3
  rcases h with h | h | h
  · omega
  · omega
  · rw [h, hex_neg] at e2
    exact hex_no_minus ⟨_, by omega⟩ e2

end YiJi
