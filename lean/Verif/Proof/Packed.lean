import Mathlib.Data.List.Induction
import Verif.Model.YiJi
import Verif.Spec.Packed

/-! # Checking packed tables in the kernel

The tables of `YiJiTables.lean` are checked whole, by functions that the kernel evaluates quickly; the lemmas here say what
such a check proves. -/

namespace Packed
open Spec LunarUtil

/-- `f n`, with `n` evaluated before -/
def force {α : Type} (n : ℕ) (f : ℕ → α) : α := Nat.rec (f 0) (fun k _ => f (k + 1)) n

theorem force_eq {α : Type} (n : ℕ) (f : ℕ → α) : force n f = f n := by cases n <;> rfl

/-- `bytesUpTo`, evaluated eagerly -/
def fastBytesUpTo : ℕ → ℕ → List ℕ → List ℕ
  | 0, _, acc => acc
  | f + 1, n, acc => force n fun n => bif Nat.ble n 1 then acc else force (n % 256) fun b => fastBytesUpTo f (n / 256) (b :: acc)

theorem fastBytesUpTo_eq (f : ℕ) : ∀ n acc, fastBytesUpTo f n acc = bytesUpTo f n ++ acc := by
  induction f with
  | zero => intro n acc; rfl
  | succ f ih =>
    intro n acc
    rw [fastBytesUpTo, bytesUpTo, force_eq, force_eq, ih]
    by_cases h : n ≤ 1
    · rw [if_pos h, Nat.ble_eq_true_of_le h]; rfl
    · rw [if_neg h, show Nat.ble n 1 = false by rw [← Bool.not_eq_true, Nat.ble_eq]; exact h]
      simp

def fastBytes (n : ℕ) : List ℕ := fastBytesUpTo 40 n []

theorem fastBytes_eq : fastBytes = bytes := by
  funext n
  unfold fastBytes bytes
  rw [fastBytesUpTo_eq, List.append_nil]

theorem bytesUpTo_lt (f : ℕ) : ∀ n, ∀ b ∈ bytesUpTo f n, b < 256 := by
  induction f with
  | zero => intro n b hb; cases hb
  | succ f ih =>
    intro n b hb
    rw [bytesUpTo] at hb
    split at hb
    · cases hb
    · rcases List.mem_append.1 hb with h | h
      · exact ih _ _ h
      · rw [List.mem_singleton] at h; omega

theorem bytes_lt {n : ℕ} : ∀ b ∈ bytes n, b < 256 := bytesUpTo_lt 40 n

/-- put together the entries of a packed field -/
def pack (bs : List ℕ) : ℕ := bs.foldl (fun a b => 256 * a + b) 1

/-- the set of the entries as a number; bit `N` is set when an entry occurs twice -/
def run (N : ℕ) : List ℕ → ℕ → ℕ
  | [], m => m
  | a :: l, m => force m fun m => force a fun a => run N l (bif m.testBit a then m ||| 2 ^ N else m ||| 2 ^ a)

theorem run_cons (N a : ℕ) (l : List ℕ) (m : ℕ) :
    run N (a :: l) m = run N l (bif m.testBit a then m ||| 2 ^ N else m ||| 2 ^ a) := by
  rw [run, force_eq, force_eq]

theorem run_mono (N : ℕ) {i : ℕ} : ∀ (l : List ℕ) (m : ℕ), m.testBit i = true → (run N l m).testBit i = true
  | [], _, h => h
  | a :: l, m, h => by
    rw [run_cons]
    apply run_mono
    cases m.testBit a <;> simp [h]

theorem run_spec (N : ℕ) : ∀ (l : List ℕ) (m : ℕ), run N l m < 2 ^ N →
    l.Nodup ∧ (∀ a ∈ l, a < N ∧ m.testBit a = false) ∧ ∀ i, (run N l m).testBit i = true ↔ m.testBit i = true ∨ i ∈ l
  | [], m, _ => by simp [run]
  | a :: l, m, h => by
    rw [run_cons] at h ⊢
    have hb : m.testBit a = false := by
      rw [Bool.eq_false_iff]
      intro hm
      rw [hm] at h
      have h1 : (run N l (m ||| 2 ^ N)).testBit N = true := run_mono N l _ (by simp [Nat.testBit_or, Nat.testBit_two_pow_self])
      have h2 := Nat.testBit_lt_two_pow (show run N l (m ||| 2 ^ N) < 2 ^ N from h)
      rw [h1] at h2
      cases h2
    rw [hb] at h ⊢
    dsimp only [cond_false] at h ⊢
    obtain ⟨h1, h2, h3⟩ := run_spec N l _ h
    refine ⟨List.nodup_cons.2 ⟨fun ha => ?_, h1⟩, ?_, fun i => ?_⟩
    · have := (h2 a ha).2
      rw [Nat.testBit_or, Nat.testBit_two_pow_self, Bool.or_true] at this
      cases this
    · intro b hb'
      rcases List.mem_cons.1 hb' with rfl | hb'
      · refine ⟨?_, hb⟩
        by_contra hN
        have h4 : (run N l (m ||| 2 ^ b)).testBit b = true := (h3 b).2 (Or.inl (by simp [Nat.testBit_or, Nat.testBit_two_pow_self]))
        have h5 := Nat.testBit_lt_two_pow (Nat.lt_of_lt_of_le h (Nat.pow_le_pow_right (by omega) (Nat.not_lt.1 hN)))
        rw [h4] at h5
        cases h5
      · have := h2 b hb'
        rw [Nat.testBit_or, Bool.or_eq_false_iff] at this
        exact ⟨this.1, this.2.1⟩
    · rw [h3 i, Nat.testBit_or, Bool.or_eq_true, Nat.testBit_two_pow, List.mem_cons, decide_eq_true_iff]
      constructor
      · rintro ((h | h) | h)
        · exact Or.inl h
        · exact Or.inr (Or.inl h.symm)
        · exact Or.inr (Or.inr h)
      · rintro (h | h | h)
        · exact Or.inl (Or.inl h)
        · exact Or.inl (Or.inr h.symm)
        · exact Or.inr h

theorem run_zero {N : ℕ} {l : List ℕ} (h : run N l 0 < 2 ^ N) : l.Nodup ∧ (∀ a ∈ l, a < N) ∧ ∀ i, (run N l 0).testBit i = true ↔ i ∈ l := by
  obtain ⟨h1, h2, h3⟩ := run_spec N l 0 h
  exact ⟨h1, fun a ha => (h2 a ha).1, fun i => by rw [h3 i]; simp⟩

theorem run_full {N : ℕ} {l : List ℕ} (h : run N l 0 + 1 = 2 ^ N) : l.Nodup ∧ ∀ a, a ∈ l ↔ a < N := by
  obtain ⟨h1, h2, h3⟩ := run_zero (N := N) (l := l) (by omega)
  refine ⟨h1, fun a => ⟨h2 a, fun ha => (h3 a).1 ?_⟩⟩
  rw [show run N l 0 = 2 ^ N - 1 by omega, Nat.testBit_two_pow_sub_one, decide_eq_true_iff]
  exact ha

/-! ## texts of packed fields -/

theorem toDigits_step {n : ℕ} (h : 256 ≤ n) :
    Nat.toDigits 16 n = Nat.toDigits 16 (n / 256) ++ [Nat.digitChar (n % 256 / 16), Nat.digitChar (n % 16)] := by
  rw [Nat.toDigits_of_base_le (by omega) (by omega : 16 ≤ n), Nat.toDigits_of_base_le (by omega) (by omega : 16 ≤ n / 16),
    Nat.div_div_eq_div_mul, List.append_assoc, show n / 16 % 16 = n % 256 / 16 by omega]
  rfl

theorem hex_byte : ∀ b : Fin 256, LunarUtil.hex (((b : ℕ) : ℤ)) = [(Nat.digitChar ((b : ℕ) / 16)).toUpper, (Nat.digitChar ((b : ℕ) % 16)).toUpper] := by
  decide +kernel

/-- the digits of a packed field -/
def hexes (bs : List ℕ) : PyStr := (bs.map fun b => LunarUtil.hex ((b : ℕ) : ℤ)).flatten

theorem pack_append (bs : List ℕ) (b : ℕ) : pack (bs ++ [b]) = 256 * pack bs + b := by unfold pack; rw [List.foldl_append]; rfl

theorem pack_pos (bs : List ℕ) : 1 ≤ pack bs := by
  induction bs using List.reverseRecOn with
  | nil => decide
  | append_singleton bs b ih => rw [pack_append]; omega

theorem toDigits_pack (bs : List ℕ) (h : ∀ b ∈ bs, b < 256) :
    (Nat.toDigits 16 (pack bs)).map Char.toUpper = '1' :: hexes bs := by
  induction bs using List.reverseRecOn with
  | nil => decide +kernel
  | append_singleton bs b ih =>
    have hb : b < 256 := h b (by simp)
    have := pack_pos bs
    rw [pack_append, toDigits_step (by omega), List.map_append, show (256 * pack bs + b) / 256 = pack bs by omega,
      ih fun x hx => h x (by simp [hx]), show (256 * pack bs + b) % 256 = b by omega, show (256 * pack bs + b) % 16 = b % 16 by omega]
    unfold hexes
    rw [List.map_append, List.flatten_append, List.map_singleton, List.flatten_singleton, hex_byte ⟨b, hb⟩]
    rfl

theorem hexField_eq {n : ℕ} (h : pack (bytes n) = n) : hexField n = hexes (bytes n) := by
  have := toDigits_pack (bytes n) bytes_lt
  rw [h] at this
  unfold hexField
  rw [this]
  rfl

theorem pairs_hexes (bs : List ℕ) (h : ∀ b ∈ bs, b < 256) : pairs (hexes bs) = bs.map fun b => LunarUtil.hex ((b : ℕ) : ℤ) := by
  induction bs with
  | nil => rfl
  | cons b bs ih =>
    have hb : b < 256 := h b (by simp)
    have e : hexes (b :: bs) = LunarUtil.hex ((b : ℕ) : ℤ) ++ hexes bs := by
      unfold hexes; rw [List.map_cons, List.flatten_cons]
    rw [e, hex_byte ⟨b, hb⟩]
    simp only [List.cons_append, List.nil_append, pairs, List.map_cons, List.cons.injEq]
    exact ⟨(hex_byte ⟨b, hb⟩).symm, ih fun x hx => h x (by simp [hx])⟩

theorem hex_chars : ∀ b : Fin 256, ∀ c ∈ LunarUtil.hex (((b : ℕ) : ℤ)), c ≠ '=' ∧ c ≠ ':' ∧ c ≠ ',' := by decide +kernel

theorem hexes_chars (bs : List ℕ) (h : ∀ b ∈ bs, b < 256) : ∀ c ∈ hexes bs, c ≠ '=' ∧ c ≠ ':' ∧ c ≠ ',' := by
  intro c hc
  unfold hexes at hc
  obtain ⟨s, hs, hc⟩ := List.mem_flatten.1 hc
  obtain ⟨b, hb, rfl⟩ := List.mem_map.1 hs
  exact hex_chars ⟨b, h b hb⟩ c hc

end Packed
