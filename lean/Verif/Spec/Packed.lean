import Mathlib.Data.Nat.Notation

/-! # Packed lists of the almanac

A packed field is a number whose base-256 digits, after a leading digit 1, are the entries of a list. -/

namespace Spec

/-- the base-256 digits of a number after the leading 1, at most `fuel` of them -/
def bytesUpTo : ℕ → ℕ → List ℕ
  | 0, _ => []
  | fuel + 1, n => if n ≤ 1 then [] else bytesUpTo fuel (n / 256) ++ [n % 256]

/-- the entries of a packed field (no field of the almanac has more than 40) -/
def bytes (n : ℕ) : List ℕ := bytesUpTo 40 n

/-- the names of the entries of a packed field -/
def namesOf (table : List (List Char)) (n : ℕ) : List (List Char) := (bytes n).map fun i => table.getD i []

/-- the same, with 无 (none) for an empty list -/
def namesOrNone (table : List (List Char)) (n : ℕ) : List (List Char) := if bytes n = [] then [['无']] else namesOf table n

/-- a pair of lists of the almanac, of what to do and what to avoid: not empty, names of the table, no name in both,
and 无 (none) only by itself -/
structure Lists (table yi ji : List (List Char)) : Prop where
  yi_ne : yi ≠ []
  ji_ne : ji ≠ []
  yi_known : ∀ x ∈ yi, x ∈ table
  ji_known : ∀ x ∈ ji, x ∈ table
  apart : ∀ x ∈ yi, x ∈ ji → x = ['无']
  yi_none : ['无'] ∈ yi → yi = [['无']]
  ji_none : ['无'] ∈ ji → ji = [['无']]

example : bytes 0x1192531010D = [0x19, 0x25, 0x31, 0x01, 0x0D] ∧ bytes 0x1 = [] := by decide

end Spec
