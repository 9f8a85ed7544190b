import Verif.Proof.Low.Days

/-! # The corrections, unpacked, generated by `tools/low.py` -/

open Aff0 ShouXing

namespace Low

/-- the characters of `QB_CODE` -/
def qbList : List Char := [
  'F', 'r', 'c', 'F', 's', '2', '2', 'A', 'F', 's', 'c', 'k', 'F', '2', 't', 's', 'D', 't', 'F', 'q', 'E', 't', 'F',
  '1', 'p', 'o', 's', 'F', 'd', 'F', 'g', 'i', 'F', 's', 'e', 'F', 't', 'm', 'e', 'l', 'p', 's', 'E', 'f', 'h', 'k',
  'F', '2', 'a', 'n', 'm', 'e', 'l', 'p', 'F', 'l', 'F', '1', 'i', 'k', 'r', 'o', 't', 'c', 'n', 'E', 'q', 'E', 'q',
  '2', 'F', 'f', 'q', 'm', 'c', 'D', 's', 'r', 'F', 'o', 'r', '2', '2', 'F', 'g', 'F', 'r', 'c', 'g', 'D', 's', 'c',
  'F', 's', '2', '2', 'F', 'g', 'E', 'e', 'F', 't', 'E', '2', 's', 'f', 'F', 's', '2', '2', 's', 'C', 'o', 'E', 's',
  'a', 'F', '2', 't', 's', 'D', '1', 'F', 'p', 'e', 'E', '2', 'e', 'F', 's', 's', 's', 'E', 'c', 'i', 'F', 's', 'F',
  'n', 'm', 'e', 'l', 'p', 'F', 'c', 'F', 'h', 'k', 'F', '2', 't', 'c', 'n', 'E', 'q', 'E', 'p', 'F', 'g', 'k', 'r',
  'o', 't', 'c', 'n', 'E', 'q', 'r', 'E', 't', 'F', 'e', 'r', 'm', 'c', 'D', 's', 'r', 'E', '2', '2', '2', 'F', 'g',
  'B', 'm', 'c', 'm', 'r', '2', '2', 'D', 'a', 'E', 'f', 'n', 'a', 'F', '2', '2', '2', 's', 'D', '1', 'F', 'p', 'e',
  'F', 'o', 'r', 'e', 'F', '2', 't', 's', 's', 'E', 'f', 'i', 'F', 'p', 'E', 'o', 'e', 'F', 's', 's', 'D', '1', 'i',
  'F', 's', 't', 'E', 'q', 'F', 'p', 'p', 'D', 'g', 'F', 's', 't', 'c', 'n', 'E', 'q', 'E', 'p', 'F', 'g', '1', '1',
  'F', 's', 'c', 'n', 'E', 'q', 'r', 'A', 'o', 'A', 'F', '2', 'C', 'l', 'A', 'E', 's', 'D', 'm', 'D', 't', 'C', 't',
  'B', 'a', 'D', 'l', 'A', 'F', 'b', 'A', 'E', 'p', 'A', 'A', 'A', 'A', 'A', 'D', '2', 'F', 'g', 'B', 'i', 'B', 'q',
  'o', 'B', 'b', 'n', 'B', 'a', 'B', 'o', 'A', 'A', 'A', 'A', 'A', 'A', 'A', 'E', 'g', 'D', 'q', 'A', 'd', 'B', 'q',
  'A', 'F', 'r', 'B', 'a', 'B', 'o', 'A', 'C', 'd', 'A', 'A', 'f', '1', 'A', 'A', 'C', 'g', 'A', 'A', 'A', 'e', 'B',
  'b', 'C', 'a', 'm', 'D', 'g', 'E', 'i', 'f', 'A', 'E', '2', 'A', 'A', 'B', 'a', '1', 'C', '1', 'B', 'g', 'F', 'd',
  'i', 'A', 'A', 'A', 'C', 'o', 'C', 'e', 'E', '1', 'A', 'D', 'i', 'E', 'i', 'f', 'D', 'a', 'A', 'E', 'q', 'A', 'A',
  'F', 'e', '1', 'A', 'c', 'F', 'b', 'c', 'A', 'A', 'A', 'A', 'A', 'F', '1', 'i', 'F', 'a', 'A', 'A', 'A', 'C', 'p',
  'A', 'C', 'm', 'F', 'm', 'A', 'A', 'A', 'A', 'A', 'A', 'A', 'A', 'C', 'r', 'D', 'a', 'A', 'A', 'A', 'D', 'G', '0']

theorem qb_code : QB_CODE = String.ofList qbList := by set_option maxRecDepth 1000000 in rfl

theorem qb_packed : packedCode qbList qbPacked = true := by decide +kernel

theorem qb_get (i : ℕ) : correction QB i = corrOf (digit4 qbPacked i) := by
  have e : QB = decode qbList := by unfold QB; rw [qb_code, String.toList_ofList]
  rw [e]
  exact packed_get (packedCode_mem qb_packed) i

/-- the characters of `SB_CODE` -/
def sbList : List Char := [
  'E', 'q', 'o', 'F', 's', 'c', 'D', 'c', 'r', 'F', 'p', 'm', 'E', 's', 'F', '2', 'D', 'f', 'F', 'i', 'd', 'e', 'F',
  'e', 'l', 'F', 'p', 'F', 'f', 'F', 'f', 'F', 'i', 'a', 'i', 'p', 'q', 't', 'i', '1', 'k', 's', 't', 't', 'i', 'k',
  'p', 't', 'i', 'k', 'q', 'c', 'k', 's', 't', 'e', 'k', 'q', 't', 't', 'g', 'k', 'q', 't', 't', 'g', 'k', 'q', 't',
  'e', 'k', 's', 't', 't', 'i', 'k', 'p', 't', 'i', 'k', 'q', '2', 'f', 'j', 's', 't', 'g', 'j', 'q', 't', 't', 'j',
  'k', 'q', 't', 't', 'g', 'k', 'q', 't', 'e', 'k', 's', 't', 'f', 'k', 'p', 't', 'i', 'k', 'q', '2', 't', 'i', 'j',
  's', 't', 'g', 'j', 'i', 'F', 'k', 'i', 'r', 'F', 's', 'A', 'e', 'A', 'C', 'o', 'F', 's', 'i', 'D', 'a', 'D', 'i',
  'A', 'D', 'c', '1', 'A', 'F', 'b', 'B', 'f', 'g', 'd', 'f', 'i', 'k', 'i', 'j', 'F', 'i', 'f', 'e', 'g', 'F', '1',
  'F', 'h', 'a', 'i', 'k', 'g', 'F', 'a', 'g', '1', 'E', '2', 'b', 't', 'a', 'i', 'e', 'e', 'i', 'b', 'g', 'g', 'i',
  'f', 'f', 'd', 'e', 'i', 'g', 'F', 'f', 'q', 'D', 'f', 'a', 'i', 'B', 'k', 'F', '1', 'k', 'E', 'a', 'i', 'k', 'h',
  'k', 'i', 'g', 'e', 'i', 'd', 'h', 'h', 'd', 'i', 'e', 'g', 'c', 'F', 'f', 'a', 'k', 'F', '1', 'g', 'g', 'k', 'i',
  'd', 'b', 'i', 'a', 'e', 'd', 'k', 's', 'a', 'F', 'f', 'f', 'c', 'k', 'e', 'k', 'i', 'd', 'h', 'h', 'd', 'h', 'd',
  'i', 'k', 'c', 'i', 'k', 'i', 'a', 'k', 'i', 'c', 'j', 'F', '1', 'd', 'e', 'e', 'd', 'F', 'h', 'F', 'c', 'c', 'g',
  'i', 'c', 'd', 'e', 'k', 'g', 'i', 'F', 'b', 'i', 'a', 'i', 'k', 'c', 'f', 'i', '1', 'k', 'b', 'F', 'i', 'b', 'e',
  'f', 'g', 'E', 'g', 'F', 'd', 'c', 'F', 'k', 'F', 'e', 'F', 'k', 'd', 'c', 'f', 'k', 'F', '1', 'k', 'f', 'k', 'c',
  'i', 'c', 'k', 'E', 'i', 'F', 'k', 'D', 'a', 'c', 'F', 'i', 'E', 'f', 'b', 'i', 'a', 'e', 'j', 'c', 'F', 'f', 'f',
  'f', 'k', 'h', 'k', 'd', 'g', 'k', 'a', 'i', 'e', 'i', '1', 'e', 'h', 'i', 'g', 'i', 'k', 'h', 'd', 'F', 'i', 'k',
  'f', 'c', 'k', 'F', '1', 'd', 'h', 'h', 'd', 'i', 'k', 'c', 'f', 'g', 'j', 'i', 'k', 'h', 'f', 'j', 'i', 'c', 'j',
  'i', 'c', 'g', 'i', 'e', 'h', 'd', 'i', 'k', 'c', 'i', 'k', 'g', 'g', 'c', 'i', 'f', 'g', 'i', 'e', 'j', 'F', '1',
  'j', 'k', 'i', 'e', 'F', 'h', 'e', 'g', 'i', 'k', 'g', 'g', 'c', 'i', 'k', 'F', 'e', 'g', 'i', 'e', 'g', 'k', 'f',
  'j', 'e', 'b', 'h', 'i', 'g', 'i', 'k', 'g', 'g', 'c', 'i', 'k', 'd', 'g', 'k', 'a', 'F', 'k', 'i', 'j', 'c', 'f',
  'k', 'c', 'i', 'k', 'f', 'k', 'c', 'i', 'f', 'i', 'k', 'i', 'g', 'g', 'k', 'a', 'e', 'e', 'i', 'g', 'e', 'f', 'k',
  'c', 'd', 'f', 'c', 'f', 'k', 'h', 'k', 'd', 'g', 'k', 'e', 'g', 'i', 'e', 'i', 'd', 'h', 'i', 'j', 'c', 'F', 'f',
  'a', 'k', 'h', 'f', 'g', 'e', 'i', 'd', 'i', 'e', 'i', 'd', 'i', 'e', 'g', 'i', 'k', 'h', 'f', 'k', 'f', 'c', 'k',
  'f', 'c', 'j', 'b', 'd', 'e', 'h', 'd', 'i', 'k', 'g', 'g', 'i', 'k', 'g', 'k', 'f', 'k', 'i', 'c', 'j', 'i', 'c',
  'j', 'F', '1', 'd', 'b', 'i', 'd', 'i', 'k', 'F', 'i', 'g', 'g', 'c', 'i', 'f', 'g', 'i', 'e', 'j', 'k', 'i', 'e',
  'g', 'k', 'i', 'g', 'c', 'd', 'i', 'e', 'g', 'f', 'g', 'g', 'c', 'i', 'k', 'd', 'b', 'g', 'f', 'g', 'e', 'f', 'j',
  'F', '1', 'k', 'f', 'e', 'g', 'i', 'k', 'g', 'g', 'c', 'i', 'k', 'd', 'g', 'F', 'k', 'e', 'e', 'i', 'j', 'c', 'f',
  'k', 'c', 'i', 'k', 'f', 'k', 'e', 'k', 'c', 'i', 'k', 'd', 'g', 'k', 'a', 'b', 'h', 'k', 'F', 'i', 'k', 'a', 'f',
  'f', 'c', 'f', 'k', 'h', 'k', 'd', 'g', 'k', 'e', 'g', 'b', 'i', 'a', 'e', 'k', 'f', 'k', 'i', 'a', 'k', 'i', 'c',
  'j', 'h', 'f', 'g', 'q', 'd', 'q', '2', 'f', 'k', 'i', 'a', 'k', 'g', 'k', 'f', 'k', 'h', 'f', 'k', 'f', 'c', 'j',
  'i', 'e', 'k', 'g', 'F', 'e', 'b', 'i', 'c', 'g', 'g', 'b', 'e', 'd', 'F', '1', 'j', 'i', 'k', 'e', 'j', 'b', 'b',
  'b', 'i', 'a', 'k', 'g', 'b', 'g', 'k', 'a', 'c', 'g', 'i', 'e', 'j', 'k', 'i', 'j', 'j', 'g', 'i', 'g', 'f', 'i',
  'a', 'k', 'g', 'g', 'f', 'g', 'g', 'c', 'i', 'b', 'F', 'i', 'f', 'j', 'e', 'f', 'j', 'F', '1', 'k', 'f', 'e', 'k',
  'd', 'g', 'j', 'c', 'i', 'b', 'F', 'e', 'F', 'k', 'i', 'j', 'c', 'f', 'k', 'f', 'h', 'k', 'f', 'k', 'e', 'a', 'i',
  'e', 'i', 'g', 'e', 'k', 'g', 'b', 'h', 'k', 'f', 'i', 'k', 'i', 'd', 'f', 'c', 'j', 'e', 'a', 'i', 'b', 'g', 'e',
  'k', 'g', 'd', 'k', 'i', 'f', 'f', 'i', 'f', 'f', 'k', 'i', 'a', 'k', 'F', '1', 'j', 'h', 'b', 'a', 'k', 'g', 'd',
  'k', 'i', '1', 'd', 'j', '1', 'i', 'k', 'f', 'k', 'i', 'c', 'j', 'i', 'c', 'j', 'i', 'e', 'e', 'F', 'k', 'g', 'd',
  'k', 'i', 'c', 'g', 'g', 'k', 'i', 'g', 'h', 'd', 'F', '1', 'j', 'f', 'g', 'k', 'g', 'f', 'g', 'b', 'd', 'k', 'i',
  'c', 'g', 'g', 'f', 'g', 'g', 'k', 'i', 'd', 'F', 'k', 'i', 'e', 'k', 'g', 'i', 'j', 'k', 'e', 'i', 'g', 'f', 'i',
  's', 'k', 'i', 'g', 'g', 'f', 'a', 'i', 'd', 'h', 'e', 'i', 'g', 'F', '1', 'j', 'e', 'k', 'i', 'j', 'c', 'i', 'k',
  'i', 'c', 'k', 'i', 'g', 'g', 'k', 'i', 'd', 'h', 'h', 'd', 'b', 'g', 'c', 'f', 'k', 'F', 'i', 'k', 'i', 'k', 'h',
  'k', 'i', 'g', 'e', 'i', 'd', 'i', 'e', 'F', 'i', 'k', 'g', 'g', 'i', 'k', 'h', 'k', 'f', 'f', 'a', 'f', 'f', 'i',
  'j', 'h', 'i', 'd', 'h', 'h', 'a', 'k', 'g', 'd', 'k', 'h', 'k', 'i', 'j', 'F', '1', 'k', 'i', 'a', 'k', 'F', '1',
  'k', 'f', 'h', 'e', 'a', 'k', 'g', 'd', 'k', 'i', 'f', 'i', 'g', 'g', 'k', 'i', 'g', 'i', 'c', 'j', 'i', 'e', 'j',
  'k', 'i', 'e', 'e', 'd', 'i', 'k', 'g', 'd', 'f', 'c', 'g', 'g', 'k', 'i', 'g', 'i', 'e', 'e', 'i', 'e', 'j', 'f',
  'g', 'k', 'g', 'k', 'i', 'g', 'b', 'g', 'i', 'k', 'i', 'c', 'g', 'g', 'k', 'i', 'a', 'i', 'd', 'e', 'e', 'i', 'j',
  'k', 'e', 'f', 'j', 'e', 'i', 'j', 'i', 'k', 'h', 'k', 'i', 'g', 'g', 'k', 'i', 'a', 'i', 'd', 'h', 'e', 'i', 'g',
  'c', 'i', 'k', 'a', 'i', 'k', 'f', 'f', 'i', 'k', 'i', 'j', 'g', 'k', 'i', 'a', 'h', 'i', '1', 'h', 'h', 'd', 'i',
  'k', 'g', 'j', 'f', 'i', 'f', 'a', 'a', 'k', 'e', 'k', 'i', 'g', 'h', 'i', 'e', '1', 'h', 'i', 'a', 'i', 'k', 'g',
  'g', 'i', 'k', 'h', 'k', 'f', 'f', 'a', 'k', 'i', 'c', 'j', 'h', 'i', 'a', 'h', 'a', 'i', 'k', 'g', 'g', 'i', 'k',
  'h', 'k', 'i', 'j', 'F', '1', 'k', 'f', 'e', 'j', 'f', 'e', 'F', 'h', 'i', 'd', 'i', 'k', 'g', 'g', 'i', 'f', 'f',
  'i', 'g', 'g', 'k', 'i', 'g', 'i', 'c', 'j', 'i', 'e', 'k', 'g', 'i', 'e', 'e', 'i', 'g', 'i', 'k', 'g', 'g', 'i',
  'f', 'f', 'i', 'g', 'g', 'k', 'i', 'd', 'h', 'e', 'i', 'g', 'k', 'g', 'f', 'j', 'k', 'e', 'i', 'g', 'i', 'e', 'g',
  'i', 'k', 'i', 'f', 'i', 'g', 'g', 'k', 'i', 'd', 'h', 'e', 'd', 'e', 'i', 'j', 'c', 'f', 'k', 'F', 'i', 'k', 'i',
  'k', 'h', 'k', 'i', 'g', 'g', 'k', 'i', 'd', 'h', 'h', '1', 'e', 'h', 'i', 'g', 'c', 'i', 'k', 'a', 'f', 'f', 'k',
  'h', 'k', 'i', 'g', 'g', 'k', 'i', 'd', 'h', 'h', '1', 'h', 'h', 'i', 'g', 'i', 'k', 'e', 'k', 'f', 'i', 'F', 'k',
  'F', 'i', 'k', 'c', 'i', 'd', 'h', 'h', '1', 'h', 'i', 't', 'c', 'i', 'k', 'g', 'g', 'i', 'k', 'h', 'k', 'f', 'k',
  'i', 'c', 'j', 'i', 'c', 'g', 'h', 'i', 'e', 'd', 'i', 'a', 'i', 'k', 'g', 'g', 'i', 'k', 'h', 'k', 'i', 'j', 'b',
  'j', 'f', 'e', 'j', 'f', 'e', 'F', 'h', 'a', 'i', 'k', 'g', 'g', 'i', 'f', 'i', 'k', 'i', 'g', 'g', 'k', 'i', 'g',
  'i', 'e', 'j', 'k', 'i', 'k', 'g', 'k', 'g', 'i', 'e', 'e', 'i', 'g', 'i', 'k', 'g', 'g', 'i', 'f', 'f', 'i', 'g',
  'g', 'k', 'i', 'g', 'i', 'e', 'e', 'i', 'g', 'e', 'k', 'i', 'j', 'c', 'i', 'j', 'i', 'k', 'g', 'g', 'i', 'f', 'i',
  'k', 'i', 'g', 'g', 'k', 'i', 'd', 'e', 'e', 'd', 'e', 'i', 'j', 'k', 'e', 'f', 'k', 'f', 'c', 'k', 'i', 'k', 'h',
  'k', 'i', 'g', 'g', 'k', 'i', 'd', 'h', 'h', '1', 'e', 'h', 'i', 'j', 'c', 'i', 'k', 'a', 'f', 'f', 'k', 'h', 'k',
  'i', 'g', 'g', 'k', 'i', 'd', 'h', 'h', '1', 'h', 'h', 'i', 'g', 'i', 'k', 'h', 'k', 'i', 'k', 'F', 'i', 'k', 'f',
  'c', 'k', 'c', 'i', 'd', 'h', 'h', '1', 'h', 'i', 'a', 'i', 'k', 'g', 'j', 'i', 'k', 'h', 'f', 'j', 'i', 'c', 'j',
  'i', 'c', 'g', 'i', 'e', 'h', 'd', 'i', 'k', 'c', 'i', 'k', 'g', 'g', 'i', 'f', 'i', 'k', 'i', 'g', 'i', 'e', 'j',
  'f', 'e', 'j', 'k', 'i', 'e', 'F', 'h', 'e', 'g', 'i', 'k', 'g', 'g', 'i', 'f', 'i', 'k', 'i', 'g', 'g', 'f', 'g',
  'h', 'i', 'g', 'k', 'f', 'j', 'e', 'i', 'j', 'k', 'h', 'i', 'g', 'i', 'k', 'g', 'g', 'i', 'f', 'i', 'k', 'i', 'g',
  'g', 'k', 'i', 'g', 'i', 'e', 'e', 'i', 'j', 'c', 'i', 'j', 'c', 'i', 'k', 'f', 'k', 's', 'i', 'k', 'i', 'f', 'i',
  'k', 'i', 'g', 'g', 'k', 'i', 'd', 'e', 'h', 'd', 'e', 'i', 'j', 'c', 'f', 'd', 'c', 'k', 'i', 'k', 'h', 'k', 'i',
  'g', 'g', 'k', 'h', 'g', 'h', 'h', '1', 'e', 'h', 'i', 'j', 'i', 'k', 'i', 'f', 'f', 'f', 'f', 'f', 'k', 'h', 's',
  'F', 'n', 'g', 'E', 'r', 'D', '1', 'p', 'A', 'f', 'B', 'o', 'D', 'd', '1', 'B', 'l', 'E', 't', 'F', 'q', 'A', '2',
  'A', 'q', 'o', 'E', 'p', 'D', 'q', 'E', 'l', 'A', 'E', 's', 'E', 'e', 'B', '2', 'B', 'm', 'A', 'D', 'l', 'D', 'k',
  'q', 'B', 't', 'C', '1', 'F', 'n', 'E', 'p', 'D', 'q', 'n', 'E', 'm', 'F', 's', 'F', 's', 'A', 'F', 'n', 'l', 'l',
  'B', 'b', 'F', 'm', 'D', 's', 'D', 'i', 'C', 't', 'D', 'm', 'A', 'B', '2', 'B', 'm', 't', 'C', 'g', 'p', 'E', 'p',
  'l', 'C', 'p', 'A', 'E', 'i', 'B', 'i', 'E', 'o', 'F', 'q', 'F', 't', 'E', 'q', 's', 'D', 'c', 'C', 'n', 'F', 't',
  'A', 'D', 'n', 'F', 'l', 'E', 'g', 'd', 'k', 'E', 'g', 'm', 'E', 't', 'E', 's', 'C', 't', 'D', 'm', 'A', 'D', 'q',
  'F', 't', 'A', 'F', 'r', 'A', 't', 'E', 'c', 'C', 'q', 'A', 'E', '1', 'B', 'o', 'F', 'q', 'C', '1', 'F', '1', 'D',
  'r', 'F', 't', 'B', 'm', 'F', 't', 'A', 'C', '2', 'A', 'C', 'n', 'F', 'a', 'o', 'C', 'g', 'A', 'D', 'c', 'A', 'D',
  'c', 'C', 'c', 'F', 'f', 'o', 'F', 't', 'D', 'l', 'A', 'F', 'g', 'm', 'F', 'q', 'B', 'q', '2', 'b', 'p', 'E', 'o',
  'A', 'E', 'm', 'k', 'q', 'n', 'E', 'e', 'C', 't', 'A', 'E', '1', 'b', 'A', 'E', 'q', 'g', 'D', 'f', 'F', 'f', 'C',
  'r', 'g', 'E', 'c', 'B', 'r', 'A', 'C', 'f', 'A', 'A', 'A', 'B', 'q', 'A', 'A', 'B', '1', 'A', 'A', 'C', 'l', 'E',
  'n', 'F', 'e', 'C', 't', 'C', 'g', 'A', 'A', 'D', 'q', 'D', 'o', 'B', 'm', 't', 'A', 'A', 'A', 'C', 'b', 'F', 'i',
  'A', 'A', 'A', 'D', 's', 'E', 't', 'B', 'q', 'A', 'B', '2', 'F', 's', 'D', 'q', 'p', 'F', 'q', 'E', 'm', 'F', 's',
  'C', 'e', 'D', 't', 'F', 'l', 'C', 'e', 'D', 't', 'o', 'E', 'p', 'C', 'l', 'E', 'q', 'A', 'A', 'F', 'r', 'A', 'F',
  'o', 'C', 'g', 'F', 'm', 'F', 's', 'F', 'q', 'E', 'n', 'A', 'E', 'c', 'C', 'q', 'F', 'e', 'C', 't', 'F', 't', 'E',
  'n', 'A', 'E', 'e', 'F', 't', 'A', 'A', 'E', 'k', 'F', 'n', 'E', 'r', 'A', 'A', 'B', 'b', 'F', 'k', 'A', 'D', 'n',
  'A', 'A', 'e', 'C', 't', 'F', 'e', 'A', 'f', 'B', 'o', 'A', 'E', 'p', 'F', 't', 'A', 'A', 'B', 't', 'F', 'q', 'A',
  'A', 'p', 'D', 'c', 'C', 'G', 'J']

theorem sb_code : SB_CODE = String.ofList sbList := by set_option maxRecDepth 1000000 in rfl

theorem sb_packed : packedCode sbList sbPacked = true := by decide +kernel

theorem sb_get (i : ℕ) : correction SB i = corrOf (digit4 sbPacked i) := by
  have e : SB = decode sbList := by unfold SB; rw [sb_code, String.toList_ofList]
  rw [e]
  exact packed_get (packedCode_mem sb_packed) i

end Low
