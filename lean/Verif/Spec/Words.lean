import Mathlib.Algebra.Order.Group.Unbundled.Int
import Mathlib.Data.Int.Notation

/-! # Lunar dates in words -/

namespace Spec

/-- the Chinese numerals 〇 to 十 -/
def numeral (n : ℕ) : Char := ['〇', '一', '二', '三', '四', '五', '六', '七', '八', '九', '十'].getD n '?'

/-- a year read digit by digit -/
def yearWords (y : ℕ) : List Char := (Nat.toDigits 10 y).map (fun c => numeral (c.toNat - 48))

/-- a month: 正, the numerals, 冬, 腊; leap months with 闰 before -/
def monthWords (m : ℤ) : List Char :=
  (if m < 0 then ['闰'] else []) ++
    [if |m| = 1 then '正' else if |m| = 11 then '冬' else if |m| = 12 then '腊' else numeral |m|.toNat]

/-- a day: 初一 to 初十, 十一 to 十九, 二十, 廿一 to 廿九, 三十 -/
def dayWords (d : ℤ) : List Char :=
  if d ≤ 10 then ['初', numeral d.toNat] else if d < 20 then ['十', numeral (d - 10).toNat] else if d = 20 then ['二', '十']
  else if d < 30 then ['廿', numeral (d - 20).toNat] else ['三', '十']

/-- year, month and day -/
def dateWords (y : ℕ) (m d : ℤ) : List Char := yearWords y ++ ['年'] ++ monthWords m ++ ['月'] ++ dayWords d

end Spec
