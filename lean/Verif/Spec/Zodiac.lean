import Mathlib.Data.Int.Notation

/-! # The signs of the zodiac -/

namespace Spec

/-- the signs in the order in which the sun passes through them, from the spring equinox: sign `k` is from `k` to `k + 1` times 30° -/
def zodiac (k : ℤ) : List Char :=
  [['白', '羊'], ['金', '牛'], ['双', '子'], ['巨', '蟹'], ['狮', '子'], ['处', '女'], ['天', '秤'], ['天', '蝎'], ['射', '手'], ['摩', '羯'],
   ['水', '瓶'], ['双', '鱼']].getD (k % 12).toNat []

end Spec
