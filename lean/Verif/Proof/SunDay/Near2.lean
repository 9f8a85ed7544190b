import Verif.Proof.SunDay.Point

/-! # Principal terms near midnight (part 2), generated by `tools/clear.py` -/

namespace SunDay

/-- terms and the half minutes after J2000 they fall in -/
def near2 : List (ℕ × ℤ) := [
  (1686, 29254985), (1706, 30130320), (1724, 30911270), (1732, 31271235), (1738, 31530027), (1742, 31700038), (1782, 33462577), (1820, 35118860),
  (1828, 35478822), (1838, 35907659), (1848, 36351551), (1878, 37670191), (1904, 38808209), (1908, 38978146), (1914, 39237319), (1916, 39326469),
  (1924, 39686424), (1944, 40559158), (1990, 42572371), (2000, 43015809), (2004, 43185745), (2010, 43444908), (2012, 43534056), (2018, 43804990),
  (2020, 43894011), (2040, 44766731), (2056, 45460973), (2086, 46779940), (2096, 47223388), (2100, 47393322), (2106, 47652464), (2108, 47741610),
  (2114, 48012556), (2116, 48101584), (2136, 48974295), (2146, 49412335), (2152, 49668583), (2182, 50987506), (2190, 51344843), (2192, 51430985),
  (2196, 51600920), (2202, 51860065), (2204, 51949205), (2210, 52220132), (2232, 53181880), (2242, 53619915), (2246, 53789913), (2248, 53876156),
  (2278, 55195110), (2286, 55552428), (2288, 55638570), (2292, 55808516), (2298, 56067658), (2306, 56427738), (2338, 57827538), (2342, 57997532),
  (2344, 58083775), (2374, 59402694), (2382, 59760049), (2384, 59846198), (2388, 60016138), (2402, 60635328), (2428, 61776255), (2434, 62035128),
  (2438, 62205128), (2440, 62291366)]

theorem near2_ok : near2.all nearOk = true := by decide +kernel

end SunDay
