import Verif.Proof.SunDay.Point

/-! # Principal terms near midnight (part 0), generated by `tools/clear.py` -/

namespace SunDay

/-- terms and the half minutes after J2000 they fall in -/
def near0 : List (ℕ × ℤ) := [
  (64, -41846555), (94, -40527420), (102, -40170266), (122, -39294816), (144, -38333042), (158, -37725246), (160, -37638941), (190, -36319809),
  (198, -35962661), (218, -35087245), (244, -33946364), (254, -33517662), (294, -31755098), (320, -30617111), (324, -30447215), (330, -30187932),
  (332, -30098731), (340, -29738791), (416, -26409524), (420, -26239608), (426, -25980346), (428, -25891153), (436, -25531210), (456, -24658404),
  (466, -24220610), (472, -23964276), (512, -22201911), (522, -21772730), (524, -21683533), (530, -21412587), (532, -21323608), (552, -20450797),
  (562, -20013008), (566, -19842977), (568, -19756675), (598, -18437595), (606, -18080405), (608, -17994314), (612, -17824407), (618, -17565140),
  (620, -17475948), (626, -17204986), (628, -17115997), (648, -16243204), (658, -15805395), (662, -15635386), (664, -15549093), (694, -14230021),
  (702, -13872812), (704, -13786712), (708, -13616800), (714, -13357565), (716, -13268380), (722, -12997421), (744, -12035658), (754, -11597825),
  (758, -11427799), (760, -11341504), (790, -10022455), (798, -9665253), (810, -9149984), (818, -8789855), (840, -7828063), (850, -7390234),
  (854, -7220210), (856, -7133919)]

theorem near0_ok : near0.all nearOk = true := by decide +kernel

end SunDay
