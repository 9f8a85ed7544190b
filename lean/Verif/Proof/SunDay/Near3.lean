import Verif.Proof.SunDay.Point

/-! # Principal terms near midnight (part 3), generated by `tools/clear.py` -/

namespace SunDay

/-- terms and the half minutes after J2000 they fall in -/
def near3 : List (ℕ × ℤ) := [
  (2478, 63967625), (2516, 65623857), (2524, 65983838), (2530, 66242723), (2534, 66412720), (2544, 66856544), (2574, 68175202), (2610, 69742308),
  (2612, 69831433), (2620, 70191412), (2630, 70620273), (2640, 71064099), (2686, 73077320), (2696, 73520845), (2700, 73690808), (2706, 73949887),
  (2708, 74039004), (2714, 74309952), (2716, 74399008), (2736, 75271702), (2782, 77284932), (2792, 77728461), (2796, 77898426), (2802, 78157521),
  (2804, 78246641), (2810, 78517559), (2812, 78606606), (2832, 79479305), (2848, 80173636), (2878, 81492525), (2888, 81936049), (2892, 82106001),
  (2898, 82365080), (2900, 82454197), (2906, 82725146), (2908, 82814207), (2928, 83686883), (2938, 84125006), (2944, 84381206), (2974, 85700071),
  (2984, 86143641), (2988, 86313610), (2994, 86572669), (3002, 86932705), (3034, 88332585), (3040, 88588797), (3078, 90265039), (3080, 90351213),
  (3084, 90521181), (3130, 92540175), (3134, 92710169), (3136, 92796392), (3174, 94472649), (3226, 96747796), (3230, 96917770), (3270, 98680255),
  (3308, 100336450), (3316, 100696461), (3322, 100955400), (3326, 101125386), (3336, 101569117), (3404, 104544015), (3412, 104904021)]

theorem near3_ok : near3.all nearOk = true := by decide +kernel

end SunDay
