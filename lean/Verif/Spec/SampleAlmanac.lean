import Verif.Model.LunarYear

/-! # A sample almanac

The new moons and solar terms of 2021-12 .. 2026-03 (Beijing time, days from 2000-01-01), used only to
show that the hypotheses of the theorems about lunar years can be met. -/

namespace Sample

/-- days of the new moons, from 2021-12-04 to 2026-03-19 -/
def moons : List ℤ :=
  [8008, 8038, 8067, 8097, 8126, 8156, 8185, 8215, 8245, 8274, 8304, 8333,
   8363, 8392, 8422, 8451, 8481, 8510, 8540, 8569, 8599, 8628, 8658, 8688, 8717, 8747, 8776, 8806, 8835,
   8865, 8894, 8923, 8953, 8982, 9012, 9042, 9071, 9101, 9131, 9160, 9190, 9219, 9249, 9278, 9307, 9337,
   9366, 9396, 9425, 9455, 9485, 9515, 9544, 9574]

/-- days of the solar terms, from 大雪 of 2021 (2021-12-07) on -/
def suns : List ℤ :=
  [8011, 8025, 8040, 8055, 8070, 8085, 8099, 8114, 8130, 8145, 8160, 8176, 8192, 8207, 8223, 8239, 8254,
   8270, 8285, 8301, 8316, 8331, 8346, 8361, 8376, 8391, 8405, 8420, 8435, 8450, 8465, 8480, 8495, 8510, 8526, 8541, 8557, 8572, 8588, 8604, 8620,
   8635, 8651, 8666, 8681, 8697, 8712, 8726, 8741, 8756, 8771, 8785, 8800, 8815, 8830, 8845, 8860, 8875,
   8891, 8906, 8922, 8938, 8953, 8969, 8985, 9000, 9016, 9031, 9047, 9062, 9077, 9092, 9106, 9121, 9136,
   9151, 9165, 9180, 9195, 9210, 9225, 9241, 9256, 9272, 9287, 9303, 9319, 9334, 9350, 9366, 9381, 9397,
   9412, 9427, 9442, 9457, 9472, 9486, 9501, 9516, 9531, 9545, 9560, 9575, 9591]

/-- last entry not greater than `x` (0 if there is none) -/
def lastLE (l : List ℤ) (x : ℚ) : ℤ := (l.filter (fun d : ℤ => decide ((d : ℚ) ≤ x))).getLastD 0

/-- new moon and solar term nearest to a given day; the instant of a term is put at 15:30 of its day -/
def astro : Astro where
  calcShuo x := lastLE moons (x + 14)
  calcQi x := lastLE suns (x + 7)
  qiAccurate2 x := lastLE suns (x + 7) + 7 / 48

end Sample
