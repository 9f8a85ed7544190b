import Verif.Proof.High.Data
import Verif.Proof.High.Table

/-! # Every year, generated by `tools/high.py` -/

namespace High

theorem runOk0 : runOk rows0 79 1961 excs0 = true := by decide +kernel
theorem rowsOk0 : rowsOk rows0 79 1961 = true := by decide +kernel
theorem smallOk0 : excs0.all small = true := by decide +kernel
theorem runOk1 : runOk rows1 41 2040 excs1 = true := by decide +kernel
theorem rowsOk1 : rowsOk rows1 41 2040 = true := by decide +kernel
theorem smallOk1 : excs1.all small = true := by decide +kernel
theorem runOk2 : runOk rows2 48 2081 excs2 = true := by decide +kernel
theorem rowsOk2 : rowsOk rows2 48 2081 = true := by decide +kernel
theorem smallOk2 : excs2.all small = true := by decide +kernel
theorem runOk3 : runOk rows3 71 2129 excs3 = true := by decide +kernel
theorem rowsOk3 : rowsOk rows3 71 2129 = true := by decide +kernel
theorem smallOk3 : excs3.all small = true := by decide +kernel
theorem runOk4 : runOk rows4 342 2200 excs4 = true := by decide +kernel
theorem rowsOk4 : rowsOk rows4 342 2200 = true := by decide +kernel
theorem smallOk4 : excs4.all small = true := by decide +kernel
theorem runOk5 : runOk rows5 190 2542 excs5 = true := by decide +kernel
theorem rowsOk5 : rowsOk rows5 190 2542 = true := by decide +kernel
theorem smallOk5 : excs5.all small = true := by decide +kernel
theorem runOk6 : runOk rows6 769 2732 excs6 = true := by decide +kernel
theorem rowsOk6 : rowsOk rows6 769 2732 = true := by decide +kernel
theorem smallOk6 : excs6.all small = true := by decide +kernel
theorem runOk7 : runOk rows7 271 3501 excs7 = true := by decide +kernel
theorem rowsOk7 : rowsOk rows7 271 3501 = true := by decide +kernel
theorem smallOk7 : excs7.all small = true := by decide +kernel
theorem runOk8 : runOk rows8 729 3772 excs8 = true := by decide +kernel
theorem rowsOk8 : rowsOk rows8 729 3772 = true := by decide +kernel
theorem smallOk8 : excs8.all small = true := by decide +kernel
theorem runOk9 : runOk rows9 311 4501 excs9 = true := by decide +kernel
theorem rowsOk9 : rowsOk rows9 311 4501 = true := by decide +kernel
theorem smallOk9 : excs9.all small = true := by decide +kernel
theorem runOk10 : runOk rows10 689 4812 excs10 = true := by decide +kernel
theorem rowsOk10 : rowsOk rows10 689 4812 = true := by decide +kernel
theorem smallOk10 : excs10.all small = true := by decide +kernel
theorem runOk11 : runOk rows11 351 5501 excs11 = true := by decide +kernel
theorem rowsOk11 : rowsOk rows11 351 5501 = true := by decide +kernel
theorem smallOk11 : excs11.all small = true := by decide +kernel
theorem runOk12 : runOk rows12 649 5852 excs12 = true := by decide +kernel
theorem rowsOk12 : rowsOk rows12 649 5852 = true := by decide +kernel
theorem smallOk12 : excs12.all small = true := by decide +kernel
theorem runOk13 : runOk rows13 391 6501 excs13 = true := by decide +kernel
theorem rowsOk13 : rowsOk rows13 391 6501 = true := by decide +kernel
theorem smallOk13 : excs13.all small = true := by decide +kernel
theorem runOk14 : runOk rows14 609 6892 excs14 = true := by decide +kernel
theorem rowsOk14 : rowsOk rows14 609 6892 = true := by decide +kernel
theorem smallOk14 : excs14.all small = true := by decide +kernel
theorem runOk15 : runOk rows15 431 7501 excs15 = true := by decide +kernel
theorem rowsOk15 : rowsOk rows15 431 7501 = true := by decide +kernel
theorem smallOk15 : excs15.all small = true := by decide +kernel
theorem runOk16 : runOk rows16 569 7932 excs16 = true := by decide +kernel
theorem rowsOk16 : rowsOk rows16 569 7932 = true := by decide +kernel
theorem smallOk16 : excs16.all small = true := by decide +kernel
theorem runOk17 : runOk rows17 471 8501 excs17 = true := by decide +kernel
theorem rowsOk17 : rowsOk rows17 471 8501 = true := by decide +kernel
theorem smallOk17 : excs17.all small = true := by decide +kernel
theorem runOk18 : runOk rows18 529 8972 excs18 = true := by decide +kernel
theorem rowsOk18 : rowsOk rows18 529 8972 = true := by decide +kernel
theorem smallOk18 : excs18.all small = true := by decide +kernel
theorem runOk19 : runOk rows19 498 9501 excs19 = true := by decide +kernel
theorem rowsOk19 : rowsOk rows19 498 9501 = true := by decide +kernel
theorem smallOk19 : excs19.all small = true := by decide +kernel
theorem blockOk0 : blockOk 20 61 sun0 1961 2081 = true := by decide +kernel
theorem blockOk1 : blockOk 105 24 sun1 2081 2129 = true := by decide +kernel
theorem blockOk2 : blockOk 430 302 sun2 2128 2732 = true := by decide +kernel
theorem blockOk3 : blockOk 1252 520 sun3 2732 3772 = true := by decide +kernel
theorem blockOk4 : blockOk 2292 520 sun4 3772 4812 = true := by decide +kernel
theorem blockOk5 : blockOk 3332 520 sun5 4812 5852 = true := by decide +kernel
theorem blockOk6 : blockOk 4372 520 sun6 5852 6892 = true := by decide +kernel
theorem blockOk7 : blockOk 5412 520 sun7 6892 7932 = true := by decide +kernel
theorem blockOk8 : blockOk 6452 520 sun8 7932 8972 = true := by decide +kernel
theorem blockOk9 : blockOk 7492 520 sun9 8972 10000 = true := by decide +kernel
theorem crudeOk0 : crudeMoon moon0 500 1500 = true := by decide +kernel
theorem crudeOk1 : crudeMoon moon1 986 3486 = true := by decide +kernel
theorem crudeOk2 : crudeMoon moon2 1710 7710 = true := by decide +kernel
theorem crudeOk3 : crudeMoon moon3 7168 19568 = true := by decide +kernel
theorem crudeOk4 : crudeMoon moon4 19537 31937 = true := by decide +kernel
theorem crudeOk5 : crudeMoon moon5 31905 44305 = true := by decide +kernel
theorem crudeOk6 : crudeMoon moon6 44274 56674 = true := by decide +kernel
theorem crudeOk7 : crudeMoon moon7 56642 69042 = true := by decide +kernel
theorem crudeOk8 : crudeMoon moon8 69011 81411 = true := by decide +kernel
theorem crudeOk9 : crudeMoon moon9 81379 93779 = true := by decide +kernel
theorem crudeOk10 : crudeMoon moon10 93748 100000 = true := by decide +kernel

end High
