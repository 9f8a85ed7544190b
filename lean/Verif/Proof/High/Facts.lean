import Verif.Proof.High.Months
import Verif.Proof.High.Moon
import Verif.Proof.High.Years
import Verif.Proof.High.Sun0
import Verif.Proof.High.Sun1
import Verif.Proof.High.Sun2
import Verif.Proof.High.Sun3
import Verif.Proof.High.Pts0
import Verif.Proof.High.Pts1
import Verif.Proof.High.Pts2
import Verif.Proof.High.Pts3

/-! # What is known of every year, generated by `tools/high.py` -/

open ShouXing

namespace High
variable {M : Libm} (hM : M.Good)
include hM

theorem sun_facts {Y : ℕ} (h1 : 1961 ≤ Y) (h2 : Y ≤ 10000) : SunFacts M Y := by
  by_cases c0 : Y ≤ 2081
  · exact sunFacts hM sunOk0 blockOk0 (by omega) c0
  by_cases c1 : Y ≤ 2129
  · exact sunFacts hM sunOk1 blockOk1 (by omega) c1
  by_cases c2 : Y ≤ 2732
  · exact sunFacts hM sunOk2 blockOk2 (by omega) c2
  by_cases c3 : Y ≤ 3772
  · exact sunFacts hM sunOk3 blockOk3 (by omega) c3
  by_cases c4 : Y ≤ 4812
  · exact sunFacts hM sunOk4 blockOk4 (by omega) c4
  by_cases c5 : Y ≤ 5852
  · exact sunFacts hM sunOk5 blockOk5 (by omega) c5
  by_cases c6 : Y ≤ 6892
  · exact sunFacts hM sunOk6 blockOk6 (by omega) c6
  by_cases c7 : Y ≤ 7932
  · exact sunFacts hM sunOk7 blockOk7 (by omega) c7
  by_cases c8 : Y ≤ 8972
  · exact sunFacts hM sunOk8 blockOk8 (by omega) c8
  by_cases c9 : Y ≤ 10000
  · exact sunFacts hM sunOk9 blockOk9 (by omega) c9
  omega

theorem run0 {Y : ℕ} (h1 : 1961 ≤ Y) (h2 : Y < 2040) : ∃ k, MoonFacts M Y k :=
  run_facts hM runOk0 rowsOk0 (sunRow hM sunOk0 (i := 18) rfl (by norm_num) (by norm_num) (by norm_num))
    (sunRow hM sunOk0 (i := 20) rfl (by norm_num) (by norm_num) (by norm_num))
    (sunRow hM sunOk0 (i := 22) rfl (by norm_num) (by norm_num) (by norm_num))
    (moonRow hM moonOk0 (by decide) (by decide) (by decide))
    (by simp only [excs0, List.all_append, List.all_nil, Bool.and_true, excOk0]) smallOk0 h1 h2

theorem run1 {Y : ℕ} (h1 : 2040 ≤ Y) (h2 : Y < 2081) : ∃ k, MoonFacts M Y k :=
  run_facts hM runOk1 rowsOk1 (sunRow hM sunOk0 (i := 18) rfl (by norm_num) (by norm_num) (by norm_num))
    (sunRow hM sunOk0 (i := 20) rfl (by norm_num) (by norm_num) (by norm_num))
    (sunRow hM sunOk0 (i := 22) rfl (by norm_num) (by norm_num) (by norm_num))
    (moonRow hM moonOk1 (by decide) (by decide) (by decide))
    (by simp only [excs1, List.all_append, List.all_nil, Bool.and_true, excOk1]) smallOk1 h1 h2

theorem run2 {Y : ℕ} (h1 : 2081 ≤ Y) (h2 : Y < 2129) : ∃ k, MoonFacts M Y k :=
  run_facts hM runOk2 rowsOk2 (sunRow hM sunOk1 (i := 18) rfl (by norm_num) (by norm_num) (by norm_num))
    (sunRow hM sunOk1 (i := 20) rfl (by norm_num) (by norm_num) (by norm_num))
    (sunRow hM sunOk1 (i := 22) rfl (by norm_num) (by norm_num) (by norm_num))
    (moonRow hM moonOk1 (by decide) (by decide) (by decide))
    (by simp only [excs2, List.all_append, List.all_nil, Bool.and_true, excOk2]) smallOk2 h1 h2

theorem run3 {Y : ℕ} (h1 : 2129 ≤ Y) (h2 : Y < 2200) : ∃ k, MoonFacts M Y k :=
  run_facts hM runOk3 rowsOk3 (sunRow hM sunOk2 (i := 18) rfl (by norm_num) (by norm_num) (by norm_num))
    (sunRow hM sunOk2 (i := 20) rfl (by norm_num) (by norm_num) (by norm_num))
    (sunRow hM sunOk2 (i := 22) rfl (by norm_num) (by norm_num) (by norm_num))
    (moonRow hM moonOk1 (by decide) (by decide) (by decide))
    (by simp only [excs3, List.all_append, List.all_nil, Bool.and_true, excOk3, excOk4]) smallOk3 h1 h2

theorem run4 {Y : ℕ} (h1 : 2200 ≤ Y) (h2 : Y < 2542) : ∃ k, MoonFacts M Y k :=
  run_facts hM runOk4 rowsOk4 (sunRow hM sunOk2 (i := 18) rfl (by norm_num) (by norm_num) (by norm_num))
    (sunRow hM sunOk2 (i := 20) rfl (by norm_num) (by norm_num) (by norm_num))
    (sunRow hM sunOk2 (i := 22) rfl (by norm_num) (by norm_num) (by norm_num))
    (moonRow hM moonOk2 (by decide) (by decide) (by decide))
    (by simp only [excs4, List.all_append, List.all_nil, Bool.and_true, excOk5, excOk6, excOk7, excOk8, excOk9]) smallOk4 h1 h2

theorem run5 {Y : ℕ} (h1 : 2542 ≤ Y) (h2 : Y < 2732) : ∃ k, MoonFacts M Y k :=
  run_facts hM runOk5 rowsOk5 (sunRow hM sunOk2 (i := 18) rfl (by norm_num) (by norm_num) (by norm_num))
    (sunRow hM sunOk2 (i := 20) rfl (by norm_num) (by norm_num) (by norm_num))
    (sunRow hM sunOk2 (i := 22) rfl (by norm_num) (by norm_num) (by norm_num))
    (moonRow hM moonOk3 (by decide) (by decide) (by decide))
    (by simp only [excs5, List.all_append, List.all_nil, Bool.and_true, excOk10, excOk11, excOk12]) smallOk5 h1 h2

theorem run6 {Y : ℕ} (h1 : 2732 ≤ Y) (h2 : Y < 3501) : ∃ k, MoonFacts M Y k :=
  run_facts hM runOk6 rowsOk6 (sunRow hM sunOk3 (i := 18) rfl (by norm_num) (by norm_num) (by norm_num))
    (sunRow hM sunOk3 (i := 20) rfl (by norm_num) (by norm_num) (by norm_num))
    (sunRow hM sunOk3 (i := 22) rfl (by norm_num) (by norm_num) (by norm_num))
    (moonRow hM moonOk3 (by decide) (by decide) (by decide))
    (by simp only [excs6, List.all_append, List.all_nil, Bool.and_true, excOk13, excOk14, excOk15, excOk16, excOk17, excOk18, excOk19, excOk20, excOk21, excOk22]) smallOk6 h1 h2

theorem run7 {Y : ℕ} (h1 : 3501 ≤ Y) (h2 : Y < 3772) : ∃ k, MoonFacts M Y k :=
  run_facts hM runOk7 rowsOk7 (sunRow hM sunOk3 (i := 18) rfl (by norm_num) (by norm_num) (by norm_num))
    (sunRow hM sunOk3 (i := 20) rfl (by norm_num) (by norm_num) (by norm_num))
    (sunRow hM sunOk3 (i := 22) rfl (by norm_num) (by norm_num) (by norm_num))
    (moonRow hM moonOk4 (by decide) (by decide) (by decide))
    (by simp only [excs7, List.all_append, List.all_nil, Bool.and_true, excOk23, excOk24, excOk25, excOk26]) smallOk7 h1 h2

theorem run8 {Y : ℕ} (h1 : 3772 ≤ Y) (h2 : Y < 4501) : ∃ k, MoonFacts M Y k :=
  run_facts hM runOk8 rowsOk8 (sunRow hM sunOk4 (i := 18) rfl (by norm_num) (by norm_num) (by norm_num))
    (sunRow hM sunOk4 (i := 20) rfl (by norm_num) (by norm_num) (by norm_num))
    (sunRow hM sunOk4 (i := 22) rfl (by norm_num) (by norm_num) (by norm_num))
    (moonRow hM moonOk4 (by decide) (by decide) (by decide))
    (by simp only [excs8, List.all_append, List.all_nil, Bool.and_true, excOk27, excOk28, excOk29, excOk30, excOk31, excOk32, excOk33, excOk34, excOk35, excOk36, excOk37]) smallOk8 h1 h2

theorem run9 {Y : ℕ} (h1 : 4501 ≤ Y) (h2 : Y < 4812) : ∃ k, MoonFacts M Y k :=
  run_facts hM runOk9 rowsOk9 (sunRow hM sunOk4 (i := 18) rfl (by norm_num) (by norm_num) (by norm_num))
    (sunRow hM sunOk4 (i := 20) rfl (by norm_num) (by norm_num) (by norm_num))
    (sunRow hM sunOk4 (i := 22) rfl (by norm_num) (by norm_num) (by norm_num))
    (moonRow hM moonOk5 (by decide) (by decide) (by decide))
    (by simp only [excs9, List.all_append, List.all_nil, Bool.and_true, excOk38, excOk39, excOk40, excOk41, excOk42]) smallOk9 h1 h2

theorem run10 {Y : ℕ} (h1 : 4812 ≤ Y) (h2 : Y < 5501) : ∃ k, MoonFacts M Y k :=
  run_facts hM runOk10 rowsOk10 (sunRow hM sunOk5 (i := 18) rfl (by norm_num) (by norm_num) (by norm_num))
    (sunRow hM sunOk5 (i := 20) rfl (by norm_num) (by norm_num) (by norm_num))
    (sunRow hM sunOk5 (i := 22) rfl (by norm_num) (by norm_num) (by norm_num))
    (moonRow hM moonOk5 (by decide) (by decide) (by decide))
    (by simp only [excs10, List.all_append, List.all_nil, Bool.and_true, excOk43, excOk44, excOk45, excOk46, excOk47, excOk48, excOk49, excOk50, excOk51, excOk52, excOk53, excOk54]) smallOk10 h1 h2

theorem run11 {Y : ℕ} (h1 : 5501 ≤ Y) (h2 : Y < 5852) : ∃ k, MoonFacts M Y k :=
  run_facts hM runOk11 rowsOk11 (sunRow hM sunOk5 (i := 18) rfl (by norm_num) (by norm_num) (by norm_num))
    (sunRow hM sunOk5 (i := 20) rfl (by norm_num) (by norm_num) (by norm_num))
    (sunRow hM sunOk5 (i := 22) rfl (by norm_num) (by norm_num) (by norm_num))
    (moonRow hM moonOk6 (by decide) (by decide) (by decide))
    (by simp only [excs11, List.all_append, List.all_nil, Bool.and_true, excOk55, excOk56, excOk57, excOk58, excOk59, excOk60, excOk61]) smallOk11 h1 h2

theorem run12 {Y : ℕ} (h1 : 5852 ≤ Y) (h2 : Y < 6501) : ∃ k, MoonFacts M Y k :=
  run_facts hM runOk12 rowsOk12 (sunRow hM sunOk6 (i := 18) rfl (by norm_num) (by norm_num) (by norm_num))
    (sunRow hM sunOk6 (i := 20) rfl (by norm_num) (by norm_num) (by norm_num))
    (sunRow hM sunOk6 (i := 22) rfl (by norm_num) (by norm_num) (by norm_num))
    (moonRow hM moonOk6 (by decide) (by decide) (by decide))
    (by simp only [excs12, List.all_append, List.all_nil, Bool.and_true, excOk62, excOk63, excOk64, excOk65, excOk66, excOk67, excOk68, excOk69, excOk70, excOk71, excOk72, excOk73]) smallOk12 h1 h2

theorem run13 {Y : ℕ} (h1 : 6501 ≤ Y) (h2 : Y < 6892) : ∃ k, MoonFacts M Y k :=
  run_facts hM runOk13 rowsOk13 (sunRow hM sunOk6 (i := 18) rfl (by norm_num) (by norm_num) (by norm_num))
    (sunRow hM sunOk6 (i := 20) rfl (by norm_num) (by norm_num) (by norm_num))
    (sunRow hM sunOk6 (i := 22) rfl (by norm_num) (by norm_num) (by norm_num))
    (moonRow hM moonOk7 (by decide) (by decide) (by decide))
    (by simp only [excs13, List.all_append, List.all_nil, Bool.and_true, excOk74, excOk75, excOk76, excOk77, excOk78, excOk79, excOk80, excOk81]) smallOk13 h1 h2

theorem run14 {Y : ℕ} (h1 : 6892 ≤ Y) (h2 : Y < 7501) : ∃ k, MoonFacts M Y k :=
  run_facts hM runOk14 rowsOk14 (sunRow hM sunOk7 (i := 18) rfl (by norm_num) (by norm_num) (by norm_num))
    (sunRow hM sunOk7 (i := 20) rfl (by norm_num) (by norm_num) (by norm_num))
    (sunRow hM sunOk7 (i := 22) rfl (by norm_num) (by norm_num) (by norm_num))
    (moonRow hM moonOk7 (by decide) (by decide) (by decide))
    (by simp only [excs14, List.all_append, List.all_nil, Bool.and_true, excOk82, excOk83, excOk84, excOk85, excOk86, excOk87, excOk88, excOk89, excOk90, excOk91, excOk92, excOk93, excOk94, excOk95]) smallOk14 h1 h2

theorem run15 {Y : ℕ} (h1 : 7501 ≤ Y) (h2 : Y < 7932) : ∃ k, MoonFacts M Y k :=
  run_facts hM runOk15 rowsOk15 (sunRow hM sunOk7 (i := 18) rfl (by norm_num) (by norm_num) (by norm_num))
    (sunRow hM sunOk7 (i := 20) rfl (by norm_num) (by norm_num) (by norm_num))
    (sunRow hM sunOk7 (i := 22) rfl (by norm_num) (by norm_num) (by norm_num))
    (moonRow hM moonOk8 (by decide) (by decide) (by decide))
    (by simp only [excs15, List.all_append, List.all_nil, Bool.and_true, excOk96, excOk97, excOk98, excOk99, excOk100, excOk101, excOk102, excOk103, excOk104, excOk105]) smallOk15 h1 h2

theorem run16 {Y : ℕ} (h1 : 7932 ≤ Y) (h2 : Y < 8501) : ∃ k, MoonFacts M Y k :=
  run_facts hM runOk16 rowsOk16 (sunRow hM sunOk8 (i := 18) rfl (by norm_num) (by norm_num) (by norm_num))
    (sunRow hM sunOk8 (i := 20) rfl (by norm_num) (by norm_num) (by norm_num))
    (sunRow hM sunOk8 (i := 22) rfl (by norm_num) (by norm_num) (by norm_num))
    (moonRow hM moonOk8 (by decide) (by decide) (by decide))
    (by simp only [excs16, List.all_append, List.all_nil, Bool.and_true, excOk106, excOk107, excOk108, excOk109, excOk110, excOk111, excOk112, excOk113, excOk114, excOk115, excOk116, excOk117, excOk118, excOk119]) smallOk16 h1 h2

theorem run17 {Y : ℕ} (h1 : 8501 ≤ Y) (h2 : Y < 8972) : ∃ k, MoonFacts M Y k :=
  run_facts hM runOk17 rowsOk17 (sunRow hM sunOk8 (i := 18) rfl (by norm_num) (by norm_num) (by norm_num))
    (sunRow hM sunOk8 (i := 20) rfl (by norm_num) (by norm_num) (by norm_num))
    (sunRow hM sunOk8 (i := 22) rfl (by norm_num) (by norm_num) (by norm_num))
    (moonRow hM moonOk9 (by decide) (by decide) (by decide))
    (by simp only [excs17, List.all_append, List.all_nil, Bool.and_true, excOk120, excOk121, excOk122, excOk123, excOk124, excOk125, excOk126, excOk127, excOk128, excOk129, excOk130, excOk131, excOk132]) smallOk17 h1 h2

theorem run18 {Y : ℕ} (h1 : 8972 ≤ Y) (h2 : Y < 9501) : ∃ k, MoonFacts M Y k :=
  run_facts hM runOk18 rowsOk18 (sunRow hM sunOk9 (i := 18) rfl (by norm_num) (by norm_num) (by norm_num))
    (sunRow hM sunOk9 (i := 20) rfl (by norm_num) (by norm_num) (by norm_num))
    (sunRow hM sunOk9 (i := 22) rfl (by norm_num) (by norm_num) (by norm_num))
    (moonRow hM moonOk9 (by decide) (by decide) (by decide))
    (by simp only [excs18, List.all_append, List.all_nil, Bool.and_true, excOk133, excOk134, excOk135, excOk136, excOk137, excOk138, excOk139, excOk140, excOk141, excOk142, excOk143, excOk144, excOk145, excOk146, excOk147]) smallOk18 h1 h2

theorem run19 {Y : ℕ} (h1 : 9501 ≤ Y) (h2 : Y < 9999) : ∃ k, MoonFacts M Y k :=
  run_facts hM runOk19 rowsOk19 (sunRow hM sunOk9 (i := 18) rfl (by norm_num) (by norm_num) (by norm_num))
    (sunRow hM sunOk9 (i := 20) rfl (by norm_num) (by norm_num) (by norm_num))
    (sunRow hM sunOk9 (i := 22) rfl (by norm_num) (by norm_num) (by norm_num))
    (moonRow hM moonOk10 (by decide) (by decide) (by decide))
    (by simp only [excs19, List.all_append, List.all_nil, Bool.and_true, excOk148, excOk149, excOk150, excOk151, excOk152, excOk153, excOk154, excOk155, excOk156, excOk157, excOk158, excOk159, excOk160, excOk161]) smallOk19 h1 h2

theorem moon_facts {Y : ℕ} (h1 : 1961 ≤ Y) (h2 : Y ≤ 9998) : ∃ k, MoonFacts M Y k := by
  by_cases c0 : Y < 2040
  · exact run0 hM (by omega) c0
  by_cases c1 : Y < 2081
  · exact run1 hM (by omega) c1
  by_cases c2 : Y < 2129
  · exact run2 hM (by omega) c2
  by_cases c3 : Y < 2200
  · exact run3 hM (by omega) c3
  by_cases c4 : Y < 2542
  · exact run4 hM (by omega) c4
  by_cases c5 : Y < 2732
  · exact run5 hM (by omega) c5
  by_cases c6 : Y < 3501
  · exact run6 hM (by omega) c6
  by_cases c7 : Y < 3772
  · exact run7 hM (by omega) c7
  by_cases c8 : Y < 4501
  · exact run8 hM (by omega) c8
  by_cases c9 : Y < 4812
  · exact run9 hM (by omega) c9
  by_cases c10 : Y < 5501
  · exact run10 hM (by omega) c10
  by_cases c11 : Y < 5852
  · exact run11 hM (by omega) c11
  by_cases c12 : Y < 6501
  · exact run12 hM (by omega) c12
  by_cases c13 : Y < 6892
  · exact run13 hM (by omega) c13
  by_cases c14 : Y < 7501
  · exact run14 hM (by omega) c14
  by_cases c15 : Y < 7932
  · exact run15 hM (by omega) c15
  by_cases c16 : Y < 8501
  · exact run16 hM (by omega) c16
  by_cases c17 : Y < 8972
  · exact run17 hM (by omega) c17
  by_cases c18 : Y < 9501
  · exact run18 hM (by omega) c18
  by_cases c19 : Y < 9999
  · exact run19 hM (by omega) c19
  omega

theorem moon_crude {k : ℤ} (h1 : -500 ≤ k) (h2 : k ≤ 99000) :
    29530600 * (k : ℚ) + 1600000 ≤ moonU M k * 1000000 ∧ moonU M k * 1000000 ≤ 29530600 * (k : ℚ) + 7400000 := by
  obtain ⟨K, rfl⟩ : ∃ K : ℕ, k = (K : ℤ) - 1000 := ⟨(k + 1000).toNat, by omega⟩
  by_cases c0 : K ≤ 1500
  · exact crudeMoon_mem crudeOk0 (by omega) c0 (moonRow hM moonOk0 (K1 := 500) (K2 := 1500) (by decide) (by decide) (by decide) K (by omega) c0)
  by_cases c1 : K ≤ 3486
  · exact crudeMoon_mem crudeOk1 (by omega) c1 (moonRow hM moonOk1 (K1 := 986) (K2 := 3486) (by decide) (by decide) (by decide) K (by omega) c1)
  by_cases c2 : K ≤ 7710
  · exact crudeMoon_mem crudeOk2 (by omega) c2 (moonRow hM moonOk2 (K1 := 1710) (K2 := 7710) (by decide) (by decide) (by decide) K (by omega) c2)
  by_cases c3 : K ≤ 19568
  · exact crudeMoon_mem crudeOk3 (by omega) c3 (moonRow hM moonOk3 (K1 := 7168) (K2 := 19568) (by decide) (by decide) (by decide) K (by omega) c3)
  by_cases c4 : K ≤ 31937
  · exact crudeMoon_mem crudeOk4 (by omega) c4 (moonRow hM moonOk4 (K1 := 19537) (K2 := 31937) (by decide) (by decide) (by decide) K (by omega) c4)
  by_cases c5 : K ≤ 44305
  · exact crudeMoon_mem crudeOk5 (by omega) c5 (moonRow hM moonOk5 (K1 := 31905) (K2 := 44305) (by decide) (by decide) (by decide) K (by omega) c5)
  by_cases c6 : K ≤ 56674
  · exact crudeMoon_mem crudeOk6 (by omega) c6 (moonRow hM moonOk6 (K1 := 44274) (K2 := 56674) (by decide) (by decide) (by decide) K (by omega) c6)
  by_cases c7 : K ≤ 69042
  · exact crudeMoon_mem crudeOk7 (by omega) c7 (moonRow hM moonOk7 (K1 := 56642) (K2 := 69042) (by decide) (by decide) (by decide) K (by omega) c7)
  by_cases c8 : K ≤ 81411
  · exact crudeMoon_mem crudeOk8 (by omega) c8 (moonRow hM moonOk8 (K1 := 69011) (K2 := 81411) (by decide) (by decide) (by decide) K (by omega) c8)
  by_cases c9 : K ≤ 93779
  · exact crudeMoon_mem crudeOk9 (by omega) c9 (moonRow hM moonOk9 (K1 := 81379) (K2 := 93779) (by decide) (by decide) (by decide) K (by omega) c9)
  by_cases c10 : K ≤ 100000
  · exact crudeMoon_mem crudeOk10 (by omega) c10 (moonRow hM moonOk10 (K1 := 93748) (K2 := 100000) (by decide) (by decide) (by decide) K (by omega) c10)
  omega

theorem month_facts {Y s : ℕ} (h1 : 1961 ≤ Y) (h2 : Y ≤ 6891) (hs : s < 24) : InMonth (termV M (24 * (Y - 2000) + s)) := by
  have key : ∀ {w : Row} {Y1 Y2 : ℕ} {ws : List Row}, monthAll Y1 Y2 ws hints = true → ws[s]? = some w → Y1 ≤ Y → Y ≤ Y2 →
      w.Bd Y (termV M (24 * (Y - 2000) + s)) → InMonth (termV M (24 * (Y - 2000) + s)) := by
    intro w Y1 Y2 ws H e a b hb
    obtain ⟨h, e2, h3⟩ := monthAll_get H e
    rcases h3 Y a b with h4 | h4
    · have := List.all_eq_true.1 hints_nil h (List.mem_of_getElem? e2)
      rw [List.isEmpty_iff] at this
      rw [this] at h4
      simp at h4
    · exact h4 _ hb
  by_cases c0 : Y ≤ 2081
  · obtain ⟨w, e, _, _, _, r⟩ := row_facts hM sunOk0 blockOk0 hs
    exact key monthOk0 e (by omega) c0 (r Y (by omega) (by omega)).2
  by_cases c1 : Y ≤ 2129
  · obtain ⟨w, e, _, _, _, r⟩ := row_facts hM sunOk1 blockOk1 hs
    exact key monthOk1 e (by omega) c1 (r Y (by omega) (by omega)).2
  by_cases c2 : Y ≤ 2732
  · obtain ⟨w, e, _, _, _, r⟩ := row_facts hM sunOk2 blockOk2 hs
    exact key monthOk2 e (by omega) c2 (r Y (by omega) (by omega)).2
  by_cases c3 : Y ≤ 3772
  · obtain ⟨w, e, _, _, _, r⟩ := row_facts hM sunOk3 blockOk3 hs
    exact key monthOk3 e (by omega) c3 (r Y (by omega) (by omega)).2
  by_cases c4 : Y ≤ 4812
  · obtain ⟨w, e, _, _, _, r⟩ := row_facts hM sunOk4 blockOk4 hs
    exact key monthOk4 e (by omega) c4 (r Y (by omega) (by omega)).2
  by_cases c5 : Y ≤ 5852
  · obtain ⟨w, e, _, _, _, r⟩ := row_facts hM sunOk5 blockOk5 hs
    exact key monthOk5 e (by omega) c5 (r Y (by omega) (by omega)).2
  by_cases c6 : Y ≤ 6891
  · obtain ⟨w, e, _, _, _, r⟩ := row_facts hM sunOk6 blockOk6 hs
    exact key monthOk6 e (by omega) c6 (r Y (by omega) (by omega)).2
  omega

end High
