import Verif.Conform.GoldDelete

/-
C84: analysis, checker and generator make of the test files of the project the files that its own tests
expect.  /repo/internal/testdata/generator/delete

This file is written by /verif/tools/conform.py; do not edit it by hand.
-/
namespace Verif.Conform

theorem deleteGoldens0_all : deleteGoldens0.all isGolden = true := by decide +kernel

theorem deleteGoldens1_all : deleteGoldens1.all isGolden = true := by decide +kernel

theorem deleteGoldens2_all : deleteGoldens2.all isGolden = true := by decide +kernel

theorem deleteGoldens3_all : deleteGoldens3.all isGolden = true := by decide +kernel

theorem deleteGoldens4_all : deleteGoldens4.all isGolden = true := by decide +kernel

theorem deleteGoldens5_all : deleteGoldens5.all isGolden = true := by decide +kernel

theorem deleteGoldens6_all : deleteGoldens6.all isGolden = true := by decide +kernel

theorem deleteGoldens7_all : deleteGoldens7.all isGolden = true := by decide +kernel

/-- Each of the files of the tests in /repo/internal/testdata/generator/delete. -/
theorem C84_delete : ∀ g ∈ deleteGoldens, asGolden g := isGolden_sound _ (by
  simp only [deleteGoldens, List.all_append, Bool.and_eq_true]
  exact ⟨⟨⟨⟨⟨⟨⟨deleteGoldens0_all, deleteGoldens1_all⟩, deleteGoldens2_all⟩, deleteGoldens3_all⟩, deleteGoldens4_all⟩, deleteGoldens5_all⟩, deleteGoldens6_all⟩, deleteGoldens7_all⟩)

/-- How many they are. -/
theorem C84_delete_cases : deleteGoldens.length = 32 := by decide

end Verif.Conform
