import Verif.Conform.GoldUpdate

/-
C84: analysis, checker and generator make of the test files of the project the files that its own tests
expect.  /repo/internal/testdata/generator/update

This file is written by /verif/tools/conform.py; do not edit it by hand.
-/
namespace Verif.Conform

theorem updateGoldens0_all : updateGoldens0.all isGolden = true := by decide +kernel

theorem updateGoldens1_all : updateGoldens1.all isGolden = true := by decide +kernel

theorem updateGoldens2_all : updateGoldens2.all isGolden = true := by decide +kernel

theorem updateGoldens3_all : updateGoldens3.all isGolden = true := by decide +kernel

/-- Each of the files of the tests in /repo/internal/testdata/generator/update. -/
theorem C84_update : ∀ g ∈ updateGoldens, asGolden g := isGolden_sound _ (by
  simp only [updateGoldens, List.all_append, Bool.and_eq_true]
  exact ⟨⟨⟨updateGoldens0_all, updateGoldens1_all⟩, updateGoldens2_all⟩, updateGoldens3_all⟩)

/-- How many they are. -/
theorem C84_update_cases : updateGoldens.length = 15 := by decide

end Verif.Conform
