import Verif.Conform.GoldFilter

/-
C84: analysis, checker and generator make of the test files of the project the files that its own tests
expect.  /repo/internal/testdata/generator/filter

This file is written by /verif/tools/conform.py; do not edit it by hand.
-/
namespace Verif.Conform

theorem filterGoldens0_all : filterGoldens0.all isGolden = true := by decide +kernel

theorem filterGoldens1_all : filterGoldens1.all isGolden = true := by decide +kernel

/-- Each of the files of the tests in /repo/internal/testdata/generator/filter. -/
theorem C84_filter : ∀ g ∈ filterGoldens, asGolden g := isGolden_sound _ (by
  simp only [filterGoldens, List.all_append, Bool.and_eq_true]
  exact ⟨filterGoldens0_all, filterGoldens1_all⟩)

/-- How many they are. -/
theorem C84_filter_cases : filterGoldens.length = 8 := by decide

end Verif.Conform
