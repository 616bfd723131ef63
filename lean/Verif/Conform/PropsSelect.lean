import Verif.Conform.GoldSelect

/-
C84: analysis, checker and generator make of the test files of the project the files that its own tests
expect.  /repo/internal/testdata/generator/select

This file is written by /verif/tools/conform.py; do not edit it by hand.
-/
namespace Verif.Conform

theorem selectGoldens0_all : selectGoldens0.all isGolden = true := by decide +kernel

theorem selectGoldens1_all : selectGoldens1.all isGolden = true := by decide +kernel

theorem selectGoldens2_all : selectGoldens2.all isGolden = true := by decide +kernel

theorem selectGoldens3_all : selectGoldens3.all isGolden = true := by decide +kernel

theorem selectGoldens4_all : selectGoldens4.all isGolden = true := by decide +kernel

theorem selectGoldens5_all : selectGoldens5.all isGolden = true := by decide +kernel

theorem selectGoldens6_all : selectGoldens6.all isGolden = true := by decide +kernel

theorem selectGoldens7_all : selectGoldens7.all isGolden = true := by decide +kernel

theorem selectGoldens8_all : selectGoldens8.all isGolden = true := by decide +kernel

theorem selectGoldens9_all : selectGoldens9.all isGolden = true := by decide +kernel

/-- Each of the files of the tests in /repo/internal/testdata/generator/select. -/
theorem C84_select : ∀ g ∈ selectGoldens, asGolden g := isGolden_sound _ (by
  simp only [selectGoldens, List.all_append, Bool.and_eq_true]
  exact ⟨⟨⟨⟨⟨⟨⟨⟨⟨selectGoldens0_all, selectGoldens1_all⟩, selectGoldens2_all⟩, selectGoldens3_all⟩, selectGoldens4_all⟩, selectGoldens5_all⟩, selectGoldens6_all⟩, selectGoldens7_all⟩, selectGoldens8_all⟩, selectGoldens9_all⟩)

/-- How many they are. -/
theorem C84_select_cases : selectGoldens.length = 37 := by decide

end Verif.Conform
