import Verif.Conform.GoldInsert

/-
C84: analysis, checker and generator make of the test files of the project the files that its own tests
expect.  /repo/internal/testdata/generator/insert

This file is written by /verif/tools/conform.py; do not edit it by hand.
-/
namespace Verif.Conform

theorem insertGoldens0_all : insertGoldens0.all isGolden = true := by decide +kernel

theorem insertGoldens1_all : insertGoldens1.all isGolden = true := by decide +kernel

theorem insertGoldens2_all : insertGoldens2.all isGolden = true := by decide +kernel

theorem insertGoldens3_all : insertGoldens3.all isGolden = true := by decide +kernel

theorem insertGoldens4_all : insertGoldens4.all isGolden = true := by decide +kernel

theorem insertGoldens5_all : insertGoldens5.all isGolden = true := by decide +kernel

theorem insertGoldens6_all : insertGoldens6.all isGolden = true := by decide +kernel

theorem insertGoldens7_all : insertGoldens7.all isGolden = true := by decide +kernel

theorem insertGoldens8_all : insertGoldens8.all isGolden = true := by decide +kernel

theorem insertGoldens9_all : insertGoldens9.all isGolden = true := by decide +kernel

theorem insertGoldens10_all : insertGoldens10.all isGolden = true := by decide +kernel

theorem insertGoldens11_all : insertGoldens11.all isGolden = true := by decide +kernel

theorem insertGoldens12_all : insertGoldens12.all isGolden = true := by decide +kernel

/-- Each of the files of the tests in /repo/internal/testdata/generator/insert. -/
theorem C84_insert : ∀ g ∈ insertGoldens, asGolden g := isGolden_sound _ (by
  simp only [insertGoldens, List.all_append, Bool.and_eq_true]
  exact ⟨⟨⟨⟨⟨⟨⟨⟨⟨⟨⟨⟨insertGoldens0_all, insertGoldens1_all⟩, insertGoldens2_all⟩, insertGoldens3_all⟩, insertGoldens4_all⟩, insertGoldens5_all⟩, insertGoldens6_all⟩, insertGoldens7_all⟩, insertGoldens8_all⟩, insertGoldens9_all⟩, insertGoldens10_all⟩, insertGoldens11_all⟩, insertGoldens12_all⟩)

/-- How many they are. -/
theorem C84_insert_cases : insertGoldens.length = 49 := by decide

end Verif.Conform
