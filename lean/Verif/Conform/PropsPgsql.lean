import Verif.Conform.GoldPgsql

/-
C84: analysis, checker and generator make of the test files of the project the files that its own tests
expect.  /repo/internal/testdata/generator/pgsql

This file is written by /verif/tools/conform.py; do not edit it by hand.
-/
namespace Verif.Conform

theorem pgsqlGoldens0_all : pgsqlGoldens0.all isGolden = true := by decide +kernel

/-- Each of the files of the tests in /repo/internal/testdata/generator/pgsql. -/
theorem C84_pgsql : ∀ g ∈ pgsqlGoldens, asGolden g := isGolden_sound _ (by
  exact pgsqlGoldens0_all)

/-- How many they are. -/
theorem C84_pgsql_cases : pgsqlGoldens.length = 2 := by decide

end Verif.Conform
