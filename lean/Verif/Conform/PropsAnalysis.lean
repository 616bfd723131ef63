import Verif.Conform.Eq
import Verif.Conform.BadCases
import Verif.Conform.OkCases
import Verif.Postgres.Types

/-
C82: the analysis does with the test data of the project what its own tests expect.
-/
namespace Verif.Conform
open Verif.Analysis

/-- Every query struct that is expected to be refused is refused, with the expected error
(/repo/internal/analysis/analysis_test.go, TestAnalysis_queryStruct). -/
theorem C82_refused : ∀ c ∈ badCases, analyzeQuery testEnv [] c.1 c.2.1 = .err c.2.2 := by
  have h : badCases.all (fun c => match analyzeQuery testEnv [] c.1 c.2.1 with
      | .err e => e == c.2.2 | _ => false) = true := by decide +kernel
  intro c hc
  have := List.all_eq_true.1 h c hc
  revert this
  cases analyzeQuery testEnv [] c.1 c.2.1 <;> simp

/-- Every query struct that is expected to be accepted is, with the expected description. -/
theorem C82_accepted : ∀ c ∈ okCases, (analyzeQuery testEnv [] c.1 c.2.1).map (·.q) = .ok c.2.2 := by
  have h : okCases.all (fun c => match analyzeQuery testEnv [] c.1 c.2.1 with
      | .ok s => decide (s.q = c.2.2) | _ => false) = true := by decide +kernel
  intro c hc
  have := List.all_eq_true.1 h c hc
  revert this
  cases analyzeQuery testEnv [] c.1 c.2.1 <;> simp [Res.map]

/-- The same for filter structs (TestAnalysis_filterStruct). -/
theorem C82_filter_refused : ∀ c ∈ fbadCases, analyzeFilter testEnv [] c.1 c.2.1 = .err c.2.2 := by
  have h : fbadCases.all (fun c => match analyzeFilter testEnv [] c.1 c.2.1 with
      | .err e => e == c.2.2 | _ => false) = true := by decide +kernel
  intro c hc
  have := List.all_eq_true.1 h c hc
  revert this
  cases analyzeFilter testEnv [] c.1 c.2.1 <;> simp

theorem C82_filter_accepted : ∀ c ∈ fokCases, (analyzeFilter testEnv [] c.1 c.2.1).map (·.1) = .ok c.2.2 := by
  have h : fokCases.all (fun c => match analyzeFilter testEnv [] c.1 c.2.1 with
      | .ok s => decide (s.1 = c.2.2) | _ => false) = true := by decide +kernel
  intro c hc
  have := List.all_eq_true.1 h c hc
  revert this
  cases analyzeFilter testEnv [] c.1 c.2.1 <;> simp [Res.map]

/-- The texts of the types of the fields (TestTypeinfo_string). -/
theorem C82_literals :
    (analyzeQuery testEnv [] b!"SelectAnalysisTestOK_typeinfo_string" literalTarget).map
      (fun s => s.q.rel.type.fields.map fun f => (f.name, Postgres.literal f.type true)) =
    .ok literalCases := by decide +kernel

/-- How many cases there are. -/
theorem C82_cases : badCases.length = 127 ∧ okCases.length = 56 ∧ fbadCases.length = 7 ∧
    fokCases.length = 1 ∧ literalCases.length = 73 := by decide +kernel

end Verif.Conform
