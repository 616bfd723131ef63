import Verif.Conform.CheckCases
import Verif.Conform.TestDb
import Verif.Postgres.Check

/-
C83: the checker does with the test data of the project what its own tests expect.
-/
namespace Verif.Conform
open Verif.Analysis Verif.Postgres

/-- What is expected of a result: the error, or none. -/
def asExpected {α : Type} (r : P α) (want : Option DbErr) : Bool :=
  match r with
  | .ok _ => want.isNone
  | .err e => want == some e
  | .panic => false

/-- The verdict of analysis and checker on a query struct. -/
def verdict {α : Type} (r : P α) : P Unit := r.map fun _ => ()

/-- The verdict that is expected. -/
def outcome : Option DbErr → P Unit
  | none => .ok ()
  | some e => .err e

theorem asExpected_sound {α : Type} (r : P α) (want : Option DbErr) (h : asExpected r want = true) :
    verdict r = outcome want := by
  cases r with
  | ok a => cases want with
    | none => rfl
    | some e => simp [asExpected] at h
  | err e =>
    simp [asExpected] at h
    subst h
    rfl
  | panic => simp [asExpected] at h

/-- Every query struct of the tests is accepted by the analysis, and by the checker as expected: accepted,
or refused with the expected error (/repo/internal/postgres/postgres_test.go, TestCheck). -/
theorem C83_queries : ∀ c ∈ checkCases, ∃ s, analyzeQuery testEnv [] c.1 c.2.1 = .ok s ∧
    verdict (checkQuery testCat s.q) = outcome c.2.2 := by
  have h : checkCases.all (fun c => match analyzeQuery testEnv [] c.1 c.2.1 with
      | .ok s => asExpected (checkQuery testCat s.q) c.2.2 | _ => false) = true := by decide +kernel
  intro c hc
  have := List.all_eq_true.1 h c hc
  revert this
  cases analyzeQuery testEnv [] c.1 c.2.1 with
  | ok s => exact fun h => ⟨s, rfl, asExpected_sound _ _ h⟩
  | err e => simp
  | panic => simp

/-- The same for filter structs. -/
theorem C83_filters : ∀ c ∈ fcheckCases, ∃ s, analyzeFilter testEnv [] c.1 c.2.1 = .ok s ∧
    verdict (checkFilter testCat s.1) = outcome c.2.2 := by
  have h : fcheckCases.all (fun c => match analyzeFilter testEnv [] c.1 c.2.1 with
      | .ok s => asExpected (checkFilter testCat s.1) c.2.2 | _ => false) = true := by decide +kernel
  intro c hc
  have := List.all_eq_true.1 h c hc
  revert this
  cases analyzeFilter testEnv [] c.1 c.2.1 with
  | ok s => exact fun h => ⟨s, rfl, asExpected_sound _ _ h⟩
  | err e => simp
  | panic => simp

/-- How many cases there are, and how many of them are to be accepted. -/
theorem C83_cases : checkCases.length = 56 ∧ fcheckCases.length = 5 ∧
    (checkCases.filter (·.2.2.isNone)).length = 9 := by decide +kernel

end Verif.Conform
