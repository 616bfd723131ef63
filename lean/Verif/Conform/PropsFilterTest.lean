import Verif.Conform.FilterCases

/-
C86: the model of package filter does with the tests of the project what the tests expect.
-/
namespace Verif.Conform.FilterTest
open Verif Verif.Filter

/-- Every case of TestFilter has the expected result: the expected error, or the expected text together with
the expected parameters (/repo/filter/filter_test.go:41-390). -/
theorem C86_filter : ∀ c ∈ cases, result c.pos c.body = c.want := by
  have h : cases.all (fun c => decide (result c.pos c.body = c.want)) = true := by decide +kernel
  intro c hc
  simpa using List.all_eq_true.1 h c hc

/-- Every case of Test_toTSQuery has the expected result (/repo/filter/filter_test.go:392-407). -/
theorem C86_tsquery : ∀ c ∈ tsCases, toTSQuery c.1 = c.2 := by
  have h : tsCases.all (fun c => decide (toTSQuery c.1 = c.2)) = true := by decide +kernel
  intro c hc
  simpa using List.all_eq_true.1 h c hc

/-- There are 35 cases and 5 cases; four of the former expect an error, 19 of them expect parameters, and none
is one whose text the specification of the tokenizer does not understand. -/
theorem C86_cases : cases.length = 35 ∧ tsCases.length = 5 ∧
    cases.countP (fun c => match c.want with | .err _ => true | _ => false) = 4 ∧
    cases.countP (fun c => match c.want with | .sql _ ps => ps.length > 0 | _ => false) = 19 ∧
    (cases.all fun c => c.body.all fun s => match s with
      | .fql t => (fqlTokens t).isSome
      | .fqlDrop t => (fqlTokens t).isSome
      | _ => true) = true := by
  decide +kernel

/-- The tokens specified for one of the texts. -/
example : fqlTokens b!"a:123;(b:!null,e:>=\"x y\")" =
    some [.rule b!"a" .eq (some (.other (.int64 123))), .and, .lparen, .rule b!"b" .ne none, .or,
      .rule b!"e" .ge (some (.other (.string b!"x y"))), .rparen] := by decide +kernel

end Verif.Conform.FilterTest
