import Verif.Generator.PropsErrors
import Verif.Generator.PropsFiltered2

/- C68: examples and exceptions. -/
namespace Verif.Generator
open Verif.Analysis Verif.Postgres

def handlerTy (info : Bool) : Ty :=
  .named { name := b!"Handler", pkg := some { path := b!"p", name := b!"p" }, isErrorHandler := !info,
           isErrorInfoHandler := info } (.struct .nil)

def handlerFld (info : Bool) : Analysis.Field := ({ name := b!"Errors", exported := true }, handlerTy info)

/-- Two rows; `bad` says what fails; the handlers return the error with a mark, or 0 for nil. -/
def demoDb (bad : Op → Nat → Option Nat) : Db Nat where
  fails := bad
  rows := 2
  affected := 300
  handle e := some (100 + e.getD 0)
  handleInfo e := some (200 + e.getD 0)

def allWell : Db Nat := demoDb fun _ _ => none

/-- The second row cannot be scanned. -/
def badRow : Db Nat := demoDb fun o i => if o = .rowsScan ∧ i = 1 then some 7 else none

/-- The theorems are not vacuous: a select of two rows with a handler; nothing fails, or the second row. -/
theorem C68_example : ∃ q t c, Built shopCat q t ∧ generate q t = some c ∧ callOf q = .rows ∧
    q.errorHandler.isSome = true ∧ toldOfSuccess q t = true ∧
    runMethod allWell q t = ([.called .query 0, .called .rowsScan 0, .kept 0, .called .rowsScan 1, .kept 1,
      .called .rowsErr 0, .handled none, .closed], some (some 100)) ∧
    runMethod badRow q t = ([.called .query 0, .called .rowsScan 0, .kept 0, .called .rowsScan 1,
      .handled (some 7), .closed], some (some 107)) := by
  obtain ⟨q, t, c, hb, hc, hp⟩ := code_of (env := env0) (cat := shopCat) (n := b!"SelectUsers")
    (fs := [relFld (.slice userTy), handlerFld false])
    (P := fun q t _ => decide (callOf q = .rows ∧ q.errorHandler.isSome = true ∧ toldOfSuccess q t = true ∧
      runMethod allWell q t = ([.called .query 0, .called .rowsScan 0, .kept 0, .called .rowsScan 1, .kept 1,
        .called .rowsErr 0, .handled none, .closed], some (some 100)) ∧
      runMethod badRow q t = ([.called .query 0, .called .rowsScan 0, .kept 0, .called .rowsScan 1,
        .handled (some 7), .closed], some (some 107)))) (by decide +kernel)
  exact ⟨q, t, c, hb, hc, of_decide_eq_true hp⟩

/-- An iterator over records with AfterScan. -/
theorem C68_example_iter : ∃ q t c, Built shopCat q t ∧ generate q t = some c ∧ afterScans q t = true ∧
    runMethod allWell q t = ([.called .query 0, .called .rowsScan 0, .afterScan 0, .called .visit 0,
      .called .rowsScan 1, .afterScan 1, .called .visit 1, .called .rowsErr 0, .closed], some none) := by
  obtain ⟨q, t, c, hb, hc, hp⟩ := code_of (env := env0) (cat := shopCat) (n := b!"SelectUsers")
    (fs := [relFld (.func { params := 1, results := 1, errResult := true } (.ptr (.named { name := b!"User", pkg := some { path := b!"p", name := b!"p" }, isAfterScanner := true }
      (.struct (.ofList [sqlFld b!"Id" [b!"id"] Analysis.intTy])))))])
    (P := fun q t _ => decide (afterScans q t = true ∧
      runMethod allWell q t = ([.called .query 0, .called .rowsScan 0, .afterScan 0, .called .visit 0,
        .called .rowsScan 1, .afterScan 1, .called .visit 1, .called .rowsErr 0, .closed], some none)))
    (by decide +kernel)
  exact ⟨q, t, c, hb, hc, of_decide_eq_true hp⟩

/-- A delete with a RowsAffected field. -/
theorem C68_example_affected : ∃ q t c, Built shopCat q t ∧ generate q t = some c ∧
    runMethod allWell q t = ([.called .exec 0, .called .rowsAffected 0, .affected 300], some none) := by
  obtain ⟨q, t, c, hb, hc, hp⟩ := code_of (env := env0) (cat := shopCat) (n := b!"DeleteUsers")
    (fs := [relOnly, allFld, ({ name := b!"RowsAffected" }, Analysis.intTy)])
    (P := fun q t _ => decide (
      runMethod allWell q t = ([.called .exec 0, .called .rowsAffected 0, .affected 300], some none)))
    (by decide +kernel)
  exact ⟨q, t, c, hb, hc, of_decide_eq_true hp⟩

/-- **C68** An info handler is told of a nil error by a statement without output, and the method returns what
it makes of it, although the documentation speaks of errors that occurred. -/
theorem C68_not_info : ∃ q t c, Built shopCat q t ∧ generate q t = some c ∧
    q.errorHandler = some (b!"Errors", true) ∧ allWell.firstError (steps q t allWell.rows) = none ∧
    runMethod allWell q t = ([.called .exec 0, .handledInfo none], some (some 200)) := by
  obtain ⟨q, t, c, hb, hc, hp⟩ := code_of (env := env0) (cat := shopCat) (n := b!"DeleteUsers")
    (fs := [relOnly, allFld, handlerFld true])
    (P := fun q t _ => decide (
      q.errorHandler = some (b!"Errors", true) ∧ allWell.firstError (steps q t allWell.rows) = none ∧
      runMethod allWell q t = ([.called .exec 0, .handledInfo none], some (some 200))))
    (by decide +kernel)
  exact ⟨q, t, c, hb, hc, of_decide_eq_true hp⟩

/-- **C68** The same handler is not told of success if the query has a RowsAffected field, or output. -/
theorem C68_not_uniform : ∃ q t c, Built shopCat q t ∧ generate q t = some c ∧
    q.errorHandler = some (b!"Errors", true) ∧
    runMethod allWell q t = ([.called .exec 0, .called .rowsAffected 0, .affected 300], some none) := by
  obtain ⟨q, t, c, hb, hc, hp⟩ := code_of (env := env0) (cat := shopCat) (n := b!"DeleteUsers")
    (fs := [relOnly, allFld, handlerFld true, ({ name := b!"RowsAffected" }, Analysis.intTy)])
    (P := fun q t _ => decide (q.errorHandler = some (b!"Errors", true) ∧
      runMethod allWell q t = ([.called .exec 0, .called .rowsAffected 0, .affected 300], some none)))
    (by decide +kernel)
  exact ⟨q, t, c, hb, hc, of_decide_eq_true hp⟩

/-- **C68** 300 rows are stored as 44 in a RowsAffected field of type int8 or uint8. -/
theorem C68_not_count : ∃ q t c, Built shopCat q t ∧ generate q t = some c ∧
    runMethod allWell q t = ([.called .exec 0, .called .rowsAffected 0, .affected 44], some none) := by
  obtain ⟨q, t, c, hb, hc, hp⟩ := code_of (env := env0) (cat := shopCat) (n := b!"DeleteUsers")
    (fs := [relOnly, allFld, ({ name := b!"RowsAffected" }, .basic .int8 b!"int8")])
    (P := fun q t _ => decide (
      runMethod allWell q t = ([.called .exec 0, .called .rowsAffected 0, .affected 44], some none)))
    (by decide +kernel)
  exact ⟨q, t, c, hb, hc, of_decide_eq_true hp⟩

/-- **C68** Rows scanned before the failure stay in the output. -/
theorem C68_not_all_or_nothing : ∃ q t c, Built shopCat q t ∧ generate q t = some c ∧
    (runMethod badRow q t).2 = some (some 7) ∧ Event.kept 0 ∈ (runMethod badRow q t).1 := by
  obtain ⟨q, t, c, hb, hc, hp⟩ := code_of (env := env0) (cat := shopCat) (n := b!"SelectUsers")
    (fs := [relFld (.slice userTy)])
    (P := fun q t _ => decide ((runMethod badRow q t).2 = some (some 7) ∧ Event.kept 0 ∈ (runMethod badRow q t).1))
    (by decide +kernel)
  exact ⟨q, t, c, hb, hc, of_decide_eq_true hp⟩

end Verif.Generator
