import Verif.Conform.TypesCases

/-
C88: the models of the predicates on types answer the tests of package typesutil as the tests expect.
-/
namespace Verif.Conform.TypesTest
open Verif Verif.Typesutil

/-- Every case has the expected answer. -/
def Agrees {α : Type} (f : α → Res Unit Bool) (cs : List (Case α)) : Prop := ∀ c ∈ cs, f c.arg = .ok c.want

theorem agrees_iff {α : Type} (f : α → Res Unit Bool) (cs : List (Case α)) :
    (cs.all fun c => decide (f c.arg = .ok c.want)) = true ↔ Agrees f cs := by
  simp [Agrees, List.all_eq_true]

/-- The analyzer's errors do not occur in the predicates on types. -/
def unerr : Analysis.R Bool → Res Unit Bool
  | .ok b => .ok b
  | .err _ => .err ()
  | .panic => .panic

/-- The predicates on types: /repo/internal/typesutil/predicates_test.go:12-178, 428-511. -/
theorem C88_types :
    Agrees (fun t => .ok (isError t)) caseIsError ∧
    Agrees (fun t => .ok (isString t)) caseIsString ∧
    Agrees (fun t => .ok (isEmptyInterface t)) caseIsEmptyInterface ∧
    Agrees (fun t => .ok (isTime t)) caseIsTime ∧
    Agrees (fun t => .ok (isSqlDriverValue t)) caseIsSqlDriverValue ∧
    Agrees (fun t => unerr (Analysis.isDirective t.1 t.2)) caseIsDirective ∧
    Agrees (fun t => .ok (isContext t)) caseIsContext ∧
    Agrees (fun t => .ok (isStringMap t)) caseIsStringMap ∧
    Agrees (fun t => .ok (isNiladicFunc t)) caseIsNiladicFunc := by
  simp only [← agrees_iff]
  decide +kernel

/-- The predicates on methods: /repo/internal/typesutil/predicates_test.go:180-426, 513-535. -/
theorem C88_methods :
    Agrees (fun t => .ok (implementsScanner t)) caseImplementsScanner ∧
    Agrees (fun t => .ok (implementsValuer t)) caseImplementsValuer ∧
    Agrees (fun t => .ok (implementsAfterScanner t)) caseImplementsAfterScanner ∧
    Agrees (fun t => .ok (implementsErrorHandler t)) caseImplementsErrorHandler ∧
    Agrees implementsErrorInfoHandler caseImplementsErrorInfoHandler ∧
    Agrees (fun t => .ok (implementsJSONMarshaler t)) caseImplementsJSONMarshaler ∧
    Agrees (fun t => .ok (implementsJSONUnmarshaler t)) caseImplementsJSONUnmarshaler ∧
    Agrees implementsXMLMarshaler caseImplementsXMLMarshaler ∧
    Agrees implementsXMLUnmarshaler caseImplementsXMLUnmarshaler ∧
    Agrees implementsConn caseImplementsGosqlConn := by
  simp only [← agrees_iff]
  decide +kernel

/-- GetDirectiveName: /repo/internal/typesutil/utils_test.go:11-43. -/
theorem C88_directives : ∀ c ∈ caseGetDirectiveName, Analysis.getDirectiveName c.1 = .ok c.2 := by
  have h : caseGetDirectiveName.all (fun c => decide (Analysis.getDirectiveName c.1 = .ok c.2)) = true := by
    decide +kernel
  intro c hc
  simpa using List.all_eq_true.1 h c hc

/-- There are 86 cases; each predicate has one that is answered with yes. -/
theorem C88_cases : total = 86 ∧
    caseIsError.length + caseIsString.length + caseIsEmptyInterface.length + caseIsTime.length +
      caseIsSqlDriverValue.length + caseIsDirective.length + caseIsContext.length + caseIsStringMap.length +
      caseIsNiladicFunc.length + caseImplementsScanner.length + caseImplementsValuer.length +
      caseImplementsAfterScanner.length + caseImplementsErrorHandler.length +
      caseImplementsErrorInfoHandler.length + caseImplementsJSONMarshaler.length +
      caseImplementsJSONUnmarshaler.length + caseImplementsXMLMarshaler.length +
      caseImplementsXMLUnmarshaler.length + caseImplementsGosqlConn.length + caseGetDirectiveName.length = total ∧
    caseIsError.any (·.want) ∧ caseIsString.any (·.want) ∧ caseIsEmptyInterface.any (·.want) ∧
    caseIsTime.any (·.want) ∧ caseIsSqlDriverValue.any (·.want) ∧ caseIsDirective.any (·.want) ∧
    caseIsContext.any (·.want) ∧ caseIsStringMap.any (·.want) ∧ caseIsNiladicFunc.any (·.want) ∧
    caseImplementsScanner.any (·.want) ∧ caseImplementsValuer.any (·.want) ∧
    caseImplementsAfterScanner.any (·.want) ∧ caseImplementsErrorHandler.any (·.want) ∧
    caseImplementsErrorInfoHandler.any (·.want) ∧ caseImplementsJSONMarshaler.any (·.want) ∧
    caseImplementsJSONUnmarshaler.any (·.want) ∧ caseImplementsXMLMarshaler.any (·.want) ∧
    caseImplementsXMLUnmarshaler.any (·.want) ∧ caseImplementsGosqlConn.any (·.want) := by
  decide +kernel

open Verif.Analysis in
/-- IsTime: what it says of a named type is said of its name or of the fields it embeds; a pointer to time.Time
is neither, nor is one that is embedded. -/
theorem C88_time (t : Ty) : isTime t = true ↔
    ∃ i u, t = .named i u ∧
      (isTimeName (.named i u) = true ∨
        ∃ fs, u = .struct fs ∧ ∃ f ∈ fs.toList, f.1.embedded = true ∧ isTimeName f.2 = true) := by
  have emb : ∀ n, ∀ fs : Fields, fs.toList.length ≤ n →
      (embedsTime fs = true ↔ ∃ f ∈ fs.toList, f.1.embedded = true ∧ isTimeName f.2 = true) := by
    intro n
    induction n with
    | zero => intro fs h; cases fs with
      | nil => simp [embedsTime, Fields.toList]
      | cons _ _ _ => simp [Fields.toList] at h
    | succ n ih => intro fs h; cases fs with
      | nil => simp [embedsTime, Fields.toList]
      | cons hd t rest =>
        have := ih rest (by simpa [Fields.toList] using h)
        simp only [embedsTime, Fields.toList, Bool.or_eq_true, Bool.and_eq_true, this, List.mem_cons]
        constructor
        · rintro (⟨h1, h2⟩ | ⟨f, hf, h⟩)
          · exact ⟨_, .inl rfl, h2, h1⟩
          · exact ⟨f, .inr hf, h⟩
        · rintro ⟨f, rfl | hf, h1, h2⟩
          · exact .inl ⟨h2, h1⟩
          · exact .inr ⟨f, hf, h1, h2⟩
  constructor
  · intro h
    cases t with
    | named i u =>
      refine ⟨i, u, rfl, ?_⟩
      simp only [isTime, Bool.or_eq_true] at h
      rcases h with h | h
      · exact .inl h
      · right
        cases u with
        | struct fs => exact ⟨fs, rfl, (emb _ fs (Nat.le_refl _)).1 h⟩
        | _ => simp at h
    | _ => simp [isTime] at h
  · rintro ⟨i, u, rfl, h | ⟨fs, rfl, h⟩⟩
    · simp only [isTime, h, Bool.true_or]
    · simp only [isTime, (emb _ fs (Nat.le_refl _)).2 h, Bool.or_true]

end Verif.Conform.TypesTest
