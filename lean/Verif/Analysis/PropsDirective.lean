import Verif.Analysis.PropsQuery

/-
C92: which types are directives.
-/
namespace Verif.Analysis

/-- The type is gosql's directive of that name: a named struct type of that package (or of a vendored copy of it,
whose path ends with the package's), the struct having the one field `_isdir`. -/
def OwnDirective (n : Bytes) (t : Ty) : Prop :=
  ∃ i h ft p pre, t = .named i (.struct (.cons h ft .nil)) ∧ i.name = n ∧ i.pkg = some p ∧
    p.path = pre ++ b!"github.com/frk/gosql" ∧ h.name = b!"_isdir"

/-- A named type without a package: the predeclared `error`. -/
def NoPackage (t : Ty) : Prop := ∃ i u, t = .named i u ∧ i.pkg = none

private theorem suffix_iff (p : Bytes) : gosqlPath.isSuffixOf p = true ↔ ∃ pre, p = pre ++ b!"github.com/frk/gosql" := by
  rw [List.isSuffixOf_iff_suffix]
  constructor
  · rintro ⟨pre, h⟩; exact ⟨pre, h.symm⟩
  · rintro ⟨pre, h⟩; exact ⟨pre, h.symm⟩

private theorem dirStruct_iff (u : Ty) : isDirStruct u = true ↔ ∃ h ft, u = .struct (.cons h ft .nil) ∧ h.name = b!"_isdir" := by
  constructor
  · intro h
    unfold isDirStruct at h
    split at h
    · rename_i hd t
      exact ⟨hd, t, rfl, of_decide_eq_true h⟩
    · exact absurd h (by decide)
  · rintro ⟨h, ft, rfl, hn⟩
    simp [isDirStruct, hn]

/-- **C92** IsDirective says yes exactly for the directive of the name. -/
theorem C92_directive (n : Bytes) (t : Ty) : isDirective n t = .ok true ↔ OwnDirective n t := by
  constructor
  · intro h
    cases t <;> simp only [isDirective, Res.ok.injEq, Bool.false_eq_true] at h
    rename_i i u
    split at h
    · exact absurd h (by simp)
    · rename_i hn
      split at h
      · exact absurd h (by simp)
      · rename_i p hp
        simp only [Res.ok.injEq, Bool.and_eq_true] at h
        obtain ⟨pre, h1⟩ := (suffix_iff _).1 h.1
        obtain ⟨hd, ft, h2, h3⟩ := (dirStruct_iff _).1 h.2
        exact ⟨i, hd, ft, p, pre, by rw [h2], by simpa using hn, hp, h1, h3⟩
  · rintro ⟨i, hd, ft, p, pre, rfl, hn, hp, h1, h2⟩
    simp only [isDirective, hn, ne_eq, not_true_eq_false, ite_false, hp, Res.ok.injEq, Bool.and_eq_true]
    exact ⟨(suffix_iff _).2 ⟨pre, h1⟩, (dirStruct_iff _).2 ⟨hd, ft, rfl, h2⟩⟩

/-- **C92** GetDirectiveName gives a name exactly for the directives, and then their name. -/
theorem C92_name (n : Bytes) (t : Ty) (hn : n ≠ []) : getDirectiveName t = .ok n ↔ OwnDirective n t := by
  constructor
  · intro h
    cases t <;> simp only [getDirectiveName, Res.ok.injEq] at h
    case named i u =>
      split at h
      · exact absurd h (by simp)
      · rename_i p hp
        simp only [Res.ok.injEq] at h
        split at h
        · rename_i hc
          obtain ⟨pre, h1⟩ := (suffix_iff _).1 hc.1
          obtain ⟨hd, ft, h2, h3⟩ := (dirStruct_iff _).1 hc.2
          exact ⟨i, hd, ft, p, pre, by rw [h2], h, hp, h1, h3⟩
        · exact absurd h.symm hn
    all_goals exact absurd h.symm hn
  · rintro ⟨i, hd, ft, p, pre, rfl, h0, hp, h1, h2⟩
    simp only [getDirectiveName, hp]
    rw [if_pos ⟨(suffix_iff _).2 ⟨pre, h1⟩, (dirStruct_iff _).2 ⟨hd, ft, rfl, h2⟩⟩, h0]

/-- **C92** GetDirectiveName panics exactly for a type without a package, IsDirective only if moreover it is asked for
the name of that type. -/
theorem C92_panic (n : Bytes) (t : Ty) : (getDirectiveName t = .panic ↔ NoPackage t) ∧
    (isDirective n t = .panic → NoPackage t) := by
  refine ⟨⟨fun h => ?_, ?_⟩, fun h => ?_⟩
  · cases t <;> simp only [getDirectiveName, reduceCtorEq] at h
    rename_i i u
    split at h
    · rename_i hp
      exact ⟨i, u, rfl, hp⟩
    · exact absurd h (by simp)
  · rintro ⟨i, u, rfl, hp⟩
    simp [getDirectiveName, hp]
  · cases t <;> simp only [isDirective, reduceCtorEq] at h
    rename_i i u
    split at h
    · exact absurd h (by simp)
    · split at h
      · rename_i hp
        exact ⟨i, u, rfl, hp⟩
      · exact absurd h (by simp)

/-- The type is gosql's Filter, by its name and package. -/
def OwnFilter (t : Ty) : Prop :=
  ∃ i u p pre, t = .named i u ∧ i.name = b!"Filter" ∧ i.pkg = some p ∧ p.path = pre ++ b!"github.com/frk/gosql"

/-- **C92** The types of filter fields. -/
theorem C92_filter (t : Ty) : isFilterType t = .ok true ↔ OwnFilter t := by
  constructor
  · intro h
    cases t <;> simp only [isFilterType, Res.ok.injEq, Bool.false_eq_true] at h
    rename_i i u
    split at h
    · exact absurd h (by simp)
    · rename_i hn
      split at h
      · exact absurd h (by simp)
      · rename_i p hp
        simp only [Res.ok.injEq] at h
        obtain ⟨pre, h1⟩ := (suffix_iff _).1 h
        exact ⟨i, u, p, pre, rfl, by simpa using hn, hp, h1⟩
  · rintro ⟨i, u, p, pre, rfl, hn, hp, h1⟩
    simp only [isFilterType, hn, ne_eq, not_true_eq_false, ite_false, hp, Res.ok.injEq]
    exact (suffix_iff _).2 ⟨pre, h1⟩

/-- The field is none of those with a meaning: no rel tag, no directive, no name and no type that is known. -/
def Foreign (f : Field) : Prop :=
  f.1.tag.has b!"rel" = false ∧ ¬ NoPackage f.2 ∧ (f.1.name = b!"_" → ∀ n, ¬ OwnDirective n f.2) ∧
    tolower f.1.name ∉ knownNames ∧ ¬ OwnFilter f.2 ∧ isErrorHandler f.2 = false ∧ isErrorInfoHandler f.2 = false ∧
    isContext f.2 = false

private theorem fld_none (n : Bytes) (h : n ∉ knownNames) : List.lookup n fldTable = none := by
  simp only [knownNames, List.mem_cons, List.not_mem_nil, or_false, not_or] at h
  simp only [fldTable, List.lookup_cons, List.lookup_nil, beq_eq_false_iff_ne.2, h, ne_eq, not_false_eq_true]

/-- **C92** A foreign field changes nothing in the loop over the fields. -/
theorem foreign_step (env : Env) (s : St) (f : Field) (h : Foreign f) : queryStep env s f = .ok s := by
  obtain ⟨h1, h2, h3, h4, h5, h6, h7, h8⟩ := h
  unfold queryStep
  rw [h1]
  simp only [Bool.false_eq_true, ite_false]
  cases hd : getDirectiveName f.2 with
  | panic => exact absurd ((C92_panic [] f.2).1.1 hd) h2
  | err e => cases hf : f.2 <;> simp [hf, getDirectiveName] at hd
             split at hd <;> simp at hd
  | ok d =>
    simp only [Res.bind]
    have hc : ¬ (f.1.name = b!"_" ∧ d.length > 0) := by
      rintro ⟨hn, hl⟩
      refine h3 hn d ((C92_name d f.2 ?_).1 hd)
      rintro rfl
      simp at hl
    rw [if_neg hc]
    unfold analyzeField
    rw [fld_none _ h4]
    have ha : ∃ b, isAccessible env.pkgPath f.1.name f.1.exported (some (target env s.q.typeName)) = .ok b := by
      unfold isAccessible
      split
      · exact ⟨_, rfl⟩
      · split
        · exact ⟨_, rfl⟩
        · exact ⟨_, rfl⟩
    obtain ⟨b, ha⟩ := ha
    simp only [analyzeTypedField, ha, Res.bind]
    cases b with
    | false => rfl
    | true =>
      have hf : isFilterType f.2 = .ok false := by
        cases hx : isFilterType f.2 with
        | ok b =>
          cases b with
          | false => rfl
          | true => exact absurd ((C92_filter _).1 hx) h5
        | err e =>
          cases ht : f.2 <;> simp [ht, isFilterType] at hx
          split at hx
          · split at hx <;> simp at hx
          · simp at hx
        | panic =>
          cases ht : f.2 <;> simp [ht, isFilterType] at hx
          rename_i i u
          split at hx
          · split at hx
            · rename_i hp
              exact absurd ⟨i, u, ht, hp⟩ h2
            · simp at hx
          · simp at hx
      simp [hf, h6, h7, h8]

private theorem queryFields_foreign (env : Env) (f : Field) (h : Foreign f) (b : List Field) :
    ∀ (a : List Field) (s : St), queryFields env s (a ++ f :: b) = queryFields env s (a ++ b) := by
  intro a
  induction a with
  | nil => intro s; simp [queryFields, foreign_step env s f h, Res.bind]
  | cons x a ih =>
    intro s
    simp only [List.cons_append, queryFields]
    congr 1
    funext s
    exact ih s

private theorem relFields_foreign (env : Env) (f : Field) (h : f.1.tag.has b!"rel" = false) (b : List Field) :
    ∀ (a : List Field) (s : St1), relFieldsLoop env s (a ++ f :: b) = relFieldsLoop env s (a ++ b) := by
  intro a
  induction a with
  | nil => intro s; simp [relFieldsLoop, h]
  | cons x a ih =>
    intro s
    simp only [List.cons_append, relFieldsLoop]
    split
    · congr 1
      funext s
      exact ih s
    · exact ih s

/-- **C92** A foreign field of a query struct has no effect: with and without it the same query is found, or the same
error. -/
theorem C92_ignored (env : Env) (cache : Cache) (n : Bytes) (a b : List Field) (f : Field) (h : Foreign f) :
    analyzeQuery env cache n (a ++ f :: b) = analyzeQuery env cache n (a ++ b) := by
  unfold analyzeQuery
  simp only [relFields_foreign env f h.1, queryFields_foreign env f h]

/-! ### Cases -/

/-- The predeclared type `error`. -/
def errorTy : Ty := .named { name := b!"error", pkg := none } (.iface { methods := 1, name0 := b!"Error" } (.func { params := 0, results := 1, errResult := false } (.struct .nil)))

/-- A type made like a directive, in another package. -/
def copiedDir (path n : Bytes) : Ty :=
  .named { name := n, pkg := some { path := path, name := b!"gosql" } }
    (.struct (.ofList [({ name := b!"_isdir", exported := false }, .struct .nil)]))

theorem C92_example : OwnDirective b!"All" (gosqlDir b!"All") ∧ ¬ OwnDirective b!"Force" (gosqlDir b!"All") ∧
    OwnDirective b!"All" (copiedDir b!"example.com/app/vendor/github.com/frk/gosql" b!"All") ∧
    ¬ OwnDirective b!"All" (copiedDir b!"example.com/gosql" b!"All") ∧
    Foreign ({ name := b!"_" }, copiedDir b!"example.com/gosql" b!"All") ∧ Foreign ({ name := b!"Extra" }, intTy) := by
  have h : ∀ n, isDirective n (copiedDir b!"example.com/gosql" b!"All") ≠ .ok true := by
    intro n
    unfold isDirective copiedDir
    simp only
    split
    · simp
    · decide
  refine ⟨(C92_directive _ _).1 rfl, fun e => absurd ((C92_directive _ _).2 e) (by decide), (C92_directive _ _).1 (by decide),
    fun e => h _ ((C92_directive _ _).2 e), ⟨rfl, ?_, fun _ n e => h _ ((C92_directive _ _).2 e), by decide, ?_, rfl, rfl, rfl⟩,
    ⟨rfl, ?_, fun e => absurd e (by decide), by decide, ?_, rfl, rfl, rfl⟩⟩
  · rintro ⟨i, u, e, hp⟩
    simp only [copiedDir, Ty.named.injEq] at e
    rw [← e.1] at hp
    simp at hp
  · intro e
    exact absurd ((C92_filter _).2 e) (by decide)
  · rintro ⟨i, u, e, _⟩
    simp [intTy] at e
  · intro e
    exact absurd ((C92_filter _).2 e) (by decide)

/-- **C92** A query struct with a field of type `error`, whatever its name, makes the analyzer panic: the package of
that type is nil. -/
theorem C92_not_error : analyzeQuery env0 [] b!"SelectUsers" [relFld (.slice userTy), ({ name := b!"Err" }, errorTy)] = .panic ∧
    ∃ s, analyzeQuery env0 [] b!"SelectUsers" [relFld (.slice userTy), ({ name := b!"Err" }, .ptr errorTy)] = .ok s := by
  exact ⟨rfl, _, rfl⟩

/-- **C92** The path of the package is only compared at its end, so another package's type may be a directive. -/
theorem C92_not_own : ∃ s, analyzeQuery env0 [] b!"DeleteUsers" [relFld (.slice userTy),
    ({ name := b!"_" }, copiedDir b!"example.com/mygithub.com/frk/gosql" b!"All")] = .ok s ∧ s.q.all = true :=
  ⟨_, rfl, rfl⟩

end Verif.Analysis
