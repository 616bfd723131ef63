import Verif.Analysis.Query
import Verif.Analysis.PropsWhere

/-
Properties C33 to C36 and C55: what accepted query structs look like.
-/
namespace Verif.Analysis

/-! ### Which fields are which -/

abbrev Field := FieldHdr × Ty

/-- The lower-cased name of the directive type of a blank field; empty for other fields. -/
def dirOf (f : Field) : Bytes :=
  if f.1.name = b!"_" then
    match getDirectiveName f.2 with
    | .ok d => lower d
    | _ => []
  else []

/-- The field names that mean something. -/
def knownNames : List Bytes :=
  [b!"where", b!"join", b!"from", b!"using", b!"onconflict", b!"result", b!"limit", b!"offset",
   b!"rowsaffected"]

/-- The field holds the records. -/
def isRelField (f : Field) : Bool := f.1.tag.has b!"rel"

/-- A `gosql.Filter` field whose name means nothing else. -/
def isFilterFld (f : Field) : Bool :=
  f.1.name ≠ b!"_" && !knownNames.contains (tolower f.1.name) && isFilterType f.2 = .ok true

/-- The field is a row selecting clause: the All directive, a where struct or a filter. -/
def isRowField (f : Field) : Bool :=
  !isRelField f && (dirOf f = b!"all" || tolower f.1.name = b!"where" || isFilterFld f)

/-- The field is a result target: the Return directive, a result field or a rowsaffected field. -/
def isResultFld (f : Field) : Bool :=
  !isRelField f &&
    (dirOf f = b!"return" || tolower f.1.name = b!"result" || tolower f.1.name = b!"rowsaffected")

def b2n (b : Bool) : Nat := if b then 1 else 0

/-- The number of row selecting clauses of a query. -/
def Query.rowClauses (q : Query) : Nat := b2n q.all + b2n q.wher.isSome + b2n q.filter.isSome

/-- The number of result targets of a query. -/
def Query.resultTargets (q : Query) : Nat :=
  b2n q.ret.isSome + b2n q.result.isSome + b2n q.rowsAffected.isSome

/-! ### One step -/

/-- Nothing about rows, results, the kind and the relation changes. -/
def Same (q q' : Query) : Prop :=
  q'.kind = q.kind ∧ q'.rel = q.rel ∧ q'.typeName = q.typeName ∧
    q'.rowClauses = q.rowClauses ∧ q'.resultTargets = q.resultTargets

/-- A row selecting clause was added to none. -/
def AddRow (q q' : Query) : Prop :=
  q'.kind = q.kind ∧ q'.rel = q.rel ∧ q'.typeName = q.typeName ∧
    q.rowClauses = 0 ∧ q'.rowClauses = 1 ∧ q'.resultTargets = q.resultTargets ∧
    q.kind ≠ .insert ∧ q.isSliceUpdate = false

/-- A result target was added to none. -/
def AddResult (q q' : Query) : Prop :=
  q'.kind = q.kind ∧ q'.rel = q.rel ∧ q'.typeName = q.typeName ∧
    q'.rowClauses = q.rowClauses ∧ q.resultTargets = 0 ∧ q'.resultTargets = 1 ∧
    q.kind.isSelect = false

theorem Same.rfl {q : Query} : Same q q := ⟨Eq.refl _, Eq.refl _, Eq.refl _, Eq.refl _, Eq.refl _⟩

theorem hasWhere_false {q : Query} (h : q.hasWhere = false) :
    q.all = false ∧ q.wher = none ∧ q.filter = none := by
  unfold Query.hasWhere at h
  simpa [and_assoc] using h

theorem hasResult_false {q : Query} (h : q.hasResult = false) :
    q.ret = none ∧ q.result = none ∧ q.rowsAffected = none := by
  unfold Query.hasResult at h
  simpa [and_assoc] using h

theorem rowChecks_ok {q : Query} {u : Unit} (h : rowChecks q = .ok u) :
    q.kind ≠ .insert ∧ q.isSliceUpdate = false ∧ q.hasWhere = false := by
  unfold rowChecks at h
  simp only [Res.bind_eq_ok] at h
  obtain ⟨_, h1, _, h2, h3⟩ := h
  refine ⟨?_, failIf_ok h2, failIf_ok h3⟩
  have := failIf_ok h1
  intro hk
  rw [hk] at this
  simp [QKind.isSelect] at this

theorem resultChecks_ok {q : Query} {u : Unit} (h : resultChecks q = .ok u) :
    q.kind.isSelect = false ∧ q.hasResult = false := by
  unfold resultChecks at h
  simp only [Res.bind_eq_ok] at h
  obtain ⟨_, h1, h2⟩ := h
  refine ⟨?_, failIf_ok h2⟩
  have := failIf_ok h1
  cases hk : q.kind <;> rw [hk] at this <;> simp [QKind.isWrite] at this <;> rfl

theorem analyzeWhere_add {env : Env} {s s' : St} {h : FieldHdr} {t : Ty}
    (e : analyzeWhere env s h t = .ok s') : AddRow s.q s'.q := by
  unfold analyzeWhere at e
  rw [Res.bind_eq_ok] at e
  obtain ⟨_, hc, e⟩ := e
  obtain ⟨h1, h2, h3⟩ := rowChecks_ok hc
  obtain ⟨ha, hw, hf⟩ := hasWhere_false h3
  split at e
  · simp at e
  · rw [Res.map_eq_ok] at e
    obtain ⟨_, _, rfl⟩ := e
    exact ⟨rfl, rfl, rfl, by simp [Query.rowClauses, ha, hw, hf, b2n],
      by simp [Query.rowClauses, ha, hf, b2n], rfl, h1, h2⟩

theorem analyzeFilterField_add {s s' : St} {h : FieldHdr}
    (e : analyzeFilterField s h = .ok s') : AddRow s.q s'.q := by
  unfold analyzeFilterField at e
  rw [Res.map_eq_ok] at e
  obtain ⟨_, hc, rfl⟩ := e
  obtain ⟨h1, h2, h3⟩ := rowChecks_ok hc
  obtain ⟨ha, hw, hf⟩ := hasWhere_false h3
  exact ⟨rfl, rfl, rfl, by simp [Query.rowClauses, ha, hw, hf, b2n],
    by simp [Query.rowClauses, ha, hw, b2n], rfl, h1, h2⟩

theorem analyzeAll_add {s s' : St} (e : analyzeAll s = .ok s') : AddRow s.q s'.q := by
  unfold analyzeAll at e
  simp only [Res.bind_eq_ok, Res.map_eq_ok] at e
  obtain ⟨_, h1, _, h2, _, h3, rfl⟩ := e
  have h1 := failIf_ok h1
  have h2 := failIf_ok h2
  obtain ⟨ha, hw, hf⟩ := hasWhere_false (failIf_ok h3)
  refine ⟨rfl, rfl, rfl, by simp [Query.rowClauses, ha, hw, hf, b2n],
    by simp [Query.rowClauses, hw, hf, b2n], rfl, ?_, h2⟩
  intro hk
  rw [hk] at h1
  simp at h1

theorem analyzeResult_add {env : Env} {s s' : St} {h : FieldHdr} {t : Ty}
    (e : analyzeResult env s h t = .ok s') : AddResult s.q s'.q := by
  unfold analyzeResult at e
  simp only [Res.bind_eq_ok, Res.map_eq_ok] at e
  obtain ⟨_, hc, _, _, rfl⟩ := e
  obtain ⟨h1, h2⟩ := resultChecks_ok hc
  obtain ⟨ha, hw, hf⟩ := hasResult_false h2
  exact ⟨rfl, rfl, rfl, rfl, by simp [Query.resultTargets, ha, hw, hf, b2n],
    by simp [Query.resultTargets, ha, hf, b2n], h1⟩

theorem analyzeRowsAffected_add {s s' : St} {h : FieldHdr} {t : Ty}
    (e : analyzeRowsAffected s h t = .ok s') : AddResult s.q s'.q := by
  unfold analyzeRowsAffected at e
  simp only [Res.bind_eq_ok, Res.map_eq_ok] at e
  obtain ⟨_, hc, _, _, rfl⟩ := e
  obtain ⟨h1, h2⟩ := resultChecks_ok hc
  obtain ⟨ha, hw, hf⟩ := hasResult_false h2
  exact ⟨rfl, rfl, rfl, rfl, by simp [Query.resultTargets, ha, hw, hf, b2n],
    by simp [Query.resultTargets, ha, hw, b2n], h1⟩

theorem analyzeReturn_add {s s' : St} {h : FieldHdr}
    (e : analyzeReturn s h = .ok s') : AddResult s.q s'.q := by
  unfold analyzeReturn at e
  simp only [Res.bind_eq_ok, Res.map_eq_ok] at e
  obtain ⟨_, _, _, hc, _, _, _, _, rfl⟩ := e
  obtain ⟨h1, h2⟩ := resultChecks_ok hc
  obtain ⟨ha, hw, hf⟩ := hasResult_false h2
  exact ⟨rfl, rfl, rfl, rfl, by simp [Query.resultTargets, ha, hw, hf, b2n],
    by simp [Query.resultTargets, hw, hf, b2n], h1⟩

theorem analyzeJoin_same {s s' : St} {h : FieldHdr} {t : Ty} (e : analyzeJoin s h t = .ok s') :
    Same s.q s'.q := by
  unfold analyzeJoin at e
  rw [Res.bind_eq_ok] at e
  obtain ⟨_, _, e⟩ := e
  split at e
  · simp at e
  · rw [Res.map_eq_ok] at e
    obtain ⟨_, _, rfl⟩ := e
    exact ⟨rfl, rfl, rfl, rfl, rfl⟩

theorem analyzeOnConflict_same {s s' : St} {h : FieldHdr} {t : Ty}
    (e : analyzeOnConflict s h t = .ok s') : Same s.q s'.q := by
  unfold analyzeOnConflict at e
  rw [Res.bind_eq_ok] at e
  obtain ⟨_, _, e⟩ := e
  split at e
  · simp at e
  · simp only [Res.bind_eq_ok, Res.map_eq_ok] at e
    obtain ⟨_, _, _, _, rfl⟩ := e
    exact ⟨rfl, rfl, rfl, rfl, rfl⟩

theorem analyzeLimit_same {s s' : St} {h : FieldHdr} {t : Ty} (e : analyzeLimit s h t = .ok s') :
    Same s.q s'.q := by
  unfold analyzeLimit at e
  simp only [Res.bind_eq_ok, Res.map_eq_ok] at e
  obtain ⟨_, _, _, _, _, _, rfl⟩ := e
  exact ⟨rfl, rfl, rfl, rfl, rfl⟩

theorem analyzeOffset_same {s s' : St} {h : FieldHdr} {t : Ty} (e : analyzeOffset s h t = .ok s') :
    Same s.q s'.q := by
  unfold analyzeOffset at e
  simp only [Res.bind_eq_ok, Res.map_eq_ok] at e
  obtain ⟨_, _, _, _, _, _, rfl⟩ := e
  exact ⟨rfl, rfl, rfl, rfl, rfl⟩

theorem analyzeErrorHandler_same {s s' : St} {h : FieldHdr} {b : Bool}
    (e : analyzeErrorHandler s h b = .ok s') : Same s.q s'.q := by
  unfold analyzeErrorHandler at e
  rw [Res.map_eq_ok] at e
  obtain ⟨_, _, rfl⟩ := e
  exact ⟨rfl, rfl, rfl, rfl, rfl⟩

theorem analyzeContext_same {s s' : St} {h : FieldHdr}
    (e : analyzeContext s h = .ok s') : Same s.q s'.q := by
  unfold analyzeContext at e
  rw [Res.map_eq_ok] at e
  obtain ⟨_, _, rfl⟩ := e
  exact ⟨rfl, rfl, rfl, rfl, rfl⟩

theorem analyzeOrderBy_same {s s' : St} {h : FieldHdr}
    (e : analyzeOrderBy s h = .ok s') : Same s.q s'.q := by
  unfold analyzeOrderBy at e
  simp only [Res.bind_eq_ok, Res.map_eq_ok] at e
  obtain ⟨_, _, _, _, _, _, rfl⟩ := e
  exact ⟨rfl, rfl, rfl, rfl, rfl⟩

theorem analyzeOverride_same {s s' : St} {h : FieldHdr}
    (e : analyzeOverride s h = .ok s') : Same s.q s'.q := by
  unfold analyzeOverride at e
  rw [Res.bind_eq_ok] at e
  obtain ⟨_, _, e⟩ := e
  split at e
  · simp only [Res.ok.injEq] at e; subst e; exact ⟨rfl, rfl, rfl, rfl, rfl⟩
  · split at e
    · simp only [Res.ok.injEq] at e; subst e; exact ⟨rfl, rfl, rfl, rfl, rfl⟩
    · simp at e

theorem analyzeDefault_same {s s' : St} {h : FieldHdr}
    (e : analyzeDefault s h = .ok s') : Same s.q s'.q := by
  unfold analyzeDefault at e
  simp only [Res.bind_eq_ok, Res.map_eq_ok] at e
  obtain ⟨_, _, _, _, rfl⟩ := e
  exact ⟨rfl, rfl, rfl, rfl, rfl⟩

theorem analyzeForce_same {s s' : St} {h : FieldHdr}
    (e : analyzeForce s h = .ok s') : Same s.q s'.q := by
  unfold analyzeForce at e
  simp only [Res.bind_eq_ok, Res.map_eq_ok] at e
  obtain ⟨_, _, _, _, _, _, rfl⟩ := e
  exact ⟨rfl, rfl, rfl, rfl, rfl⟩

theorem analyzeOptional_same {s s' : St} {h : FieldHdr}
    (e : analyzeOptional s h = .ok s') : Same s.q s'.q := by
  unfold analyzeOptional at e
  simp only [Res.bind_eq_ok, Res.map_eq_ok] at e
  obtain ⟨_, _, _, _, _, _, rfl⟩ := e
  exact ⟨rfl, rfl, rfl, rfl, rfl⟩

/-- What one field does, according to its class. -/
def StepSpec (q q' : Query) (row res : Bool) : Prop :=
  (row = true ∧ res = false ∧ AddRow q q') ∨ (row = false ∧ res = true ∧ AddResult q q') ∨
    (row = false ∧ res = false ∧ Same q q')

theorem tolower_blank : tolower b!"_" = b!"_" := by decide

theorem lookup_dir (d : Bytes) (k : Dir) (h : List.lookup d dirTable = some k) :
    (d, k) ∈ dirTable := by
  simp only [dirTable, List.lookup_cons] at h
  simp only [dirTable, List.mem_cons, Prod.mk.injEq]
  repeat' split at h
  all_goals first
    | (simp at h; done)
    | (rename_i hb; simp only [Option.some.injEq] at h; simp only [beq_iff_eq] at hb; simp [hb, h])

theorem lookup_fld (d : Bytes) (k : Fld) (h : List.lookup d fldTable = some k) :
    (d, k) ∈ fldTable := by
  simp only [fldTable, List.lookup_cons] at h
  simp only [fldTable, List.mem_cons, Prod.mk.injEq]
  repeat' split at h
  all_goals first
    | (simp at h; done)
    | (rename_i hb; simp only [Option.some.injEq] at h; simp only [beq_iff_eq] at hb; simp [hb, h])

theorem lookup_fld_none (d : Bytes) (h : List.lookup d fldTable = none) :
    knownNames.contains d = false := by
  rw [List.lookup_eq_none_iff] at h
  simp only [fldTable, List.mem_cons, List.not_mem_nil, or_false, forall_eq_or_imp,
    bne_iff_ne, forall_eq] at h
  simp only [knownNames, List.contains_cons, Bool.or_eq_false_iff, beq_eq_false_iff_ne,
    List.contains_nil]
  simpa using h

theorem analyzeDirective_spec {s s' : St} {f : Field} {d : Bytes}
    (hn : f.1.name = b!"_") (hd : getDirectiveName f.2 = .ok d) (hr : isRelField f = false)
    (e : analyzeDirective s f.1 f.2 d = .ok s') :
    StepSpec s.q s'.q (isRowField f) (isResultFld f) := by
  have hdir : dirOf f = lower d := by simp [dirOf, hn, hd]
  have hrow : isRowField f = decide (lower d = b!"all") := by
    simp [isRowField, hr, hdir, hn, tolower_blank, isFilterFld]
  have hres : isResultFld f = decide (lower d = b!"return") := by
    simp [isResultFld, hr, hdir, hn, tolower_blank]
  rw [hrow, hres]
  unfold analyzeDirective at e
  cases hl : List.lookup (lower d) dirTable with
  | none => rw [hl] at e; simp at e
  | some k =>
    rw [hl] at e
    have hm := lookup_dir _ _ hl
    simp only [dirTable, List.mem_cons, Prod.mk.injEq, List.not_mem_nil, or_false] at hm
    unfold StepSpec
    rcases hm with ⟨hm, rfl⟩ | ⟨hm, rfl⟩ | ⟨hm, rfl⟩ | ⟨hm, rfl⟩ | ⟨hm, rfl⟩ | ⟨hm, rfl⟩ | ⟨hm, rfl⟩ |
      ⟨hm, rfl⟩ | ⟨hm, rfl⟩ <;> rw [hm] <;> simp only at e
    · exact .inl ⟨by decide, by decide, analyzeAll_add e⟩
    · exact .inr (.inr ⟨by decide, by decide, analyzeDefault_same e⟩)
    · exact .inr (.inr ⟨by decide, by decide, analyzeForce_same e⟩)
    · exact .inr (.inr ⟨by decide, by decide, analyzeOptional_same e⟩)
    · exact .inr (.inl ⟨by decide, by decide, analyzeReturn_add e⟩)
    · exact .inr (.inr ⟨by decide, by decide, analyzeLimit_same e⟩)
    · exact .inr (.inr ⟨by decide, by decide, analyzeOffset_same e⟩)
    · exact .inr (.inr ⟨by decide, by decide, analyzeOrderBy_same e⟩)
    · exact .inr (.inr ⟨by decide, by decide, analyzeOverride_same e⟩)

theorem target_accessible (env : Env) (n : Bytes) (h : FieldHdr) :
    isAccessible env.pkgPath h.name h.exported (some (target env n)) = .ok (h.name ≠ b!"_") := by
  unfold isAccessible isImportedType target
  by_cases h1 : h.name = b!"_"
  · simp [h1]
  · cases h.exported <;> simp [h1]

theorem analyzeField_spec {env : Env} {s s' : St} {f : Field}
    (hd : dirOf f = []) (hr : isRelField f = false)
    (e : analyzeField env s f.1 f.2 = .ok s') :
    StepSpec s.q s'.q (isRowField f) (isResultFld f) := by
  have hrow : isRowField f = (decide (tolower f.1.name = b!"where") || isFilterFld f) := by
    simp [isRowField, hr, hd]
  have hres : isResultFld f =
      (decide (tolower f.1.name = b!"result") || decide (tolower f.1.name = b!"rowsaffected")) := by
    simp [isResultFld, hr, hd]
  unfold analyzeField at e
  cases hl : List.lookup (tolower f.1.name) fldTable with
  | some k =>
    rw [hl] at e
    have hm := lookup_fld _ _ hl
    have hfil : isFilterFld f = false := by
      simp only [fldTable, List.mem_cons, Prod.mk.injEq, List.not_mem_nil, or_false] at hm
      have : knownNames.contains (tolower f.1.name) = true := by
        rcases hm with ⟨hm, _⟩ | ⟨hm, _⟩ | ⟨hm, _⟩ | ⟨hm, _⟩ | ⟨hm, _⟩ | ⟨hm, _⟩ | ⟨hm, _⟩ |
          ⟨hm, _⟩ | ⟨hm, _⟩ <;> rw [hm] <;> decide
      simp only [isFilterFld, this]
      simp
    rw [hrow, hres, hfil]
    simp only [fldTable, List.mem_cons, Prod.mk.injEq, List.not_mem_nil, or_false] at hm
    unfold StepSpec
    rcases hm with ⟨hm, rfl⟩ | ⟨hm, rfl⟩ | ⟨hm, rfl⟩ | ⟨hm, rfl⟩ | ⟨hm, rfl⟩ | ⟨hm, rfl⟩ | ⟨hm, rfl⟩ |
      ⟨hm, rfl⟩ | ⟨hm, rfl⟩ <;> rw [hm] <;> simp only at e
    · exact .inl ⟨by decide, by decide, analyzeWhere_add e⟩
    · exact .inr (.inr ⟨by decide, by decide, analyzeJoin_same e⟩)
    · exact .inr (.inr ⟨by decide, by decide, analyzeJoin_same e⟩)
    · exact .inr (.inr ⟨by decide, by decide, analyzeJoin_same e⟩)
    · exact .inr (.inr ⟨by decide, by decide, analyzeOnConflict_same e⟩)
    · exact .inr (.inl ⟨by decide, by decide, analyzeResult_add e⟩)
    · exact .inr (.inr ⟨by decide, by decide, analyzeLimit_same e⟩)
    · exact .inr (.inr ⟨by decide, by decide, analyzeOffset_same e⟩)
    · exact .inr (.inl ⟨by decide, by decide, analyzeRowsAffected_add e⟩)
  | none =>
    rw [hl] at e
    have hk := lookup_fld_none _ hl
    have hw : tolower f.1.name ∉ knownNames := by simpa using hk
    have h1 : tolower f.1.name ≠ b!"where" := fun h => hw (by rw [h]; decide)
    have h2 : tolower f.1.name ≠ b!"result" := fun h => hw (by rw [h]; decide)
    have h3 : tolower f.1.name ≠ b!"rowsaffected" := fun h => hw (by rw [h]; decide)
    have hres : isResultFld f = false := by rw [hres]; simp [h2, h3]
    have hrow : isRowField f = (decide (f.1.name ≠ b!"_") && decide (isFilterType f.2 = .ok true)) := by
      rw [hrow]; simp [h1, isFilterFld, hw]
    rw [hrow, hres]
    simp only at e
    unfold analyzeTypedField at e
    rw [target_accessible, Res.bind_ok] at e
    unfold StepSpec
    split at e
    · next hb =>
      rw [Res.bind_eq_ok] at e
      obtain ⟨isF, hf, e⟩ := e
      rw [hf]
      split at e
      · next hF => exact .inl ⟨by simp [hF] at hb ⊢; exact hb, rfl, analyzeFilterField_add e⟩
      · next hF =>
        refine .inr (.inr ⟨by simp [hF], rfl, ?_⟩)
        split at e
        · exact analyzeErrorHandler_same e
        · split at e
          · exact analyzeErrorHandler_same e
          · split at e
            · exact analyzeContext_same e
            · simp only [Res.ok.injEq] at e; subst e; exact Same.rfl
    · next hb =>
      simp only [Res.ok.injEq] at e; subst e
      exact .inr (.inr ⟨by simp at hb; simp [hb], rfl, Same.rfl⟩)

theorem queryStep_spec {env : Env} {s s' : St} {f : Field} (e : queryStep env s f = .ok s') :
    StepSpec s.q s'.q (isRowField f) (isResultFld f) := by
  unfold queryStep at e
  by_cases hr : f.1.tag.has b!"rel" = true
  · rw [if_pos hr] at e
    simp only [Res.ok.injEq] at e; subst e
    exact .inr (.inr ⟨by simp [isRowField, isRelField, hr], by simp [isResultFld, isRelField, hr],
      Same.rfl⟩)
  · rw [if_neg hr, Res.bind_eq_ok] at e
    have hr : isRelField f = false := by simpa [isRelField] using hr
    obtain ⟨d, hd, e⟩ := e
    split at e
    · next hc => exact analyzeDirective_spec hc.1 hd hr e
    · next hc =>
      refine analyzeField_spec ?_ hr e
      unfold dirOf
      split
      · next hn =>
        have : d = [] := by
          cases d with
          | nil => rfl
          | cons c d => exact absurd ⟨hn, by simp⟩ hc
        rw [hd, this]; rfl
      · rfl

/-! ### C33 -/

theorem queryFields_spec {env : Env} {s s' : St} {fs : List Field}
    (e : queryFields env s fs = .ok s') :
    s'.q.kind = s.q.kind ∧ s'.q.rel = s.q.rel ∧ s'.q.typeName = s.q.typeName ∧
    s'.q.rowClauses = s.q.rowClauses + fs.countP isRowField ∧
    s'.q.resultTargets = s.q.resultTargets + fs.countP isResultFld ∧
    (0 < fs.countP isRowField →
      s'.q.rowClauses ≤ 1 ∧ s.q.kind ≠ .insert ∧ s.q.isSliceUpdate = false) ∧
    (0 < fs.countP isResultFld → s'.q.resultTargets ≤ 1 ∧ s.q.kind.isSelect = false) := by
  induction fs generalizing s with
  | nil => rw [queryFields] at e; simp only [Res.ok.injEq] at e; subst e; simp
  | cons f fs ih =>
    rw [queryFields, Res.bind_eq_ok] at e
    obtain ⟨s1, h1, e⟩ := e
    obtain ⟨k, r, t, i1, i2, i3, i4⟩ := ih e
    have hsl : ∀ q q' : Query, q'.kind = q.kind → q'.rel = q.rel →
        q'.isSliceUpdate = q.isSliceUpdate := by
      intro q q' a b; unfold Query.isSliceUpdate; rw [a, b]
    rcases queryStep_spec h1 with ⟨a, b, c⟩ | ⟨a, b, c⟩ | ⟨a, b, c⟩
    · obtain ⟨c1, c2, c3, c4, c5, c6, c7, c8⟩ := c
      rw [c1] at k i3 i4; rw [c2] at r; rw [c3] at t
      refine ⟨k, r, t, ?_, ?_, ?_, ?_⟩
      · rw [i1, List.countP_cons]; simp [a]; omega
      · rw [i2, List.countP_cons]; simp [b]; omega
      · intro _
        refine ⟨?_, c7, c8⟩
        by_cases h0 : 0 < fs.countP isRowField
        · exact (i3 h0).1
        · omega
      · rw [List.countP_cons]; simp only [b]; simpa using i4
    · obtain ⟨c1, c2, c3, c4, c5, c6, c7⟩ := c
      have hs := hsl _ _ c1 c2
      rw [c1, hs] at i3; rw [c1] at k i4; rw [c2] at r; rw [c3] at t
      refine ⟨k, r, t, ?_, ?_, ?_, ?_⟩
      · rw [i1, List.countP_cons]; simp [a]; omega
      · rw [i2, List.countP_cons]; simp [b]; omega
      · rw [List.countP_cons]; simp only [a]; simpa using i3
      · intro _
        refine ⟨?_, c7⟩
        by_cases h0 : 0 < fs.countP isResultFld
        · exact (i4 h0).1
        · omega
    · obtain ⟨c1, c2, c3, c4, c5⟩ := c
      have hs := hsl _ _ c1 c2
      rw [c1, hs] at i3; rw [c1] at k i4; rw [c2] at r; rw [c3] at t
      refine ⟨k, r, t, ?_, ?_, ?_, ?_⟩
      · rw [i1, List.countP_cons]; simp [a]; omega
      · rw [i2, List.countP_cons]; simp [b]; omega
      · rw [List.countP_cons]; simp only [a]; simpa using i3
      · rw [List.countP_cons]; simp only [b]; simpa using i4

theorem analyzeQuery_split {env : Env} {cache : Cache} {n : Bytes} {fs : List Field} {s : St}
    (e : analyzeQuery env cache n fs = .ok s) :
    ∃ k r s1, relFieldsLoop env { kind := k, cache := cache } fs = .ok s1 ∧
      queryKind n = .ok k ∧ s1.rel = some r ∧
      queryFields env
        { q := { typeName := n, kind := s1.kind, rel := r }, rs := s1.rs, cache := s1.cache } fs =
        .ok s := by
  unfold analyzeQuery at e
  simp only [Res.bind_eq_ok] at e
  obtain ⟨k, hk, s1, h1, e⟩ := e
  split at e
  · simp at e
  · next r hr => exact ⟨k, r, s1, h1, hk, hr, e⟩

/-- C33: an accepted query has at most one row selecting clause, and it has one for each field that
stands for one, wherever in the struct that field is; an insert has none, and an update of a slice has
none. -/
theorem C33_rows (env : Env) (cache : Cache) (n : Bytes) (fs : List Field) (s : St)
    (e : analyzeQuery env cache n fs = .ok s) :
    s.q.rowClauses = fs.countP isRowField ∧ s.q.rowClauses ≤ 1 ∧
    (s.q.kind = .insert → s.q.rowClauses = 0) ∧
    (s.q.kind = .update → s.q.rel.type.isSlice = true → s.q.rowClauses = 0) := by
  obtain ⟨k, r, s1, _, _, _, h⟩ := analyzeQuery_split e
  obtain ⟨hk, hr, ht, h1, h2, h3, h4⟩ := queryFields_spec h
  have z : (Query.rowClauses { typeName := n, kind := s1.kind, rel := r }) = 0 := rfl
  simp only [z, Nat.zero_add] at h1
  simp only at hk hr h3
  refine ⟨h1, ?_, ?_, ?_⟩
  · by_cases h0 : 0 < fs.countP isRowField
    · exact (h3 h0).1
    · omega
  · intro hi
    by_cases h0 : 0 < fs.countP isRowField
    · exact absurd (hk ▸ hi) (h3 h0).2.1
    · omega
  · intro hu hsl
    by_cases h0 : 0 < fs.countP isRowField
    · have := (h3 h0).2.2
      unfold Query.isSliceUpdate at this
      simp only at this
      rw [← hk, ← hr, hu, hsl] at this
      simp at this
    · omega

/-- C33: an accepted query has at most one result target, and it has one for each field that stands
for one; a select has none. -/
theorem C33_results (env : Env) (cache : Cache) (n : Bytes) (fs : List Field) (s : St)
    (e : analyzeQuery env cache n fs = .ok s) :
    s.q.resultTargets = fs.countP isResultFld ∧ s.q.resultTargets ≤ 1 ∧
    (s.q.kind.isSelect = true → s.q.resultTargets = 0) := by
  obtain ⟨k, r, s1, _, _, _, h⟩ := analyzeQuery_split e
  obtain ⟨hk, hr, ht, h1, h2, h3, h4⟩ := queryFields_spec h
  have z : (Query.resultTargets { typeName := n, kind := s1.kind, rel := r }) = 0 := rfl
  simp only [z, Nat.zero_add] at h2
  simp only at hk h4
  refine ⟨h2, ?_, ?_⟩
  · by_cases h0 : 0 < fs.countP isResultFld
    · exact (h4 h0).1
    · omega
  · intro hi
    by_cases h0 : 0 < fs.countP isResultFld
    · have := (h4 h0).2
      rw [← hk, hi] at this; simp at this
    · omega

/-- C33: two row selecting fields, or two result targets, are rejected in any order. -/
theorem C33_order (env : Env) (cache : Cache) (n : Bytes) (fs gs : List Field)
    (hp : fs.Perm gs) (h : 1 < fs.countP isRowField ∨ 1 < fs.countP isResultFld) (s : St) :
    analyzeQuery env cache n gs ≠ .ok s := by
  intro e
  have h1 := C33_rows env cache n gs s e
  have h2 := C33_results env cache n gs s e
  rw [hp.countP_eq, hp.countP_eq] at h
  omega

/-! ### Examples -/

/-- A struct type of a directive of the library. -/
def gosqlDir (n : Bytes) : Ty :=
  .named { name := n, pkg := some { path := gosqlPath, name := b!"gosql" } }
    (.struct (.ofList [({ name := b!"_isdir", exported := false }, .struct .nil)]))

def intTy : Ty := .basic .int b!"int"

/-- `type User struct { Id int "sql:id"; Name string "sql:name" }` in package `p`. -/
def userTy : Ty :=
  .named { name := b!"User", pkg := some { path := b!"p", name := b!"p" } }
    (.struct (.ofList
      [({ name := b!"Id", tag := [(b!"sql", [b!"id"])] }, intTy),
       ({ name := b!"Name", tag := [(b!"sql", [b!"name"])] }, .basic .string b!"string")]))

def relFld (t : Ty) : Field := ({ name := b!"Users", tag := [(b!"rel", [b!"users:u"])] }, t)

def whereFld : Field :=
  ({ name := b!"Where" }, .struct (.ofList [({ name := b!"Id", tag := [(b!"sql", [b!"u.id"])] }, intTy)]))

def allFld : Field := ({ name := b!"_" }, gosqlDir b!"All")

def returnFld : Field := ({ name := b!"_", tag := [(b!"sql", [b!"*"])] }, gosqlDir b!"Return")

def env0 : Env := { pkgPath := b!"p" }

/-- The kind of the accepted query, or nothing. -/
def kindOf (r : R St) : Option (QKind × Nat × Nat) :=
  match r with
  | .ok s => some (s.q.kind, s.q.rowClauses, s.q.resultTargets)
  | _ => none

def codeOf {α : Type} (r : R α) : Option ECode :=
  match r with
  | .err e => some e
  | _ => none

example : kindOf (analyzeQuery env0 [] b!"DeleteUser" [relFld (.ptr userTy), whereFld, returnFld]) =
    some (.delete, 1, 1) := by decide +kernel
example : kindOf (analyzeQuery env0 [] b!"UpdateUsers" [relFld (.slice userTy)]) =
    some (.update, 0, 0) := by decide +kernel
example : codeOf (analyzeQuery env0 [] b!"UpdateUsers" [relFld (.slice userTy), allFld]) =
    some .illegalSliceUpdateModifier := by decide +kernel
example : codeOf (analyzeQuery env0 [] b!"DeleteUsers" [relFld userTy, whereFld, allFld]) =
    some .conflictingWhere := by decide +kernel
example : codeOf (analyzeQuery env0 [] b!"DeleteUsers" [allFld, whereFld, relFld userTy]) =
    some .conflictingWhere := by decide +kernel
example : [relFld userTy, whereFld, allFld, returnFld].countP isRowField = 2 := by decide +kernel

/-- C34: the analyzer accepts a delete with neither where struct nor filter nor All directive, and an
update of a single record of a type without primary key information. -/
theorem C34_not_enforced :
    (∃ s, analyzeQuery env0 [] b!"DeleteUsers"
        [({ name := b!"_", tag := [(b!"rel", [b!"users"])] }, gosqlDir b!"Relation")] = .ok s ∧
      s.q.kind = .delete ∧ s.q.all = false ∧ s.q.wher.isSome = false ∧ s.q.filter.isSome = false) ∧
    (∃ s, analyzeQuery env0 [] b!"UpdateUsers" [relFld (.ptr userTy)] = .ok s ∧
      s.q.kind = .update ∧ s.q.all = false ∧ s.q.wher.isSome = false ∧ s.q.filter.isSome = false) :=
  ⟨⟨_, rfl, rfl, rfl, rfl, rfl⟩, ⟨_, rfl, rfl, rfl, rfl, rfl⟩⟩

/-! ### C35 -/

/-- The lower-cased directive of a blank field. -/
def conflictDir (f : Field) : Bytes :=
  if f.1.name = b!"_" then
    match getDirectiveName f.2 with
    | .ok d => tolower d
    | _ => []
  else []

def isTargetFld (f : Field) : Bool :=
  [b!"column", b!"index", b!"constraint"].contains (conflictDir f)
def isActionFld (f : Field) : Bool := [b!"ignore", b!"update"].contains (conflictDir f)

def OnConflict.targets (oc : OnConflict) : Nat :=
  b2n oc.column.isSome + b2n oc.index.isSome + b2n oc.constraint.isSome
def OnConflict.actions (oc : OnConflict) : Nat := b2n oc.ignore + b2n oc.update.isSome

theorem hasTarget_false {oc : OnConflict} (h : oc.hasTarget = false) :
    oc.column = none ∧ oc.index = none ∧ oc.constraint = none := by
  unfold OnConflict.hasTarget at h
  simpa [and_assoc] using h

theorem hasAction_false {oc : OnConflict} (h : oc.hasAction = false) :
    oc.ignore = false ∧ oc.update = none := by
  unfold OnConflict.hasAction at h
  simpa [and_assoc] using h

theorem hasTarget_iff (oc : OnConflict) : oc.hasTarget = true ↔ 0 < oc.targets := by
  unfold OnConflict.hasTarget OnConflict.targets b2n
  cases oc.column.isSome <;> cases oc.index.isSome <;> cases oc.constraint.isSome <;> simp

theorem conflictDirective_spec {rs : RelSpace} {oc oc' : OnConflict} {d : Bytes} {h : FieldHdr}
    (e : conflictDirective rs oc d h = .ok oc') :
    ([b!"column", b!"index", b!"constraint"].contains (tolower d) = true ∧
      [b!"ignore", b!"update"].contains (tolower d) = false ∧
      oc.targets = 0 ∧ oc'.targets = 1 ∧ oc'.actions = oc.actions) ∨
    ([b!"column", b!"index", b!"constraint"].contains (tolower d) = false ∧
      [b!"ignore", b!"update"].contains (tolower d) = true ∧
      oc'.targets = oc.targets ∧ oc.actions = 0 ∧ oc'.actions = 1) := by
  unfold conflictDirective at e
  split at e
  · next hd =>
    simp only [Res.bind_eq_ok, Res.map_eq_ok] at e
    obtain ⟨_, h1, _, _, rfl⟩ := e
    obtain ⟨a, b, c⟩ := hasTarget_false (failIf_ok h1)
    exact .inl ⟨by rw [hd]; decide, by rw [hd]; decide, by simp [OnConflict.targets, a, b, c, b2n],
      by simp [OnConflict.targets, b, c, b2n], rfl⟩
  split at e
  · next hd =>
    simp only [Res.bind_eq_ok, Res.map_eq_ok] at e
    obtain ⟨_, h1, _, _, rfl⟩ := e
    obtain ⟨a, b, c⟩ := hasTarget_false (failIf_ok h1)
    exact .inl ⟨by rw [hd]; decide, by rw [hd]; decide, by simp [OnConflict.targets, a, b, c, b2n],
      by simp [OnConflict.targets, a, c, b2n], rfl⟩
  split at e
  · next hd =>
    simp only [Res.bind_eq_ok, Res.map_eq_ok] at e
    obtain ⟨_, h1, _, _, rfl⟩ := e
    obtain ⟨a, b, c⟩ := hasTarget_false (failIf_ok h1)
    exact .inl ⟨by rw [hd]; decide, by rw [hd]; decide, by simp [OnConflict.targets, a, b, c, b2n],
      by simp [OnConflict.targets, a, b, b2n], rfl⟩
  split at e
  · next hd =>
    simp only [Res.map_eq_ok] at e
    obtain ⟨_, h1, rfl⟩ := e
    obtain ⟨a, b⟩ := hasAction_false (failIf_ok h1)
    exact .inr ⟨by rw [hd]; decide, by rw [hd]; decide, rfl, by simp [OnConflict.actions, a, b, b2n],
      by simp [OnConflict.actions, b, b2n]⟩
  split at e
  · next hd =>
    simp only [Res.bind_eq_ok, Res.map_eq_ok] at e
    obtain ⟨_, h1, _, _, rfl⟩ := e
    obtain ⟨a, b⟩ := hasAction_false (failIf_ok h1)
    exact .inr ⟨by rw [hd]; decide, by rw [hd]; decide, rfl, by simp [OnConflict.actions, a, b, b2n],
      by simp [OnConflict.actions, a, b2n]⟩
  · simp at e

theorem conflictFields_spec {rs : RelSpace} {oc oc' : OnConflict} {fs : List Field}
    (e : conflictFields rs oc fs = .ok oc') :
    oc'.targets = oc.targets + fs.countP isTargetFld ∧
    oc'.actions = oc.actions + fs.countP isActionFld ∧
    (0 < fs.countP isTargetFld → oc'.targets ≤ 1) ∧
    (0 < fs.countP isActionFld → oc'.actions ≤ 1) := by
  induction fs generalizing oc with
  | nil => rw [conflictFields] at e; simp only [Res.ok.injEq] at e; subst e; simp
  | cons f fs ih =>
    obtain ⟨h, t⟩ := f
    rw [conflictFields] at e
    split at e
    · next hn =>
      obtain ⟨i1, i2, i3, i4⟩ := ih e
      have hc : conflictDir (h, t) = [] := by simp only [conflictDir]; rw [if_neg hn]
      have ht : isTargetFld (h, t) = false := by simp only [isTargetFld, hc]; decide
      have ha : isActionFld (h, t) = false := by simp only [isActionFld, hc]; decide
      rw [List.countP_cons, List.countP_cons]
      simp only [ht, ha, Bool.false_eq_true, if_false, Nat.add_zero]
      exact ⟨i1, i2, i3, i4⟩
    · next hn =>
      simp only [Res.bind_eq_ok] at e
      obtain ⟨d, hd, oc1, h1, e⟩ := e
      obtain ⟨i1, i2, i3, i4⟩ := ih e
      have hc : conflictDir (h, t) = tolower d := by
        have : h.name = b!"_" := by simpa using hn
        simp [conflictDir, this, hd]
      have ht : isTargetFld (h, t) = [b!"column", b!"index", b!"constraint"].contains (tolower d) := by
        rw [isTargetFld, hc]
      have ha : isActionFld (h, t) = [b!"ignore", b!"update"].contains (tolower d) := by
        rw [isActionFld, hc]
      rw [List.countP_cons, List.countP_cons, ht, ha]
      rcases conflictDirective_spec h1 with ⟨a, b, c1, c2, c3⟩ | ⟨a, b, c1, c2, c3⟩
      · rw [a, b]
        simp only [if_true, Bool.false_eq_true, if_false, Nat.add_zero]
        refine ⟨by omega, by omega, fun _ => ?_, i4⟩
        by_cases h0 : 0 < fs.countP isTargetFld
        · exact i3 h0
        · omega
      · rw [a, b]
        simp only [if_true, Bool.false_eq_true, if_false, Nat.add_zero]
        refine ⟨by omega, by omega, i3, fun _ => ?_⟩
        by_cases h0 : 0 < fs.countP isActionFld
        · exact i4 h0
        · omega

/-- C35: an accepted on-conflict struct has at most one target and at most one action, one for each
directive that stands for one, and an update action comes with a target. -/
theorem C35_on_conflict (s s' : St) (h : FieldHdr) (t : Ty) (n : Option NamedInfo) (fs : Fields)
    (ht : getStruct t = some (n, fs)) (e : analyzeOnConflict s h t = .ok s') :
    s.q.kind = .insert ∧ ∃ oc, s'.q.onConflict = some oc ∧
      oc.targets = fs.toList.countP isTargetFld ∧ oc.targets ≤ 1 ∧
      oc.actions = fs.toList.countP isActionFld ∧ oc.actions ≤ 1 ∧
      (oc.update ≠ none → oc.targets = 1) := by
  unfold analyzeOnConflict at e
  rw [ht] at e
  simp only [Res.bind_eq_ok, Res.map_eq_ok] at e
  obtain ⟨_, hk, oc, h1, _, h2, rfl⟩ := e
  have hk := failIf_ok hk
  have h2 := failIf_ok h2
  obtain ⟨i1, i2, i3, i4⟩ := conflictFields_spec h1
  have z1 : OnConflict.targets { fieldName := h.name } = 0 := rfl
  have z2 : OnConflict.actions { fieldName := h.name } = 0 := rfl
  rw [z1, Nat.zero_add] at i1
  rw [z2, Nat.zero_add] at i2
  have le : oc.targets ≤ 1 := by
    by_cases h0 : 0 < fs.toList.countP isTargetFld
    · exact i3 h0
    · omega
  refine ⟨by simpa using hk, oc, rfl, i1, le, i2, ?_, ?_⟩
  · by_cases h0 : 0 < fs.toList.countP isActionFld
    · exact i4 h0
    · omega
  · intro hu
    have : oc.update.isSome = true := by
      cases ho : oc.update with
      | none => exact absurd ho hu
      | some _ => rfl
    rw [this] at h2
    have := (hasTarget_iff oc).1 (by simpa using h2)
    omega

def insertSt : St :=
  { q := { typeName := b!"InsertUser", kind := .insert, rel := { fieldName := b!"User", id := {} } },
    rs := [], cache := [] }

def conflictOf (r : R St) : Option OnConflict :=
  match r with
  | .ok s => s.q.onConflict
  | _ => none

/-- C35: that there is an action is not checked. -/
theorem C35_not_action :
    conflictOf (analyzeOnConflict insertSt { name := b!"OnConflict" }
      (.struct (.ofList [({ name := b!"_", tag := [(b!"sql", [b!"id"])] }, gosqlDir b!"Column")]))) =
      some { fieldName := b!"OnConflict", column := some [{ name := b!"id" }] } ∧
    conflictOf (analyzeOnConflict insertSt { name := b!"OnConflict" } (.struct .nil)) =
      some { fieldName := b!"OnConflict" } := by decide +kernel

example : conflictOf (analyzeOnConflict insertSt { name := b!"OnConflict" }
    (.struct (.ofList [({ name := b!"_", tag := [(b!"sql", [b!"*"])] }, gosqlDir b!"Update"),
      ({ name := b!"_", tag := [(b!"sql", [b!"users_idx"])] }, gosqlDir b!"Index")]))) =
    some { fieldName := b!"OnConflict", index := some b!"users_idx", update := some { all := true } } := by
  decide +kernel
example : codeOf (analyzeOnConflict insertSt { name := b!"OnConflict" }
    (.struct (.ofList [({ name := b!"_", tag := [(b!"sql", [b!"*"])] }, gosqlDir b!"Update")]))) =
    some .missingOnConflictTarget := by decide +kernel

/-! ### C36 -/

/-- The name by which a relation is referred to. -/
def RelIdent.ref (r : RelIdent) : Bytes := if r.alias = [] then r.name else r.alias

/-- The documented requirement on the left-hand side of a join condition. -/
def LhsOk (r : RelIdent) (c : ColIdent) : Prop := c.qualifier = [] ∨ c.qualifier = r.ref

/-- C36: exactly when a left-hand side is rejected. -/
theorem C36_iff (r : RelIdent) (c : ColIdent) :
    badLhs r c = true ↔
      (r.alias ≠ [] ∧ ¬ LhsOk r c) ∨ (r.alias = [] ∧ c.qualifier ≠ r.name) := by
  have e : ∀ l : Bytes, (l.length = 0) = (l = []) := fun l => propext List.length_eq_zero_iff
  unfold badLhs LhsOk RelIdent.ref
  by_cases ha : r.alias = []
  · simp [ha]
    exact ⟨fun h x => h x.symm, fun h x => h x.symm⟩
  · by_cases hq : c.qualifier = []
    · simp [ha, hq]
    · simp [ha, hq, e, List.length_pos_iff]
      exact ⟨fun h x => h x.symm, fun h x => h x.symm⟩

/-- C36: an accepted join condition has an admissible left-hand side. -/
theorem C36_sound (rs : RelSpace) (r : RelIdent) (val : Bytes) (c : ColCond)
    (e : joinCond rs r val = .ok c) : LhsOk r c.lhs := by
  unfold joinCond at e
  simp only [Res.bind_eq_ok] at e
  obtain ⟨cid, _, _, h2, h3⟩ := e
  have h2 := failIf_ok h2
  have hl : c.lhs = cid := by
    unfold colCond at h3
    split at h3
    · simp only [Res.bind_eq_ok] at h3
      obtain ⟨_, _, _, _, _, _, h3⟩ := h3
      simp at h3; rw [← h3]
    · simp only [Res.bind_eq_ok] at h3
      obtain ⟨_, _, _, _, h3⟩ := h3
      simp at h3; rw [← h3]
  rw [hl]
  by_cases ha : r.alias = []
  · right
    have := (not_congr (C36_iff r cid)).1 (by simp [h2])
    simp [ha] at this
    rw [RelIdent.ref, if_pos ha, this]
  · have := (not_congr (C36_iff r cid)).1 (by simp [h2])
    simpa [ha] using this

/-- C36: for an aliased relation, or a qualified column, the check is the documented one. -/
theorem C36_complete_partial (r : RelIdent) (c : ColIdent) (h : r.alias ≠ [] ∨ c.qualifier ≠ []) :
    badLhs r c = true ↔ ¬ LhsOk r c := by
  rw [C36_iff]
  unfold LhsOk RelIdent.ref
  by_cases ha : r.alias = []
  · simp [ha] at h ⊢
    simp [h]
  · simp [ha]

/-- C36 fails for an unqualified column of a relation without alias: it is rejected. -/
theorem C36_not_unqualified (r : RelIdent) (c : ColIdent) (ha : r.alias = []) (hn : r.name ≠ [])
    (hq : c.qualifier = []) : LhsOk r c ∧ badLhs r c = true :=
  ⟨.inl hq, (C36_iff r c).2 (.inr ⟨ha, by rw [hq]; exact fun h => hn h.symm⟩)⟩

def usersRs : RelSpace := [(b!"posts", { name := b!"posts" }), (b!"u", { name := b!"users", alias := b!"u" })]

example : joinCond usersRs { name := b!"posts" } b!"posts.user_id = u.id" =
    .ok { lhs := { qualifier := b!"posts", name := b!"user_id" },
          rhs := .column { qualifier := b!"u", name := b!"id" }, pred := some .isEQ } := by decide +kernel
example : joinCond usersRs { name := b!"posts" } b!"user_id = u.id" = .err .badJoinConditionLHS := by
  decide +kernel

/-! ### C55: join conditions -/

/-- C55: join conditions are sound. -/
theorem C55_sound (rs : RelSpace) (r : RelIdent) (val : Bytes) (c : ColCond)
    (e : joinCond rs r val = .ok c) : c.Sound := by
  unfold joinCond at e
  simp only [Res.bind_eq_ok] at e
  obtain ⟨_, _, _, _, h3⟩ := e
  exact colCond_sound h3

/-- Conditions, each with the connective before it. -/
def withOps (l : List (Bool × ColCond)) : List JItem := l.flatMap fun p => [.bool p.1, .cond p.2]

/-- The connectives within one value: AND (`false`) for the first part, OR for the others. -/
def opsOf : List ColCond → List (Bool × ColCond)
  | [] => []
  | c :: cs => (false, c) :: cs.map fun d => (true, d)

theorem joinAlts_spec {rs : RelSpace} {r : RelIdent} {items : List JItem} {isOr : Bool}
    {vs : List Bytes} {out : List JItem} (e : joinAlts rs r items isOr vs = .ok out) :
    ∃ cs : List ColCond, cs.map Res.ok = vs.map (joinCond rs r) ∧
      out = items ++ (withOps (match cs with
        | [] => []
        | c :: cs => (isOr, c) :: cs.map fun d => (true, d))).drop (if items.length > 0 then 0 else 1) := by
  induction vs generalizing items isOr with
  | nil =>
    rw [joinAlts] at e
    simp only [Res.ok.injEq] at e
    exact ⟨[], rfl, by simp [withOps, e]⟩
  | cons v vs ih =>
    rw [joinAlts, Res.bind_eq_ok] at e
    obtain ⟨c, hc, e⟩ := e
    obtain ⟨cs, h1, h2⟩ := ih e
    refine ⟨c :: cs, by simp [hc, h1], ?_⟩
    rw [h2]
    have hl : 0 < ((if items.length > 0 then items ++ [.bool isOr] else items) ++ [JItem.cond c]).length := by
      simp
    rw [if_pos hl]
    cases items with
    | nil => cases cs <;> simp [withOps]
    | cons i items => cases cs <;> simp [withOps]

theorem joinConds_spec {rs : RelSpace} {r : RelIdent} {items : List JItem}
    {vs : List Bytes} {out : List JItem} (e : joinConds rs r items vs = .ok out) :
    ∃ gs : List (List ColCond),
      gs.map (·.map Res.ok) = vs.map (fun v => (splitSemi v).map (joinCond rs r)) ∧
      out = items ++ (withOps (gs.flatMap opsOf)).drop (if items.length > 0 then 0 else 1) := by
  induction vs generalizing items with
  | nil =>
    rw [joinConds] at e
    simp only [Res.ok.injEq] at e
    exact ⟨[], rfl, by simp [withOps, e]⟩
  | cons v vs ih =>
    rw [joinConds, Res.bind_eq_ok] at e
    obtain ⟨its, h1, e⟩ := e
    obtain ⟨cs, a1, a2⟩ := joinAlts_spec h1
    obtain ⟨gs, b1, b2⟩ := ih e
    have hcs : cs ≠ [] := by
      rintro rfl
      have : (splitSemi v).map (joinCond rs r) = [] := by rw [← a1]; rfl
      have h0 : splitSemi v = [] := by simpa using this
      cases v with
      | nil => simp [splitSemi] at h0
      | cons c v =>
        rw [splitSemi] at h0
        split at h0
        · simp at h0
        · split at h0 <;> simp at h0
    refine ⟨cs :: gs, by simp [a1, b1], ?_⟩
    rw [b2]
    cases cs with
    | nil => exact absurd rfl hcs
    | cons c cs =>
      have hl : 0 < its.length := by rw [a2]; split <;> simp [withOps] <;> omega
      rw [if_pos hl, a2]
      cases items with
      | nil => simp [withOps, opsOf]
      | cons i items => simp [withOps, opsOf]

/-- C55: the conditions of a join directive are the parts of its tag values, in order; AND stands
between parts of different values, OR between parts of the same value, nothing before the first. -/
theorem C55_connectives (rs : RelSpace) (r : RelIdent) (vs : List Bytes) (out : List JItem)
    (e : joinConds rs r [] vs = .ok out) :
    ∃ gs : List (List ColCond),
      gs.map (·.map Res.ok) = vs.map (fun v => (splitSemi v).map (joinCond rs r)) ∧
      out = (withOps (gs.flatMap opsOf)).drop 1 := by
  obtain ⟨gs, h1, h2⟩ := joinConds_spec e
  exact ⟨gs, h1, by simpa using h2⟩

/-- The parts of a value joined by `;` are the value. -/
theorem splitSemi_join (v : Bytes) :
    ((splitSemi v).intersperse b!";").flatten = v ∧ ∀ p ∈ splitSemi v, ';' ∉ p := by
  induction v with
  | nil => simp [splitSemi]
  | cons c v ih =>
    rw [splitSemi]
    cases h : splitSemi v with
    | nil =>
      exfalso
      cases v with
      | nil => simp [splitSemi] at h
      | cons d v =>
        rw [splitSemi] at h
        split at h
        · simp at h
        · split at h <;> simp at h
    | cons p ps =>
      rw [h] at ih
      simp only
      by_cases hc : c = ';'
      · rw [if_pos hc, hc]
        refine ⟨by simpa using ih.1, ?_⟩
        intro q hq
        rcases List.mem_cons.1 hq with rfl | hq
        · simp
        · exact ih.2 q hq
      · rw [if_neg hc]
        constructor
        · cases ps with
          | nil => simpa using ih.1
          | cons q ps => simpa using ih.1
        · intro q hq
          rcases List.mem_cons.1 hq with rfl | hq
          · have := ih.2 p (by simp)
            simp [this]
            exact fun h => hc h.symm
          · exact ih.2 q (by simp [hq])

example : (joinConds usersRs { name := b!"posts" } []
    [b!"posts.user_id = u.id;posts.a isnull", b!"posts.b = 1"]).map (·.length) = .ok 5 := by decide +kernel

end Verif.Analysis
