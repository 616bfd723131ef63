import Verif.Errors.Props
import Verif.Errors.Sites

/-
C79, second part: the messages of the errors of package postgres.
-/
namespace Verif.Errors
open Verif.Analysis Verif.Postgres

/-! ### Codes whose messages cannot be made -/

/-- The codes whose templates ask for `.Error.Error`, or pass a number to a function of strings. -/
def broken : DbCode → Bool
  | .databaseOpen | .databaseInit | .catalogTypeGet | .catalogTypeScan | .catalogOperatorGet
  | .catalogOperatorScan | .catalogCastGet | .catalogCastScan | .catalogProcedureGet
  | .catalogProcedureScan | .relationScan | .relationColumnGet | .relationColumnScan
  | .relationColumnUnknownType | .relationConstraintGet | .relationConstraintScan | .relationIndexGet
  | .relationIndexScan => true
  | _ => false

/-- Whatever branches are taken, one of the references of `bad` is an argument of a function, or one of
the templates of `subBad` is called. -/
def Tmpl.doomed {F : Type} [DecidableEq F] (bad : List F) (subBad : Bytes → Bool) : Tmpl F → Bool
  | .done => false
  | .text _ k => k.doomed bad subBad
  | .out _ k => k.doomed bad subBad
  | .call _ args k => args.any (fun e => bad.any (e.isPath ·)) || k.doomed bad subBad
  | .ite _ _ _ k => k.doomed bad subBad
  | .sub n k => subBad n || k.doomed bad subBad

theorem evalArgs_bad {F : Type} [DecidableEq F] {get : F → Option Val} {bad : List F}
    (hb : ∀ p ∈ bad, ∀ s, get p ≠ some (.str s)) (es : List (Expr F))
    (h : es.any (fun e => bad.any (e.isPath ·)) = true) : evalArgs get es = none := by
  induction es with
  | nil => simp at h
  | cons e es ih =>
    simp only [List.any_cons, Bool.or_eq_true] at h
    rcases h with h | h
    · rw [List.any_eq_true] at h
      obtain ⟨p, hp, he⟩ := h
      cases e with
      | path q =>
        simp only [Expr.isPath, decide_eq_true_eq] at he
        subst he
        simp only [evalArgs, Expr.eval]
        cases hg : get q with
        | none => rfl
        | some v =>
          cases v with
          | str s => exact absurd hg (hb q hp s)
          | bool b => rfl
          | num n => rfl
      | lit s => simp [Expr.isPath] at he
      | raw e => simp [Expr.isPath] at he
    · simp [evalArgs, ih h]

theorem run_doomed {F : Type} [DecidableEq F] {get : F → Option Val} {fs : Funcs}
    {sub : Bytes → Option Bytes} {bad : List F} {subBad : Bytes → Bool}
    (hb : ∀ p ∈ bad, ∀ s, get p ≠ some (.str s)) (hn : ∀ n, subBad n = true → sub n = none)
    (t : Tmpl F) (h : t.doomed bad subBad = true) : t.run get fs sub = none := by
  induction t with
  | done => simp [Tmpl.doomed] at h
  | text s k ih => simp [Tmpl.run, ih h]
  | out e k ih => simp [Tmpl.run, ih h]
  | call fn args k ih =>
    simp only [Tmpl.doomed, Bool.or_eq_true] at h
    rcases h with h | h
    · simp [Tmpl.run, callFn, evalArgs_bad hb args h]
    · simp [Tmpl.run, ih h]
  | ite c t e k _ _ ih => simp [Tmpl.run, ih h]
  | sub n k ih =>
    simp only [Tmpl.doomed, Bool.or_eq_true] at h
    rcases h with h | h
    · simp [Tmpl.run, hn n h]
    · simp [Tmpl.run, ih h]

def badPaths : List DbPath := [.Error_Error, .Col_TypeOID]

theorem dbGet_bad (e : DbError) : ∀ p ∈ badPaths, ∀ s, dbGet e p ≠ some (.str s) := by
  intro p hp s
  simp only [badPaths, List.mem_cons, List.not_mem_nil, or_false] at hp
  rcases hp with rfl | rfl
  · simp [dbGet]
  · simp [dbGet]

theorem issue_fails (e : DbError) : dbSub e b!"external_error_issue" = none := by
  show (dbT_external_error_issue).run (dbGet e) dbFuncs (fun _ => none) = none
  exact run_doomed (subBad := fun _ => false) (dbGet_bad e) (by simp) _ (by decide)

theorem dbTemplates_doomed :
    dbTemplates.all (fun x => !broken x.1 ||
      x.2.doomed badPaths (· = b!"external_error_issue")) = true := by decide +kernel

/-- Every code has a template. -/
theorem dbTemplates_all (c : DbCode) : ∃ t, List.lookup c dbTemplates = some t := by
  cases c <;> exact ⟨_, rfl⟩

/-- **C79 (no message).**  The errors of the connection, of loading the catalog and of loading a relation
other than that it does not exist have no message: `Error` panics. -/
theorem C79_not_message (d : DbError) (h : broken d.code = true) : d.message = none := by
  obtain ⟨t, ht⟩ := dbTemplates_all d.code
  have h2 := List.all_eq_true.1 dbTemplates_doomed _ (lookup_mem ht)
  simp only [DbError.message, ht, Option.bind_some]
  refine run_doomed (dbGet_bad d) ?_ t (by simpa [h] using h2)
  intro n hn
  simp only [decide_eq_true_eq] at hn
  rw [hn]
  exact issue_fails d

/-- **C79 (no message), the cases.**  A database that cannot be reached (postgres.go:59-61), whatever the
reason; and a table with a column whose type is not in the catalog. -/
theorem C79_not_open (dsn : Bytes) :
    ({ code := .databaseOpen, db := { dsn := dsn } } : DbError).message = none :=
  C79_not_message _ rfl
theorem C79_not_type (env : ErrEnv) (c : Checker) (rid : RelIdent) (r : RawCol) :
    (complete env c (siteNoType env rid r)).message = none :=
  C79_not_message _ rfl

/-! ### The others -/

/-- The message names the relation, and the schema. -/
def needsRel : DbCode → Bool
  | .columnUnknown => true
  | _ => false
/-- The message shows the column of the database. -/
def needsCol : DbCode → Bool
  | .columnFieldTypeWrite | .columnFieldTypeRead | .columnTextSearchType | .predicateOperandBool
  | .columnComparison | .columnFieldComparison | .betweenColumnComparison | .betweenFieldComparison
  | .procedureUnknown => true
  | _ => false

/-- The references that are strings, if the data that the code needs is there; `r` if there is a column
on the right side. -/
def DbPath.isStr (code : DbCode) (r : Bool) : DbPath → Bool
  | .Error_Error | .Field_IsDefaultDirective | .Col_TypeOID => false
  | .Rel_Name | .Rel_Schema => needsRel code
  | .Col_Name | .Col_Type_GetNameFmt => needsCol code
  | .RHSCol_Type_GetNameFmt => r
  | _ => true
def DbPath.isVal (code : DbCode) (r : Bool) (p : DbPath) : Bool :=
  p = .Field_IsDefaultDirective || p.isStr code r
def DbPath.isDead (r : Bool) (p : DbPath) : Bool := !r && p = .RHSCol_Id_Name

theorem dbTemplates_fine (r : Bool) :
    dbTemplates.all (fun x => broken x.1 || (!r && x.1 = .betweenColumnComparison) ||
      x.2.fine dbFuncs (DbPath.isStr x.1 r) (DbPath.isVal x.1 r) (DbPath.isDead r)
        fun n => n = b!"connection_info" && needsRel x.1) = true := by
  cases r <;> decide +kernel

theorem dbTemplates_start :
    dbTemplates.all (fun x => broken x.1 || x.2.startsWith .Field_File_NameAndLine) = true := by
  decide +kernel

theorem info_fine :
    dbT_connection_info.fine dbFuncs (DbPath.isStr .columnUnknown false) (fun _ => false)
      (fun _ => false) (fun _ => false) = true := by decide +kernel

/-- The data that the message of the code shows is there. -/
structure Complete (d : DbError) : Prop where
  rel : needsRel d.code = true → d.rel.rel.isSome = true
  col : needsCol d.code = true → d.col.col.isSome = true
  rhs : d.rhsCol.col.isSome = true ∨ d.rhsCol.id.name = [] ∧ d.code ≠ .betweenColumnComparison

theorem dbGet_str {d : DbError} (code : DbCode) (r : Bool)
    (h1 : needsRel code = true → d.rel.rel.isSome = true)
    (h2 : needsCol code = true → d.col.col.isSome = true)
    (h3 : r = true → d.rhsCol.col.isSome = true) (p : DbPath) (hp : p.isStr code r = true) :
    ∃ s, dbGet d p = some (.str s) := by
  cases p
  case Error_Error => cases hp
  case Field_IsDefaultDirective => cases hp
  case Col_TypeOID => cases hp
  case Rel_Name => obtain ⟨x, hx⟩ := Option.isSome_iff_exists.1 (h1 hp); exact ⟨x.name, by simp [dbGet, hx]⟩
  case Rel_Schema =>
    obtain ⟨x, hx⟩ := Option.isSome_iff_exists.1 (h1 hp); exact ⟨x.schema, by simp [dbGet, hx]⟩
  case Col_Name => obtain ⟨x, hx⟩ := Option.isSome_iff_exists.1 (h2 hp); exact ⟨x.name, by simp [dbGet, hx]⟩
  case Col_Type_GetNameFmt =>
    obtain ⟨x, hx⟩ := Option.isSome_iff_exists.1 (h2 hp); exact ⟨nameFmt x.type, by simp [dbGet, hx]⟩
  case RHSCol_Type_GetNameFmt =>
    obtain ⟨x, hx⟩ := Option.isSome_iff_exists.1 (h3 hp); exact ⟨nameFmt x.type, by simp [dbGet, hx]⟩
  all_goals exact ⟨_, rfl⟩

theorem dbGet_val {d : DbError} (code : DbCode) (r : Bool)
    (h1 : needsRel code = true → d.rel.rel.isSome = true)
    (h2 : needsCol code = true → d.col.col.isSome = true)
    (h3 : r = true → d.rhsCol.col.isSome = true) (p : DbPath) (hp : p.isVal code r = true) :
    ∃ v, dbGet d p = some v := by
  simp only [DbPath.isVal, Bool.or_eq_true, decide_eq_true_eq] at hp
  rcases hp with rfl | hp
  · exact ⟨_, rfl⟩
  · obtain ⟨s, hs⟩ := dbGet_str code r h1 h2 h3 p hp
    exact ⟨_, hs⟩

theorem info_runs {d : DbError} (h : d.rel.rel.isSome = true) :
    ∃ s, dbSub d b!"connection_info" = some s := by
  show ∃ s, (dbT_connection_info).run (dbGet d) dbFuncs (fun _ => none) = some s
  exact run_fine (subOk := fun _ => false) (dbGet_str .columnUnknown false (fun _ => h) (by simp [needsCol])
    (by simp)) (by simp) (by simp) (by simp) _ info_fine

/-- **C79 (postgres).**  An error that has the data that its message shows has a message, which begins
with the file and the line of the field, in bold white, and a colon. -/
theorem C79_postgres (d : DbError) (hb : broken d.code = false) (hc : Complete d) :
    ∃ rest, d.message =
      some (boldWhite (d.field.file.name ++ b!":" ++ itoa d.field.file.line) ++ b!": " ++ rest) := by
  obtain ⟨t, ht⟩ := dbTemplates_all d.code
  have hm := lookup_mem ht
  have hst := List.all_eq_true.1 dbTemplates_start _ hm
  have run : ∃ s, t.run (dbGet d) dbFuncs (dbSub d) = some s := by
    have hsub : ∀ n : Bytes, (decide (n = b!"connection_info") && needsRel d.code) = true →
        ∃ s, dbSub d n = some s := by
      intro n hn
      simp only [Bool.and_eq_true, decide_eq_true_eq] at hn
      rw [hn.1]
      exact info_runs (hc.rel hn.2)
    rcases hc.rhs with hr | ⟨hr, hne⟩
    · have hf := List.all_eq_true.1 (dbTemplates_fine true) _ hm
      simp only [hb, Bool.not_true, Bool.false_and, Bool.false_or] at hf
      exact run_fine (dbGet_str d.code true hc.rel hc.col fun _ => hr)
        (dbGet_val d.code true hc.rel hc.col fun _ => hr) (by simp [DbPath.isDead]) hsub t hf
    · have hf := List.all_eq_true.1 (dbTemplates_fine false) _ hm
      simp only [hb, Bool.not_false, Bool.true_and, Bool.false_or, decide_eq_false hne] at hf
      refine run_fine (dbGet_str d.code false hc.rel hc.col (by simp))
        (dbGet_val d.code false hc.rel hc.col (by simp)) ?_ hsub t hf
      intro p hp
      simp only [DbPath.isDead, Bool.not_false, Bool.true_and, decide_eq_true_eq] at hp
      subst hp
      simp [dbGet, hr]
  obtain ⟨s, hs⟩ := run
  simp only [hb, Bool.false_or] at hst
  obtain ⟨rest, hr⟩ := run_starts t (by decide) hst (show dbGet d .Field_File_NameAndLine = _ from rfl) hs
  refine ⟨rest, ?_⟩
  simp only [DbError.message, ht, Option.bind_some, hs, hr, FileData.nameAndLine]

/-! ### What the checker raises -/

theorem findColumn_err {c : Checker} {cid : ColIdent} {e : DbErr} (h : findColumn c cid = .err e) :
    (e = .columnQualifierUnknown ∧ List.lookup cid.qualifier c.relMap = none) ∨
    (e = .columnUnknown ∧ ∃ rel, List.lookup cid.qualifier c.relMap = some rel ∧
      findRelColumn rel cid.name = none) := by
  unfold findColumn at h
  split at h
  · rename_i h'
    simp only [Res.err.injEq] at h
    exact .inl ⟨h.symm, h'⟩
  · rename_i rel h'
    split at h
    · rename_i h2
      simp only [Res.err.injEq] at h
      exact .inr ⟨h.symm, rel, h', h2⟩
    · cases h

theorem checkRhs_col {c : Checker} {rhs : Rhs} {r : Option Column × Option PgType} (env : ErrEnv)
    (h : checkRhs c rhs = .ok r) :
    (rhsColData env r.1 rhs).col.isSome = true ∨ (rhsColData env r.1 rhs).id.name = [] := by
  cases rhs with
  | none => exact .inr rfl
  | literal s => exact .inr rfl
  | column cid =>
    simp only [checkRhs] at h
    split at h
    · rename_i hl
      left
      cases hf : findColumn c cid with
      | ok col =>
        simp only [hf, Res.map_ok, Res.ok.injEq] at h
        subst h
        simp only [rhsColData, if_pos hl]
        rfl
      | err e => simp [hf] at h
      | panic => simp [hf] at h
    · rename_i hl
      right
      simp only [rhsColData, if_neg hl]

/-- What a comparison can be refused with. -/
theorem checkComparison_err {cat : Catalog} {l : PgType} {r : Option PgType} {p : Option Pred}
    {q : Option Quant} {e : DbErr} (h : checkComparison cat l r p q = .err e) :
    e = .predicateOperandArray ∨ e = .predicateOperandQuantifier ∨ e = .columnComparison := by
  unfold checkComparison at h
  cases hr : rhsType cat r p q with
  | panic => simp [hr] at h
  | err e' =>
    simp only [hr, Res.bind_err, Res.err.injEq] at h
    subst h
    unfold rhsType at hr
    split at hr
    · split at hr
      · cases hr
      · split at hr
        · cases hr
        · split at hr <;> simp_all
    · cases hr
  | ok t =>
    simp only [hr, Res.bind_ok] at h
    split at h
    · cases h
    · unfold refuseIf at h
      split at h
      · simp only [Res.err.injEq] at h
        exact .inr (.inr h.symm)
      · cases h

/-- What a comparison with a field can be refused with. -/
theorem checkFieldCond_err {cat : Catalog} {f : FieldConditional} {e : DbErr}
    (h : checkFieldCond cat f = .err e) :
    e = .predicateOperandArray ∨ e = .predicateOperandQuantifier ∨ e = .columnFieldComparison ∨
      e = .procedureUnknown := by
  unfold checkFieldCond at h
  split at h
  · have hf : checkFieldCondFunc cat f = .err e := by
      cases hf : checkFieldCondFunc cat f <;> simp_all
    unfold checkFieldCondFunc at hf
    split at hf
    · simp only [Res.err.injEq] at hf
      exact .inr (.inr (.inr hf.symm))
    · have pairs : ∀ ps, findPair cat f ps = .err e → e = .procedureUnknown := by
        intro ps
        induction ps with
        | nil => intro h; simp only [findPair, Res.err.injEq] at h; exact h.symm
        | cons x xs ih =>
          intro h
          obtain ⟨l, r⟩ := x
          simp only [findPair] at h
          split at h
          · split at h
            · cases h
            · exact ih h
          · exact ih h
      have noErr : ∀ l r : Proc, ∀ e', procPair cat f l r ≠ .err e' := by
        intro l r e' h
        unfold procPair at h
        split at h
        · split at h
          · split at h <;> cases h
          · cases h
          · cases h
        · cases h
      have mapNo : ∀ {α β : Type} (g : α → P β) (xs : List α), (∀ x, ∀ e', g x ≠ .err e') →
          ∀ e', mapP g xs ≠ .err e' := by
        intro α β g xs hg
        induction xs with
        | nil => intro e' h; cases h
        | cons x xs ih =>
          intro e' h
          simp only [mapP] at h
          cases hx : g x with
          | err e'' => exact hg x e'' hx
          | panic => simp [hx] at h
          | ok y =>
            simp only [hx, Res.bind_ok] at h
            cases hxs : mapP g xs with
            | err e'' => exact ih e'' hxs
            | panic => simp [hxs] at h
            | ok ys => simp [hxs] at h
      cases hp : procPairs cat f (cat.procsOf f.func) with
      | ok ps =>
        simp only [hp, Res.bind_ok] at hf
        exact .inr (.inr (.inr (pairs ps hf)))
      | panic => simp [hp] at hf
      | err e' =>
        exfalso
        unfold procPairs at hp
        cases hm : mapP (fun l => (mapP (fun r => procPair cat f l r) (cat.procsOf f.func)).map
            List.flatten) (cat.procsOf f.func) with
        | ok x => simp [hm] at hp
        | panic => simp [hm] at hp
        | err e'' =>
          refine mapNo _ _ ?_ e'' hm
          intro l e3 h3
          cases h4 : mapP (fun r => procPair cat f l r) (cat.procsOf f.func) with
          | ok x => simp [h4] at h3
          | panic => simp [h4] at h3
          | err e4 => exact mapNo _ _ (fun r e5 => noErr l r e5) e4 h4
  · have hf : checkFieldCondPlain cat f = .err e := by
      cases hf : checkFieldCondPlain cat f <;> simp_all
    unfold checkFieldCondPlain at hf
    cases hc : condColType cat f with
    | panic => simp [hc] at hf
    | err e' =>
      simp only [hc, Res.bind_err, Res.err.injEq] at hf
      subst hf
      unfold condColType at hc
      split at hc
      · split at hc
        · cases hc
        · split at hc <;> simp_all
      · cases hc
    | ok ct =>
      simp only [hc, Res.bind_ok] at hf
      cases hd : (if cat.hasOp ⟨oprname f.pred, if f.column.type.isEnum then Oid.text else f.column.type.oid,
            if f.column.type.isEnum then Oid.text else f.column.type.oid⟩ = true then
          (isLength1 cat f.column).map fun typmod1 => typeCompat cat ct (condType f.fieldType) typmod1
        else .ok none) with
      | panic => simp [hd] at hf
      | err e' =>
        exfalso
        by_cases hop : cat.hasOp ⟨oprname f.pred, if f.column.type.isEnum then Oid.text else
            f.column.type.oid, if f.column.type.isEnum then Oid.text else f.column.type.oid⟩ = true
        · rw [if_pos hop] at hd
          cases hl : isLength1 cat f.column with
          | ok b => simp [hl] at hd
          | panic => simp [hl] at hd
          | err e3 =>
            unfold isLength1 at hl
            split at hl <;> cases hl
        · rw [if_neg hop] at hd
          cases hd
      | ok direct =>
        simp only [hd, Res.bind_ok] at hf
        split at hf
        · cases hf
        · split at hf
          · cases hf
          · simp only [Res.err.injEq] at hf
            exact .inr (.inr (.inl hf.symm))

theorem complete_code (env : ErrEnv) (c : Checker) (d : DbError) : (complete env c d).code = d.code := rfl

theorem relOfId_rel (env : ErrEnv) (c : Checker) (rid : RelIdent) (r : RelRef) :
    (relOfId env c rid (some r)).rel = some r := rfl

/-- What the checker raises can be shown, once it is completed. -/
theorem raised_complete {env : ErrEnv} {c : Checker} {e : DbErr} {d : DbError} (h : Raised env c e d)
    (hn : e = .columnUnknown → d.col.id.name ≠ []) : Complete (complete env c d) := by
  cases h with
  | @find cid e h =>
    rcases findColumn_err h with ⟨rfl, h'⟩ | ⟨rfl, rel, h', _⟩
    · exact ⟨by simp [complete, siteFind, codeOf, needsRel], by simp [complete, siteFind, codeOf, needsCol],
        .inr ⟨rfl, by simp [complete, siteFind, codeOf]⟩⟩
    · refine ⟨fun _ => ?_, by simp [complete, siteFind, codeOf, needsCol],
        .inr ⟨rfl, by simp [complete, siteFind, codeOf]⟩⟩
      have : cid.name.length > 0 := List.length_pos_iff.2 (hn rfl)
      simp [complete, siteFind, relOfCol, this, h', relOfId]
  | noColumn h =>
    exact ⟨fun _ => rfl, by simp [complete, siteNoColumn, needsCol],
      .inr ⟨rfl, by simp [complete, siteNoColumn]⟩⟩
  | @column rel cid col e h =>
    exact ⟨fun _ => rfl, fun _ => rfl, .inr ⟨rfl, by
      simp only [complete, siteColumn]
      intro hc
      simp only [List.mem_cons, List.not_mem_nil, or_false] at h
      rcases h with rfl | rfl | rfl | rfl <;> cases hc⟩⟩
  | @field f e h =>
    exact ⟨fun _ => rfl, fun _ => rfl, .inr ⟨rfl, by
      simp only [complete, siteField]
      intro hc
      rcases checkFieldCond_err h with rfl | rfl | rfl | rfl <;> cases hc⟩⟩
  | betweenField h => exact ⟨fun _ => rfl, fun _ => rfl, .inr ⟨rfl, by simp [complete, siteField, codeOf]⟩⟩
  | @unary cid col p w e h =>
    exact ⟨fun _ => rfl, fun _ => rfl, .inr ⟨rfl, by
      simp only [complete, siteUnary]
      intro hc
      unfold checkUnary refuseIf at h
      split at h
      · simp only [Res.bind_err, Res.err.injEq] at h
        subst h; cases hc
      · simp only [Res.bind_ok] at h
        split at h
        · simp only [Res.err.injEq] at h
          subst h; cases hc
        · cases h⟩⟩
  | @literal cid col lit pred quant e h =>
    exact ⟨fun _ => rfl, fun _ => rfl, .inr ⟨rfl, by
      simp only [complete, siteLiteral]
      intro hc
      unfold typeOfLiteral at h
      split at h
      · simp only [Res.err.injEq] at h
        subst h; cases hc
      · cases h⟩⟩
  | @compare cid col rhs r pred quant e hr h =>
    refine ⟨fun _ => rfl, fun _ => rfl, ?_⟩
    rcases checkRhs_col env hr with h' | h'
    · exact .inl h'
    · refine .inr ⟨h', ?_⟩
      simp only [complete, siteCompare]
      intro hc
      rcases checkComparison_err h with rfl | rfl | rfl <;> cases hc
  | @between cid rcid col r pred hr h =>
    refine ⟨fun _ => rfl, fun _ => rfl, .inl ?_⟩
    simp only [checkRhs] at hr
    split at hr
    · cases hf : findColumn c rcid with
      | ok rc =>
        simp only [hf, Res.map_ok, Res.ok.injEq] at hr
        subst hr
        rfl
      | err e => simp [hf] at hr
      | panic => simp [hf] at hr
    · simp only [Res.ok.injEq] at hr
      subst hr
      have : checkComparison c.cat col.type none (some pred) none = .panic := by
        unfold checkComparison rhsType
        split <;> rfl
      rw [this] at h
      cases h
  | @conflict rel e h =>
    simp only [List.mem_cons, List.not_mem_nil, or_false] at h
    refine ⟨fun _ => rfl, fun hc => ?_, .inr ⟨rfl, fun hc => ?_⟩⟩
    · rw [complete_code] at hc
      simp only [siteConflict] at hc
      rcases h with rfl | rfl | rfl | rfl | rfl | rfl <;> cases hc
    · rw [complete_code] at hc
      simp only [siteConflict] at hc
      rcases h with rfl | rfl | rfl | rfl | rfl | rfl <;> cases hc
  | noRelation =>
    exact ⟨by simp [complete, siteNoRelation, needsRel], by simp [complete, siteNoRelation, needsCol],
      .inr ⟨rfl, by simp [complete, siteNoRelation]⟩⟩
  | noType h => exact ⟨fun _ => rfl, fun _ => rfl, .inr ⟨rfl, by simp [complete, siteNoType]⟩⟩

theorem raised_code {env : ErrEnv} {c : Checker} {e : DbErr} {d : DbError} (h : Raised env c e d) :
    d.code = codeOf e := by
  cases h <;> rfl

theorem broken_codeOf (e : DbErr) (h : e ≠ .relationColumnUnknownType) : broken (codeOf e) = false := by
  cases e <;> first | rfl | exact absurd rfl h

/-- **C79 (checker).**  What the checker raises has a message, unless it is that the type of a column is
not in the catalog.  The message begins with the file and the line of the field that caused it. -/
theorem C79_checker {env : ErrEnv} {c : Checker} {e : DbErr} {d : DbError} {f : FieldData}
    (h : Raised env c e d) (he : e ≠ .relationColumnUnknownType)
    (hn : e = .columnUnknown → d.col.id.name ≠ []) (hf : env.field = some f) :
    ∃ rest, (complete env c d).message =
      some (boldWhite (f.file.name ++ b!":" ++ itoa f.file.line) ++ b!": " ++ rest) := by
  have := C79_postgres (complete env c d)
    (by rw [complete_code, raised_code h]; exact broken_codeOf e he) (raised_complete h hn)
  simpa [complete, hf] using this

end Verif.Errors
