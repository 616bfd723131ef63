import Verif.Errors.PropsCheck

/-
C79, fourth part: what the messages of package postgres say.
-/
namespace Verif.Errors
open Verif.Analysis Verif.Postgres

theorem db_shows {d : DbError} {t : Tmpl DbPath} (ht : List.lookup d.code dbTemplates = some t)
    {p : DbPath} {s out : Bytes} (hs : t.shows p = true) (hp : dbGet d p = some (.str s))
    (h : d.message = some out) : Shown s out := by
  simp only [DbError.message, ht, Option.bind_some] at h
  exact run_shows hp t out hs h

/-- **C79 (columns).**  If a column is not found in the relation of its qualifier, the message gives the
name of that relation, as the database has it, and the column as it was written. -/
theorem C79_column {env : ErrEnv} {c : Checker} {cid : ColIdent} (hn : cid.name ≠ [])
    (h : findColumn c cid = .err .columnUnknown) :
    ∃ rel out, List.lookup cid.qualifier c.relMap = some rel ∧
      (complete env c (siteFind cid .columnUnknown)).message = some out ∧
      Shown (env.relRef rel.id).name out ∧ Shown (dotted cid.qualifier cid.name) out := by
  have hl : cid.name.length > 0 := List.length_pos_iff.2 hn
  rcases findColumn_err h with ⟨h', _⟩ | ⟨_, rel, hq, _⟩
  · cases h'
  · obtain ⟨rest, hm⟩ := C79_postgres (complete env c (siteFind cid .columnUnknown)) rfl
      (raised_complete (.find h) fun _ => hn)
    refine ⟨rel, _, hq, hm, ?_, ?_⟩
    · refine db_shows (t := dbT_columnUnknown) (p := .Rel_Name) rfl (by decide +kernel) ?_ hm
      simp [dbGet, complete, siteFind, relOfCol, hl, hq, relOfId, ErrEnv.ofRel]
    · exact db_shows (t := dbT_columnUnknown) (p := .Col_IdRef) rfl (by decide +kernel) rfl hm

/-- **C79 (types).**  If a column and a field are not compatible, the message gives the column, its type
and the type of the field. -/
theorem C79_types {env : ErrEnv} {c : Checker} {rel : Relation} {cid : ColIdent} {col : Column} {e : DbErr}
    (he : e = .columnFieldTypeRead ∨ e = .columnFieldTypeWrite) {out : Bytes}
    (h : (complete env c (siteColumn env rel cid col e)).message = some out) :
    Shown col.name out ∧ Shown col.type.nameFmt out ∧
      ∀ f, env.field = some f → Shown f.type out := by
  rcases he with rfl | rfl
  · refine ⟨db_shows (t := dbT_columnFieldTypeRead) (p := .Col_Name) rfl (by decide +kernel) rfl h,
      db_shows (t := dbT_columnFieldTypeRead) (p := .Col_Type_GetNameFmt) rfl (by decide +kernel) rfl h,
      fun f hf => db_shows (t := dbT_columnFieldTypeRead) (p := .Field_Type) rfl (by decide +kernel) ?_ h⟩
    simp [dbGet, complete, hf]
  · refine ⟨db_shows (t := dbT_columnFieldTypeWrite) (p := .Col_Name) rfl (by decide +kernel) rfl h,
      db_shows (t := dbT_columnFieldTypeWrite) (p := .Col_Type_GetNameFmt) rfl (by decide +kernel) rfl h,
      fun f hf => db_shows (t := dbT_columnFieldTypeWrite) (p := .Field_Type) rfl (by decide +kernel) ?_ h⟩
    simp [dbGet, complete, hf]

/-! ### A message that says nothing -/

section congr
variable {F : Type}

def Expr.keeps (ok : F → Bool) : Expr F → Bool
  | .lit _ => true
  | .path p => ok p
  | .raw e => e.keeps ok
def Cond.keeps (ok : F → Bool) : Cond F → Bool
  | .path p => ok p
  | .not c => c.keeps ok
  | .or a b => a.keeps ok && b.keeps ok
/-- The template has no reference but those of `ok`, and calls no other. -/
def Tmpl.keeps (ok : F → Bool) : Tmpl F → Bool
  | .done => true
  | .text _ k => k.keeps ok
  | .out e k => e.keeps ok && k.keeps ok
  | .call _ args k => args.all (·.keeps ok) && k.keeps ok
  | .ite c t e k => c.keeps ok && t.keeps ok && e.keeps ok && k.keeps ok
  | .sub _ _ => false

variable {ok : F → Bool} {get get' : F → Option Val} (hg : ∀ p, ok p = true → get p = get' p)
include hg

theorem Expr.eval_congr (e : Expr F) (h : e.keeps ok = true) : e.eval get = e.eval get' := by
  induction e with
  | lit s => rfl
  | path p => exact hg p h
  | raw e ih => simp only [Expr.eval, ih h]
theorem Cond.eval_congr (c : Cond F) (h : c.keeps ok = true) : c.eval get = c.eval get' := by
  induction c with
  | path p => simp only [Cond.eval, hg p h]
  | not c ih => simp only [Cond.eval, ih h]
  | or a b iha ihb =>
    simp only [Cond.keeps, Bool.and_eq_true] at h
    simp only [Cond.eval, iha h.1, ihb h.2]
theorem evalArgs_congr (es : List (Expr F)) (h : es.all (·.keeps ok) = true) :
    evalArgs get es = evalArgs get' es := by
  induction es with
  | nil => rfl
  | cons e es ih =>
    simp only [List.all_cons, Bool.and_eq_true] at h
    simp only [evalArgs, Expr.eval_congr hg e h.1, ih h.2]
theorem run_congr {fs : Funcs} {sub sub' : Bytes → Option Bytes} (t : Tmpl F) (h : t.keeps ok = true) :
    t.run get fs sub = t.run get' fs sub' := by
  induction t with
  | done => rfl
  | text s k ih => simp only [Tmpl.run, ih h]
  | out e k ih =>
    simp only [Tmpl.keeps, Bool.and_eq_true] at h
    simp only [Tmpl.run, Expr.eval_congr hg e h.1, ih h.2]
  | call fn args k ih =>
    simp only [Tmpl.keeps, Bool.and_eq_true] at h
    simp only [Tmpl.run, callFn, evalArgs_congr hg args h.1, ih h.2]
  | ite c t e k iht ihe ihk =>
    simp only [Tmpl.keeps, Bool.and_eq_true] at h
    simp only [Tmpl.run, Cond.eval_congr hg c h.1.1.1, iht h.1.1.2, ihe h.1.2, ihk h.2]
  | sub n k ih => cases h

end congr

/-- The references that tell nothing of the column. -/
def noColumn : DbPath → Bool
  | .Col_Name | .Col_TypeOID | .Col_IdRef | .Col_Type_GetNameFmt | .Col_Id_Qualifier
  | .Rel_Name | .Rel_Schema | .Rel_Ref | .Rel_Id_Qualifier | .Rel_Id_Name | .FuncName => false
  | _ => true

/-- **C79 (no list type).**  If the type of a column has no array type, so that a list of values of a
field cannot be compared with it, the message is the same whatever the column is: it gives neither the
column nor its type. -/
theorem C79_not_list {env : ErrEnv} {c : Checker} {f g : FieldConditional} {e : DbErr}
    (he : e = .predicateOperandArray ∨ e = .predicateOperandQuantifier)
    (hp : f.pred = g.pred) (hq : f.quant = g.quant) (hu : predIs Pred.isUnary f.pred = false) :
    (complete env c (siteField env f e)).message = (complete env c (siteField env g e)).message := by
  have key : ∀ p, noColumn p = true →
      dbGet (complete env c (siteField env f e)) p = dbGet (complete env c (siteField env g e)) p := by
    intro p hk
    cases p
    case PredString => simp [dbGet, DbError.predText, complete, siteField, hu, ← hp]
    case Pred_String => simp [dbGet, complete, siteField, hp]
    case Quant_String => simp [dbGet, complete, siteField, hq]
    all_goals first | rfl | cases hk
  rcases he with rfl | rfl
  · show Option.bind (some dbT_predicateOperandArray) _ = Option.bind (some dbT_predicateOperandArray) _
    simp only [Option.bind_some]
    exact run_congr key dbT_predicateOperandArray (by decide +kernel)
  · show Option.bind (some dbT_predicateOperandQuantifier) _ = Option.bind (some dbT_predicateOperandQuantifier) _
    simp only [Option.bind_some]
    exact run_congr key dbT_predicateOperandQuantifier (by decide +kernel)

/-- An IN list for a column of an enum. -/
def moodCond (name : Bytes) : FieldConditional :=
  { fieldName := b!"Moods", fieldType := .leaf { kind := .string }
    colIdent := { name := name }
    column := { num := 1, name := name, type := { oid := 16500, nameFmt := name, typ := 'e', category := 'E' } }
    pred := some .isIn }

/-- It is refused, with a message that gives neither the column nor its type. -/
theorem C79_not_list_case (cat : Catalog) (env : ErrEnv) (c : Checker) :
    checkFieldCond cat (moodCond b!"mood") = .err .predicateOperandArray ∧
    (complete env c (siteField env (moodCond b!"mood") .predicateOperandArray)).message =
      (complete env c (siteField env (moodCond b!"hue") .predicateOperandArray)).message := by
  refine ⟨?_, C79_not_list (.inl rfl) rfl rfl rfl⟩
  have : List.lookup 16500 typeToArray = none := by decide +kernel
  simp [checkFieldCond, moodCond, checkFieldCondPlain, condColType, isListCond, predIs, Pred.isArray, this]

/-! ### Cases -/

def userRel : Relation :=
  { id := { name := b!"users" }, relKind := 'r', columns := [], constraints := [], indexes := [] }
def userChecker : Checker :=
  { cat := {}, rid := { name := b!"users", alias := b!"u" }, rel := userRel
    relMap := [(b!"u", userRel), ([], userRel)] }
def userEnv : ErrEnv :=
  { db := { name := b!"test", dsn := b!"postgres:///test", searchPath := b!"public" }
    relRef := fun rid => { name := rid.name, schema := b!"public" }
    field := some { name := b!"_", type := b!"github.com/frk/gosql.OrderBy"
                    tag := b!"sql:\"u.x\"", file := { name := b!"a.go", line := 7 } } }


/-- A column that is not there: the whole message. -/
theorem C79_example :
    findColumn userChecker { qualifier := b!"u", name := b!"x" } = .err .columnUnknown ∧
    (complete userEnv userChecker
        (siteFind { qualifier := b!"u", name := b!"x" } .columnUnknown)).message =
      some ("\x1b[1;97ma.go:7\x1b[0m: \x1b[0;93mColumn not found.\x1b[0m\n    The column \"\x1b[0;91mu.x\x1b[0m\" referenced in \"\x1b[0;91m_ gosql.OrderBy `sql:\"u.x\"`\x1b[0m\" does not exist in the relation \"\x1b[0;91musers\x1b[0m\".\n    - database: \x1b[0;97mtest\x1b[0m (dsn \"\x1b[0;97mpostgres:///test\x1b[0m\")\n    - relation: \x1b[0;97musers\x1b[0m (schema \"\x1b[0;97mpublic\x1b[0m\")\n    - target type: \x1b[0;97m\x1b[0m (source \"\x1b[0;97m:0\x1b[0m\")\n" : String).toList := by
  decide +kernel

/-- In a database without relations every query is refused with an error that has a message. -/
theorem C79_example_query (q : Query) (c : Checker) (rid : RelIdent) :
    checkQuery {} q = .err .relationUnknown ∧
    ∃ rest, (complete userEnv c (siteNoRelation rid)).message =
      some ('\x1b' :: b!"[1;97ma.go:7" ++ '\x1b' :: b!"[0m: " ++ rest) := by
  refine ⟨rfl, ?_⟩
  obtain ⟨rest, h⟩ := C79_checker (env := userEnv) (c := c) (.noRelation (rid := rid)) (by decide) (by simp) rfl
  refine ⟨rest, h.trans ?_⟩
  have : boldWhite (b!"a.go" ++ b!":" ++ itoa 7) ++ b!": " =
      '\x1b' :: b!"[1;97ma.go:7" ++ '\x1b' :: b!"[0m: " := by decide +kernel
  exact congrArg (fun x => some (x ++ rest)) this

end Verif.Errors
