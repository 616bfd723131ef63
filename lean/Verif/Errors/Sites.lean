import Verif.Errors.Postgres

/-
The places of /repo/internal/postgres/postgres.go at which an error is made, with the data that is given
to it there.  `complete` (checker.dbError) adds the rest.
-/
namespace Verif.Errors
open Verif.Analysis Verif.Postgres

/-- postgres.go:307, 350, 388, 584, 625, 887-889, 921: findColumn failed.  (At :887 the relation is nil
and its identifier is empty.) -/
def siteFind (cid : ColIdent) (e : DbErr) : DbError := { code := codeOf e, col := { id := cid } }

/-- postgres.go:241-242, 328-329, 456-457, 879-881, 1037-1039, 1117-1119, 1158-1159: a column is not in
the given relation; `rid` is empty but for :879. -/
def siteNoColumn (env : ErrEnv) (rel : Relation) (rid : RelIdent) (cid : ColIdent) : DbError :=
  { code := .columnUnknown, rel := { id := rid, rel := some (env.ofRel rel) }, col := { id := cid } }

/-- postgres.go:244-245, 331-332, 1243-1244, 1368-1369, 1485: a column cannot be used; `cid` is empty at
:1485. -/
def siteColumn (env : ErrEnv) (rel : Relation) (cid : ColIdent) (col : Column) (e : DbErr) : DbError :=
  { code := codeOf e, rel := { rel := some (env.ofRel rel) }
    col := { id := cid, col := some (env.ofCol col) } }

/-- postgres.go:590-592, 677-683: a field cannot be compared with a column. -/
def siteField (env : ErrEnv) (f : FieldConditional) (e : DbErr) : DbError :=
  { code := codeOf e, col := { id := f.colIdent, col := some (env.ofCol f.column) }
    pred := f.pred, quant := f.quant, func := f.func }

/-- postgres.go:897-898, 911-912: a unary predicate cannot be used. -/
def siteUnary (env : ErrEnv) (cid : ColIdent) (col : Column) (p : Pred) (e : DbErr) : DbError :=
  { code := codeOf e, col := { id := cid, col := some (env.ofCol col) }, pred := some p }

/-- postgres.go:928-931: the literal has no type. -/
def siteLiteral (env : ErrEnv) (cid : ColIdent) (col : Column) (lit : Bytes) (pred : Option Pred)
    (quant : Option Quant) (e : DbErr) : DbError :=
  { code := codeOf e, col := { id := cid, col := some (env.ofCol col) }, rhsLit := { expr := lit }
    pred := pred, quant := quant }

/-- postgres.go:937-941: the right side as a column. -/
def rhsColData (env : ErrEnv) (rcol : Option Column) : Rhs → ColData
  | .column cid => if cid.name.length > 0 then { id := cid, col := rcol.map env.ofCol } else {}
  | _ => {}
/-- postgres.go:937-942: the right side as an expression. -/
def rhsLitData (rtype : Option PgType) : Rhs → ExprData
  | .column cid => if cid.name.length > 0 then {} else { type := rtype }
  | .literal s => { expr := s, type := rtype }
  | .none => { type := rtype }

/-- postgres.go:936-947: the two sides cannot be compared. -/
def siteCompare (env : ErrEnv) (cid : ColIdent) (col : Column) (rhs : Rhs) (rcol : Option Column)
    (rtype : Option PgType) (pred : Option Pred) (quant : Option Quant) (e : DbErr) : DbError :=
  { code := codeOf e, col := { id := cid, col := some (env.ofCol col) }
    rhsCol := rhsColData env rcol rhs, rhsLit := rhsLitData rtype rhs, pred := pred, quant := quant }

/-- postgres.go:659-662: a column as a bound of a range. -/
def siteBetween (env : ErrEnv) (cid : ColIdent) (col : Column) (rcid : ColIdent) (rcol : Option Column)
    (pred : Pred) : DbError :=
  { code := .betweenColumnComparison, col := { id := cid, col := some (env.ofCol col) }
    rhsCol := { id := rcid, col := rcol.map env.ofCol }, pred := some pred }

/-- postgres.go:1064-1068, 1076-1080, 1093-1097: the target of ON CONFLICT. -/
def siteConflict (env : ErrEnv) (rel : Relation) (e : DbErr) : DbError :=
  { code := codeOf e, rel := { rel := some (env.ofRel rel) } }

/-- postgres.go:1825-1826: there is no such relation. -/
def siteNoRelation (rid : RelIdent) : DbError := { code := .relationUnknown, rel := { id := rid } }

/-- postgres.go:1876-1877: the type of a column is not in the catalog.  The column has no type and no
relation yet. -/
def siteNoType (env : ErrEnv) (rid : RelIdent) (r : RawCol) : DbError :=
  { code := .relationColumnUnknownType, rel := { id := rid, rel := some (env.relRef rid) }
    col := { col := some { name := r.name, typeOid := r.typeOid } } }

/-- The errors that the checker makes in the state `c`: `Raised env c e d` if it reports the code `e`
with the error `d`, not yet completed. -/
inductive Raised (env : ErrEnv) (c : Checker) : DbErr → DbError → Prop where
  | find {cid : ColIdent} {e : DbErr} (h : findColumn c cid = .err e) : Raised env c e (siteFind cid e)
  | noColumn {rel : Relation} {rid : RelIdent} {cid : ColIdent} (h : findRelColumn rel cid.name = none) :
    Raised env c .columnUnknown (siteNoColumn env rel rid cid)
  | column {rel : Relation} {cid : ColIdent} {col : Column} {e : DbErr}
    (h : e ∈ [.columnTextSearchType, .columnDefaultUnset, .columnFieldTypeRead, .columnFieldTypeWrite]) :
    Raised env c e (siteColumn env rel cid col e)
  | field {f : FieldConditional} {e : DbErr} (h : checkFieldCond c.cat f = .err e) :
    Raised env c e (siteField env f e)
  | betweenField {f : FieldConditional} (h : checkFieldCond c.cat f = .err .columnFieldComparison) :
    Raised env c .betweenFieldComparison (siteField env f .betweenFieldComparison)
  | unary {cid : ColIdent} {col : Column} {p : Pred} {w : Bool} {e : DbErr}
    (h : checkUnary c col p w = .err e) : Raised env c e (siteUnary env cid col p e)
  | literal {cid : ColIdent} {col : Column} {lit : Bytes} {pred : Option Pred} {quant : Option Quant}
    {e : DbErr} (h : typeOfLiteral c.cat lit = .err e) :
    Raised env c e (siteLiteral env cid col lit pred quant e)
  | compare {cid : ColIdent} {col : Column} {rhs : Rhs} {r : Option Column × Option PgType}
    {pred : Option Pred} {quant : Option Quant} {e : DbErr} (hr : checkRhs c rhs = .ok r)
    (h : checkComparison c.cat col.type r.2 pred quant = .err e) :
    Raised env c e (siteCompare env cid col rhs r.1 r.2 pred quant e)
  | between {cid rcid : ColIdent} {col : Column} {r : Option Column × Option PgType} {pred : Pred}
    (hr : checkRhs c (.column rcid) = .ok r)
    (h : checkComparison c.cat col.type r.2 (some pred) none = .err .columnComparison) :
    Raised env c .betweenColumnComparison (siteBetween env cid col rcid r.1 pred)
  | conflict {rel : Relation} {e : DbErr}
    (h : e ∈ [.onConflictIndexColumnsUnknown, .onConflictIndexColumnsNotUnique,
      .onConflictIndexUnknown, .onConflictIndexNotUnique, .onConflictConstraintUnknown,
      .onConflictConstraintNotUnique]) : Raised env c e (siteConflict env rel e)
  | noRelation {rid : RelIdent} : Raised env c .relationUnknown (siteNoRelation rid)
  | noType {rid : RelIdent} {r : RawCol} (h : c.cat.type r.typeOid = none) :
    Raised env c .relationColumnUnknownType (siteNoType env rid r)

end Verif.Errors
