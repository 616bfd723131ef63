import Verif.Errors.DbText
import Verif.Errors.Analysis
import Verif.Postgres.Check

/-
The errors of package postgres and their messages: /repo/internal/postgres/errors.go:71-262, and
checker.dbError, /repo/internal/postgres/postgres.go:118-163, which completes them.
-/
namespace Verif.Errors
open Verif.Analysis Verif.Postgres

/-- What the messages show of a Relation: types.go:184-199. -/
structure RelRef where
  name : Bytes := []
  schema : Bytes := []
deriving Repr, DecidableEq

/-- What the messages show of a Column: types.go:202-235; `type` may be nil. -/
structure ColRef where
  name : Bytes := []
  typeOid : Nat := 0
  type : Option PgType := none
  rel : Option RelRef := none
deriving Repr, DecidableEq

/-- errors.go:214-217; `col` may be nil. -/
structure ColData where
  id : ColIdent := {}
  col : Option ColRef := none
deriving Repr, DecidableEq

/-- errors.go:230-233; `rel` may be nil. -/
structure RelData where
  id : RelIdent := {}
  rel : Option RelRef := none
deriving Repr, DecidableEq

/-- errors.go:242-245. -/
structure ExprData where
  expr : Bytes := []
  type : Option PgType := none
deriving Repr, DecidableEq

/-- errors.go:137-140. -/
structure FileData where
  name : Bytes := []
  line : Nat := 0
deriving Repr, DecidableEq

/-- errors.go:152-162.  `sqlFirst` and `sqlTag` are what SqlTagFirst and SqlTag read from the tag. -/
structure FieldData where
  name : Bytes := []
  type : Bytes := []
  tag : Bytes := []
  sqlFirst : Bytes := []
  sqlTag : Bytes := []
  file : FileData := {}
deriving Repr, DecidableEq

/-- errors.go:130-135, 146-150. -/
structure DbData where
  dsn : Bytes := []
  name : Bytes := []
  searchPath : Bytes := []
deriving Repr, DecidableEq
structure TargetData where
  pkg : Bytes := []
  name : Bytes := []
  file : FileData := {}
deriving Repr, DecidableEq

/-- errors.go:72-86 dbError.  (`Err` is not used by any message that can be made.) -/
structure DbError where
  code : DbCode
  db : DbData := {}
  target : TargetData := {}
  field : FieldData := {}
  wbField : FieldData := {}
  rel : RelData := {}
  col : ColData := {}
  rhsCol : ColData := {}
  rhsLit : ExprData := {}
  pred : Option Pred := none
  quant : Option Quant := none
  func : Bytes := []
deriving Repr, DecidableEq

/-- errors.go:142-144. -/
def FileData.nameAndLine (f : FileData) : Bytes := f.name ++ b!":" ++ itoa f.line

/-- types.go:385-390. -/
def nameFmt : Option PgType → Bytes
  | none => b!"<nil>"
  | some t => t.nameFmt

/-- errors.go:223-228, 235-240: a name with its qualifier. -/
def dotted (q n : Bytes) : Bytes := if q.length > 0 then q ++ b!"." ++ n else n
def ColData.idRef (c : ColData) : Bytes := dotted c.id.qualifier c.id.name
def RelData.ref (r : RelData) : Bytes := dotted r.id.qualifier r.id.name

/-- enums.go:313-353, 370 of package analysis; no predicate has no text. -/
def predString : Option Pred → Bytes
  | none => []
  | some p => ((predTable.find? fun x => x.2 = p).map (·.1)).getD []
/-- enums.go:238-244 of package analysis. -/
def quantString : Option Quant → Bytes
  | none => []
  | some .any => b!"any"
  | some .some => b!"some"
  | some .all => b!"all"

/-- errors.go:114-119. -/
def DbError.predQuant (e : DbError) : Bytes := predString e.pred ++ quantString e.quant

/-- errors.go:101-112. -/
def DbError.predText (e : DbError) : Bytes :=
  if predIs Pred.isUnary e.pred then e.col.idRef ++ b!" " ++ e.predQuant
  else if e.rhsCol.id.name.length > 0 then
    e.col.idRef ++ b!" " ++ e.predQuant ++ b!" " ++ e.rhsCol.idRef
  else if e.rhsLit.expr.length > 0 then
    e.col.idRef ++ b!" " ++ e.predQuant ++ b!" " ++ e.rhsLit.expr
  else []

def DbError.fieldTypeShort (e : DbError) : Bytes := typeShort e.target.pkg e.field.type
def DbError.fieldDefinition (e : DbError) : Bytes :=
  definition e.field.name e.fieldTypeShort e.field.tag

/-- errors.go:121-126. -/
def DbError.wbDefinition (e : DbError) : Bytes :=
  if e.wbField.tag.length > 0 then
    e.wbField.name ++ b!" struct { ... " ++ e.fieldDefinition ++ b!" ... } `" ++ e.wbField.tag ++ b!"`"
  else e.wbField.name ++ b!" struct { ... " ++ e.fieldDefinition ++ b!" ... }"

/-- errors.go:210-212. -/
def FieldData.isDefaultDirective (f : FieldData) : Bool :=
  f.name = b!"_" && f.type = b!"github.com/frk/gosql.Default"

/-- What the references denote.  The template is executed with the struct itself (errors.go:91 `*e`),
not with a pointer: the method `Error`, which is one of the pointer, is not found, and there is no field
of that name.  A field that is promoted through a nil pointer cannot be evaluated. -/
def dbGet (e : DbError) : DbPath → Option Val
  | .Error_Error => none
  | .DB_Name => some (.str e.db.name)
  | .DB_DSN => some (.str e.db.dsn)
  | .DB_SearchPath => some (.str e.db.searchPath)
  | .Rel_Name => e.rel.rel.map fun r => .str r.name
  | .Rel_Schema => e.rel.rel.map fun r => .str r.schema
  | .Rel_Ref => some (.str e.rel.ref)
  | .Rel_Id_Qualifier => some (.str e.rel.id.qualifier)
  | .Rel_Id_Name => some (.str e.rel.id.name)
  | .Target_Name => some (.str e.target.name)
  | .Target_File_NameAndLine => some (.str e.target.file.nameAndLine)
  | .Field_File_NameAndLine => some (.str e.field.file.nameAndLine)
  | .Field_Definition => some (.str e.fieldDefinition)
  | .Field_Name => some (.str e.field.name)
  | .Field_Type => some (.str e.field.type)
  | .Field_TypeShort => some (.str e.fieldTypeShort)
  | .Field_IsDefaultDirective => some (.bool e.field.isDefaultDirective)
  | .Field_SqlTagFirst => some (.str e.field.sqlFirst)
  | .Field_SqlTag => some (.str e.field.sqlTag)
  | .Col_Name => e.col.col.map fun c => .str c.name
  | .Col_TypeOID => e.col.col.map fun c => .num c.typeOid
  | .Col_IdRef => some (.str e.col.idRef)
  | .Col_Type_GetNameFmt => e.col.col.map fun c => .str (nameFmt c.type)
  | .Col_Id_Qualifier => some (.str e.col.id.qualifier)
  | .RHSCol_Id_Name => some (.str e.rhsCol.id.name)
  | .RHSCol_IdRef => some (.str e.rhsCol.idRef)
  | .RHSCol_Type_GetNameFmt => e.rhsCol.col.map fun c => .str (nameFmt c.type)
  | .RHSLit_Expr => some (.str e.rhsLit.expr)
  | .RHSLit_Type_GetNameFmt => some (.str (nameFmt e.rhsLit.type))
  | .PredString => some (.str e.predText)
  | .Pred_String => some (.str (predString e.pred))
  | .Quant_String => some (.str (quantString e.quant))
  | .WBFieldDefinition => some (.str e.wbDefinition)
  | .FuncName => some (.str e.func)

/-- A template called by another. -/
def dbSub (e : DbError) (n : Bytes) : Option Bytes :=
  (List.lookup n dbHelpers).bind fun t => t.run (dbGet e) dbFuncs fun _ => none

/-- errors.go:88-95 Error.  `none` is the panic of :92. -/
def DbError.message (e : DbError) : Option Bytes :=
  (List.lookup e.code dbTemplates).bind fun t => t.run (dbGet e) dbFuncs (dbSub e)

/-! ### How the checker completes an error -/

/-- What checker.dbError reads besides the error: the connection, the target, the names that the
database has for a relation, and the fields of the source. -/
structure ErrEnv where
  db : DbData := {}
  target : TargetData := {}
  relRef : RelIdent → RelRef := fun rid => { name := rid.name, schema := rid.qualifier }
  /-- `FieldMap[ptr]` -/
  field : Option FieldData := none
  /-- `FieldMap[c.wb]`, if `c.wb` is set -/
  wbField : Option FieldData := none

def ErrEnv.ofRel (env : ErrEnv) (r : Relation) : RelRef := env.relRef r.id
def ErrEnv.ofCol (env : ErrEnv) (c : Column) : ColRef :=
  { name := c.name, typeOid := c.type.oid, type := some c.type, rel := some (env.relRef c.rel) }

/-- postgres.go:127-132: "get rel from column". -/
def relOfCol (env : ErrEnv) (c : Checker) (e : DbError) : Option RelRef :=
  match e.rel.rel, e.col.col with
  | some r, _ => some r
  | none, some col => col.rel
  | none, none =>
    if e.col.id.name.length > 0 then
      (List.lookup e.col.id.qualifier c.relMap).map env.ofRel
    else none

/-- postgres.go:134-139: "get rel from rel id, or relid from rel". -/
def relOfId (env : ErrEnv) (c : Checker) (rid : RelIdent) : Option RelRef → RelData
  | none =>
    { id := rid
      rel := if rid.name.length > 0 then (List.lookup rid.name c.relMap).map env.ofRel else none }
  | some r =>
    { id := if rid.name.length = 0 then { name := r.name, qualifier := r.schema } else rid
      rel := some r }

/-- postgres.go:118-163 checker.dbError. -/
def complete (env : ErrEnv) (c : Checker) (e : DbError) : DbError :=
  { e with
    db := env.db, target := env.target
    rel := relOfId env c e.rel.id (relOfCol env c e)
    field := env.field.getD e.field
    wbField := env.wbField.getD e.wbField }

end Verif.Errors
