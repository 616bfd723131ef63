import Verif.Errors.AnText
import Verif.Analysis.Expr
import Verif.Analysis.Types

/-
The errors of package analysis and their messages: /repo/internal/analysis/error.go:12-193.

The tag is given both as text and as the parsed tag of Verif/Analysis/Types.lean.
-/
namespace Verif.Errors
open Verif.Analysis

/-- error.go:13-34 anError. -/
structure AnErr where
  code : ECode
  pkgPath : Bytes := []
  targetName : Bytes := []
  blockName : Bytes := []
  relField : Bytes := []
  relBaseName : Bytes := []
  relBaseIsStruct : Bool := true
  relBasePkgPath : Bytes := []
  relBasePkgName : Bytes := []
  fieldType : Bytes := []
  fieldTypeKind : Bytes := []
  fieldName : Bytes := []
  tagString : Bytes := []
  tag : Tag := []
  tagExpr : Bytes := []
  tagError : Bytes := []
  fileName : Bytes := []
  fileLine : Nat := 0

/-- error.go:43-45. -/
def AnErr.fileAndLine (e : AnErr) : Bytes := e.fileName ++ b!":" ++ itoa e.fileLine
/-- error.go:47-49. -/
def AnErr.isDirective (e : AnErr) : Bool := e.fieldName = b!"_"
/-- error.go:51-53. -/
def AnErr.isSelectQueryKind (e : AnErr) : Bool := (tolower e.targetName).take 6 = b!"select"
/-- error.go:55-58. -/
def AnErr.tagExprIsUnary (e : AnErr) : Bool :=
  (parsePredicateExpr e.tagExpr).rhs.length = 0 && e.isDirective
/-- error.go:60-63. -/
def AnErr.tagExprHasRHS (e : AnErr) : Bool := (parsePredicateExpr e.tagExpr).rhs.length > 0
/-- error.go:65-68. -/
def AnErr.tagExprPredicate (e : AnErr) : Bytes := (parsePredicateExpr e.tagExpr).op
/-- error.go:82-84. -/
def AnErr.tagValueSqlFirst (e : AnErr) : Bytes := e.tag.first b!"sql"

/-- error.go:95-110; what follows the second `return` is not reached. -/
def AnErr.relTypeShort (e : AnErr) : Bytes :=
  if e.relBaseName.length = 0 && e.relBaseIsStruct then b!"struct{ ... }"
  else if e.relBasePkgPath = e.pkgPath then e.relBaseName
  else e.relBasePkgName ++ b!"." ++ e.relBaseName
/-- error.go:90-92. -/
def AnErr.relDefinition (e : AnErr) : Bytes := e.relField ++ b!" " ++ e.relTypeShort

/-- What follows the last `c`, or the whole text. -/
def afterLast (c : Char) (s : Bytes) : Bytes :=
  match lastSplit c s with
  | some p => p.2
  | none => s
/-- What precedes the last `c`, or nothing. -/
def beforeLast (c : Char) (s : Bytes) : Bytes :=
  match lastSplit c s with
  | some p => p.1
  | none => []

/-- error.go:120-134, and fieldInfo.TypeShort of /repo/internal/postgres/errors.go:180-194. -/
def typeShort (pkg t : Bytes) : Bytes :=
  if t.take 7 = b!"struct{" ∧ t ≠ b!"struct{}" ∧ t ≠ b!"struct{ }" then b!"struct{ ... }"
  else if beforeLast '.' t = pkg then afterLast '.' t
  else afterLast '/' t

/-- error.go:112-117, and fieldInfo.Definition of /repo/internal/postgres/errors.go:172-177. -/
def definition (name type tag : Bytes) : Bytes :=
  if tag.length > 0 then name ++ b!" " ++ type ++ b!" `" ++ tag ++ b!"`" else name ++ b!" " ++ type

def AnErr.fieldTypeShort (e : AnErr) : Bytes := typeShort e.pkgPath e.fieldType
def AnErr.fieldDefinition (e : AnErr) : Bytes := definition e.fieldName e.fieldTypeShort e.tagString
/-- error.go:150-155. -/
def AnErr.fieldKind (e : AnErr) : Bytes := if e.isDirective then b!"directive" else b!"field"

/-- error.go:158-161, 180-183. -/
def AnErr.targetKey (e : AnErr) : Bytes := (tolower e.targetName).take 6
/-- error.go:157-177. -/
def AnErr.targetXxx (e : AnErr) : Bytes :=
  if e.targetKey = b!"insert" then b!"InsertXxx"
  else if e.targetKey = b!"update" then b!"UpdateXxx"
  else if e.targetKey = b!"select" then b!"SelectXxx"
  else if e.targetKey = b!"delete" then b!"DeleteXxx"
  else if e.targetKey = b!"filter" then b!"FilterXxx"
  else b!"<unknown>"
/-- error.go:179-193. -/
def AnErr.targetKind (e : AnErr) : Bytes :=
  if e.targetKey = b!"insert" ∨ e.targetKey = b!"update" ∨ e.targetKey = b!"select" ∨
      e.targetKey = b!"delete" then b!"query"
  else if e.targetKey = b!"filter" then b!"filter"
  else b!"<unknown>"

/-- What the references denote.  The template is executed with a pointer (error.go:37), so that all
methods are found. -/
def anGet (e : AnErr) : AnPath → Option Val
  | .FileAndLine => some (.str e.fileAndLine)
  | .FieldTypeShort => some (.str e.fieldTypeShort)
  | .FieldName => some (.str e.fieldName)
  | .TargetName => some (.str e.targetName)
  | .FieldTypeKind => some (.str e.fieldTypeKind)
  | .FieldKind => some (.str e.fieldKind)
  | .TargetXxx => some (.str e.targetXxx)
  | .TargetKind => some (.str e.targetKind)
  | .FieldDefinition => some (.str e.fieldDefinition)
  | .BlockName => some (.str e.blockName)
  | .TagError => some (.str e.tagError)
  | .IsDirective => some (.bool e.isDirective)
  | .IsSelectQueryKind => some (.bool e.isSelectQueryKind)
  | .TagValueSqlFirst => some (.str e.tagValueSqlFirst)
  | .TagExpr => some (.str e.tagExpr)
  | .TagString => some (.str e.tagString)
  | .FieldType => some (.str e.fieldType)
  | .TagExprIsUnary => some (.bool e.tagExprIsUnary)
  | .TagExprHasRHS => some (.bool e.tagExprHasRHS)
  | .TagExprPredicate => some (.str e.tagExprPredicate)
  | .RelDefinition => some (.str e.relDefinition)

/-- error.go:35-41 Error.  `none` is the panic of :38. -/
def AnErr.message (e : AnErr) : Option Bytes :=
  (List.lookup e.code anTemplates).bind fun t => t.run (anGet e) anFuncs fun _ => none

end Verif.Errors
