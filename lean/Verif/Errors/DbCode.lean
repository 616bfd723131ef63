import Verif.Postgres.Types

/-
The error codes of package postgres: /repo/internal/postgres/errors.go:13-70.  Those that the type
checker of Verif/Postgres/Check.lean reports are the `DbErr`; the others come from the connection and
from loading the catalog and the relations.
-/
namespace Verif.Errors
open Verif.Postgres

/-- errors.go:17-70. -/
inductive DbCode where
  | databaseOpen | databaseInit | catalogTypeGet | catalogTypeScan | catalogOperatorGet
  | catalogOperatorScan | catalogCastGet | catalogCastScan | catalogProcedureGet
  | catalogProcedureScan | relationUnknown | relationScan | relationColumnGet
  | relationColumnScan | relationColumnUnknownType | relationConstraintGet
  | relationConstraintScan | relationIndexGet | relationIndexScan | columnUnknown
  | columnDefaultUnset | columnTextSearchType | columnFieldTypeWrite | columnFieldTypeRead
  | columnFieldComparison | columnQualifierUnknown | columnComparison
  | predicateOperandQuantifier | predicateOperandArray | predicateOperandBool
  | predicateOperandNull | predicateLiteralExpr | betweenColumnComparison
  | betweenFieldComparison | procedureUnknown | onConflictIndexUnknown | onConflictIndexNotUnique
  | onConflictIndexColumnsUnknown | onConflictIndexColumnsNotUnique | onConflictConstraintUnknown
  | onConflictConstraintNotUnique
deriving Repr, DecidableEq

/-- All codes. -/
def DbCode.all : List DbCode :=
  [.databaseOpen, .databaseInit, .catalogTypeGet, .catalogTypeScan, .catalogOperatorGet,
   .catalogOperatorScan, .catalogCastGet, .catalogCastScan, .catalogProcedureGet,
   .catalogProcedureScan, .relationUnknown, .relationScan, .relationColumnGet,
   .relationColumnScan, .relationColumnUnknownType, .relationConstraintGet,
   .relationConstraintScan, .relationIndexGet, .relationIndexScan, .columnUnknown,
   .columnDefaultUnset, .columnTextSearchType, .columnFieldTypeWrite, .columnFieldTypeRead,
   .columnFieldComparison, .columnQualifierUnknown, .columnComparison,
   .predicateOperandQuantifier, .predicateOperandArray, .predicateOperandBool,
   .predicateOperandNull, .predicateLiteralExpr, .betweenColumnComparison,
   .betweenFieldComparison, .procedureUnknown, .onConflictIndexUnknown,
   .onConflictIndexNotUnique, .onConflictIndexColumnsUnknown, .onConflictIndexColumnsNotUnique,
   .onConflictConstraintUnknown, .onConflictConstraintNotUnique]

/-- The code that the checker reports. -/
def codeOf : DbErr → DbCode
  | .relationUnknown => .relationUnknown
  | .relationColumnUnknownType => .relationColumnUnknownType
  | .columnUnknown => .columnUnknown
  | .columnQualifierUnknown => .columnQualifierUnknown
  | .columnDefaultUnset => .columnDefaultUnset
  | .columnTextSearchType => .columnTextSearchType
  | .columnComparison => .columnComparison
  | .columnFieldComparison => .columnFieldComparison
  | .betweenColumnComparison => .betweenColumnComparison
  | .betweenFieldComparison => .betweenFieldComparison
  | .columnFieldTypeRead => .columnFieldTypeRead
  | .columnFieldTypeWrite => .columnFieldTypeWrite
  | .predicateOperandArray => .predicateOperandArray
  | .predicateOperandQuantifier => .predicateOperandQuantifier
  | .predicateOperandBool => .predicateOperandBool
  | .predicateOperandNull => .predicateOperandNull
  | .predicateLiteralExpr => .predicateLiteralExpr
  | .procedureUnknown => .procedureUnknown
  | .onConflictIndexColumnsUnknown => .onConflictIndexColumnsUnknown
  | .onConflictIndexColumnsNotUnique => .onConflictIndexColumnsNotUnique
  | .onConflictIndexUnknown => .onConflictIndexUnknown
  | .onConflictIndexNotUnique => .onConflictIndexNotUnique
  | .onConflictConstraintUnknown => .onConflictConstraintUnknown
  | .onConflictConstraintNotUnique => .onConflictConstraintNotUnique

end Verif.Errors
