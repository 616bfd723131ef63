import Verif.Errors.Template
import Verif.Errors.DbCode

/-
The templates of the messages of package postgres: /repo/internal/postgres/errors.go:264-592.

Written by a script from the Go source.
-/
namespace Verif.Errors
open Verif.Postgres

/-- The references of the templates: `.A.B` is `A_B`. -/
inductive DbPath where
  | Error_Error | DB_Name | DB_DSN | Rel_Name | Rel_Schema | Target_Name
  | Target_File_NameAndLine | Field_File_NameAndLine | Rel_Ref | Field_Definition
  | Rel_Id_Qualifier | DB_SearchPath | Col_Name | Col_TypeOID | Col_IdRef | Col_Type_GetNameFmt
  | Field_Name | Field_Type | Field_TypeShort | Field_IsDefaultDirective | Col_Id_Qualifier
  | RHSCol_Id_Name | PredString | RHSCol_IdRef | RHSCol_Type_GetNameFmt | Quant_String
  | RHSLit_Expr | RHSLit_Type_GetNameFmt | Pred_String | WBFieldDefinition | FuncName
  | Field_SqlTagFirst | Rel_Id_Name | Field_SqlTag
deriving Repr, DecidableEq

/-- /repo/internal/postgres/errors.go:594-666, and how the arguments are joined, :675-679. -/
def dbFuncs : Funcs where
  colors :=
    [(b!"r", b!"0;31"), (b!"rb", b!"1;31"), (b!"ri", b!"3;31"), (b!"ru", b!"4;31"),
     (b!"g", b!"0;32"), (b!"gb", b!"1;32"), (b!"gi", b!"3;32"), (b!"gu", b!"4;32"),
     (b!"y", b!"0;33"), (b!"yb", b!"1;33"), (b!"yi", b!"3;33"), (b!"yu", b!"4;33"),
     (b!"b", b!"0;34"), (b!"bb", b!"1;34"), (b!"bi", b!"3;34"), (b!"bu", b!"4;34"),
     (b!"c", b!"0;36"), (b!"cb", b!"1;36"), (b!"ci", b!"3;36"), (b!"cu", b!"4;36"),
     (b!"w", b!"0;37"), (b!"wb", b!"1;37"), (b!"wi", b!"3;37"), (b!"wu", b!"4;37"),
     (b!"R", b!"0;91"), (b!"Rb", b!"1;91"), (b!"Ri", b!"3;91"), (b!"Ru", b!"4;91"),
     (b!"G", b!"0;92"), (b!"Gb", b!"1;92"), (b!"Gi", b!"3;92"), (b!"Gu", b!"4;92"),
     (b!"Y", b!"0;93"), (b!"Yb", b!"1;93"), (b!"Yi", b!"3;93"), (b!"Yu", b!"4;93"),
     (b!"B", b!"0;94"), (b!"Bb", b!"1;94"), (b!"Bi", b!"3;94"), (b!"Bu", b!"4;94"),
     (b!"C", b!"0;96"), (b!"Cb", b!"1;96"), (b!"Ci", b!"3;96"), (b!"Cu", b!"4;96"),
     (b!"W", b!"0;97"), (b!"Wb", b!"1;97"), (b!"Wi", b!"3;97"), (b!"Wu", b!"4;97")]
  sep := b!" "

/-- /repo/internal/postgres/errors.go:269-272. -/
def dbT_external_error_issue : Tmpl DbPath :=
  .text "\n    - original error message: \"" <|
  .call b!"Wb" [.path .Error_Error] <|
  .text "\"\n    - please consider opening an issue if the error persists.\n" <|
  .done

/-- /repo/internal/postgres/errors.go:274-278. -/
def dbT_connection_info : Tmpl DbPath :=
  .text "\n    - database: " <|
  .call b!"W" [.path .DB_Name] <|
  .text " (dsn \"" <|
  .call b!"W" [.path .DB_DSN] <|
  .text "\")\n    - relation: " <|
  .call b!"W" [.path .Rel_Name] <|
  .text " (schema \"" <|
  .call b!"W" [.path .Rel_Schema] <|
  .text "\")\n    - target type: " <|
  .call b!"W" [.path .Target_Name] <|
  .text " (source \"" <|
  .call b!"W" [.path .Target_File_NameAndLine] <|
  .text "\")\n" <|
  .done

/-- /repo/internal/postgres/errors.go:284-288. -/
def dbT_databaseOpen : Tmpl DbPath :=
  .text "ERROR: " <|
  .call b!"Y" [.lit "Failed to initialize database connection."] <|
  .text "\n    An error occurred during the initialization of the database connection for the provided DSN \"" <|
  .call b!"R" [.path .DB_DSN] <|
  .text "\".\n    - original error message: \"" <|
  .call b!"Wb" [.path .Error_Error] <|
  .text "\"\n" <|
  .done

/-- /repo/internal/postgres/errors.go:290-294. -/
def dbT_databaseInit : Tmpl DbPath :=
  .text "ERROR: " <|
  .call b!"Y" [.lit "Failed to initialize database connection."] <|
  .text "\n    An error occurred during the initialization of the database connection for the provided DSN \"" <|
  .call b!"R" [.path .DB_DSN] <|
  .text "\"." <|
  .sub b!"external_error_issue" <|
  .done

/-- /repo/internal/postgres/errors.go:300-304. -/
def dbT_catalogTypeGet : Tmpl DbPath :=
  .call b!"Y" [.lit "Failed to retrieve pg_type information."] <|
  .text "\n    An error occurred during the retrieval of the " <|
  .call b!"Wi" [.lit "pg_type"] <|
  .text " information from the \"" <|
  .call b!"R" [.path .DB_Name] <|
  .text "\" database's catalog." <|
  .sub b!"external_error_issue" <|
  .text "\n" <|
  .done

/-- /repo/internal/postgres/errors.go:306-310. -/
def dbT_catalogTypeScan : Tmpl DbPath :=
  .call b!"Y" [.lit "Failed to scan pg_type information."] <|
  .text "\n    An error occurred during the scanning of the " <|
  .call b!"Wi" [.lit "pg_type"] <|
  .text " information from the \"" <|
  .call b!"R" [.path .DB_Name] <|
  .text "\" database's catalog." <|
  .sub b!"external_error_issue" <|
  .text "\n" <|
  .done

/-- /repo/internal/postgres/errors.go:312-316. -/
def dbT_catalogOperatorGet : Tmpl DbPath :=
  .call b!"Y" [.lit "Failed to retrieve pg_operator information."] <|
  .text "\n    An error occurred during the retrieval of the " <|
  .call b!"Wi" [.lit "pg_operator"] <|
  .text " information from the \"" <|
  .call b!"R" [.path .DB_Name] <|
  .text "\" database's catalog." <|
  .sub b!"external_error_issue" <|
  .text "\n" <|
  .done

/-- /repo/internal/postgres/errors.go:318-322. -/
def dbT_catalogOperatorScan : Tmpl DbPath :=
  .call b!"Y" [.lit "Failed to scan pg_operator information."] <|
  .text "\n    An error occurred during the scanning of the " <|
  .call b!"Wi" [.lit "pg_operator"] <|
  .text " information from the \"" <|
  .call b!"R" [.path .DB_Name] <|
  .text "\" database's catalog." <|
  .sub b!"external_error_issue" <|
  .text "\n" <|
  .done

/-- /repo/internal/postgres/errors.go:324-328. -/
def dbT_catalogCastGet : Tmpl DbPath :=
  .call b!"Y" [.lit "Failed to retrieve pg_cast information."] <|
  .text "\n    An error occurred during the retrieval of the " <|
  .call b!"Wi" [.lit "pg_cast"] <|
  .text " information from the \"" <|
  .call b!"R" [.path .DB_Name] <|
  .text "\" database's catalog." <|
  .sub b!"external_error_issue" <|
  .text "\n" <|
  .done

/-- /repo/internal/postgres/errors.go:330-334. -/
def dbT_catalogCastScan : Tmpl DbPath :=
  .call b!"Y" [.lit "Failed to scan pg_cast information."] <|
  .text "\n    An error occurred during the scanning of the " <|
  .call b!"Wi" [.lit "pg_cast"] <|
  .text " information from the \"" <|
  .call b!"R" [.path .DB_Name] <|
  .text "\" database's catalog." <|
  .sub b!"external_error_issue" <|
  .text "\n" <|
  .done

/-- /repo/internal/postgres/errors.go:336-340. -/
def dbT_catalogProcedureGet : Tmpl DbPath :=
  .call b!"Y" [.lit "Failed to retrieve pg_proc information."] <|
  .text "\n    An error occurred during the retrieval of the " <|
  .call b!"Wi" [.lit "pg_proc"] <|
  .text " information from the \"" <|
  .call b!"R" [.path .DB_Name] <|
  .text "\" database's catalog." <|
  .sub b!"external_error_issue" <|
  .text "\n" <|
  .done

/-- /repo/internal/postgres/errors.go:342-346. -/
def dbT_catalogProcedureScan : Tmpl DbPath :=
  .call b!"Y" [.lit "Failed to scan pg_proc information."] <|
  .text "\n    An error occurred during the scanning of the " <|
  .call b!"Wi" [.lit "pg_proc"] <|
  .text " information from the \"" <|
  .call b!"R" [.path .DB_Name] <|
  .text "\" database's catalog." <|
  .sub b!"external_error_issue" <|
  .text "\n" <|
  .done

/-- /repo/internal/postgres/errors.go:352-360. -/
def dbT_relationUnknown : Tmpl DbPath :=
  .call b!"Wb" [.path .Field_File_NameAndLine] <|
  .text ": " <|
  .call b!"Y" [.lit "Unknown relation."] <|
  .text "\n    The relation \"" <|
  .call b!"R" [.path .Rel_Ref] <|
  .text "\" referenced in \"" <|
  .call b!"R" [.path .Field_Definition] <|
  .text "\" does not exist.\n    - database: " <|
  .call b!"W" [.path .DB_Name] <|
  .text " (dsn \"" <|
  .call b!"W" [.path .DB_DSN] <|
  .text "\")\n    " <|
  .ite (.not (.path .Rel_Id_Qualifier))
    (.text "- search path: " <|
    .call b!"Wb" [.path .DB_SearchPath] <|
    .text "\n    " <|
    .done)
    (.done) <|
  .text "- target type: " <|
  .call b!"W" [.path .Target_Name] <|
  .text " (source \"" <|
  .call b!"W" [.path .Target_File_NameAndLine] <|
  .text "\")\n" <|
  .done

/-- /repo/internal/postgres/errors.go:362-366. -/
def dbT_relationScan : Tmpl DbPath :=
  .call b!"Wb" [.path .Field_File_NameAndLine] <|
  .text ": " <|
  .call b!"Y" [.lit "Failed to scan relation."] <|
  .text "\n    An error occurred during the scanning of the \"" <|
  .call b!"R" [.path .Rel_Ref] <|
  .text "\" relation's information." <|
  .sub b!"external_error_issue" <|
  .text "\n" <|
  .done

/-- /repo/internal/postgres/errors.go:368-372. -/
def dbT_relationColumnGet : Tmpl DbPath :=
  .call b!"Wb" [.path .Field_File_NameAndLine] <|
  .text ": " <|
  .call b!"Y" [.lit "Failed to retrieve relation columns."] <|
  .text "\n    An error occurred during the retrieval of the \"" <|
  .call b!"R" [.path .Rel_Ref] <|
  .text "\" relation's column information." <|
  .sub b!"external_error_issue" <|
  .text "\n" <|
  .done

/-- /repo/internal/postgres/errors.go:374-378. -/
def dbT_relationColumnScan : Tmpl DbPath :=
  .call b!"Wb" [.path .Field_File_NameAndLine] <|
  .text ": " <|
  .call b!"Y" [.lit "Failed to scan relation columns."] <|
  .text "\n    An error occurred during the scanning of the \"" <|
  .call b!"R" [.path .Rel_Ref] <|
  .text "\" relation's column information." <|
  .sub b!"external_error_issue" <|
  .text "\n" <|
  .done

/-- /repo/internal/postgres/errors.go:380-385. -/
def dbT_relationColumnUnknownType : Tmpl DbPath :=
  .call b!"Wb" [.path .Field_File_NameAndLine] <|
  .text ": " <|
  .call b!"Y" [.lit "Unknown column type."] <|
  .text "\n    " <|
  .call b!"W" [.lit "github.com/frk/gosql"] <|
  .text " is unable to retrieve the type information for column \"" <|
  .call b!"R" [.path .Col_Name] <|
  .text "\" in relation \"" <|
  .call b!"R" [.path .Rel_Ref] <|
  .text "\".\n    The column type's OID: " <|
  .call b!"R" [.path .Col_TypeOID] <|
  .text "\n    Please consider opening an issue if the error persists.\n" <|
  .done

/-- /repo/internal/postgres/errors.go:387-391. -/
def dbT_relationConstraintGet : Tmpl DbPath :=
  .call b!"Wb" [.path .Field_File_NameAndLine] <|
  .text ": " <|
  .call b!"Y" [.lit "Failed to retrieve relation constraints."] <|
  .text "\n    An error occurred during the retrieval of the \"" <|
  .call b!"R" [.path .Rel_Ref] <|
  .text "\" relation's constraint information." <|
  .sub b!"external_error_issue" <|
  .text "\n" <|
  .done

/-- /repo/internal/postgres/errors.go:393-397. -/
def dbT_relationConstraintScan : Tmpl DbPath :=
  .call b!"Wb" [.path .Field_File_NameAndLine] <|
  .text ": " <|
  .call b!"Y" [.lit "Failed to scan relation constraints."] <|
  .text "\n    An error occurred during the scanning of the \"" <|
  .call b!"R" [.path .Rel_Ref] <|
  .text "\" relation's constraint information." <|
  .sub b!"external_error_issue" <|
  .text "\n" <|
  .done

/-- /repo/internal/postgres/errors.go:399-403. -/
def dbT_relationIndexGet : Tmpl DbPath :=
  .call b!"Wb" [.path .Field_File_NameAndLine] <|
  .text ": " <|
  .call b!"Y" [.lit "Failed to retrieve relation indexes."] <|
  .text "\n    An error occurred during the retrieval of the \"" <|
  .call b!"R" [.path .Rel_Ref] <|
  .text "\" relation's index information." <|
  .sub b!"external_error_issue" <|
  .text "\n" <|
  .done

/-- /repo/internal/postgres/errors.go:405-409. -/
def dbT_relationIndexScan : Tmpl DbPath :=
  .call b!"Wb" [.path .Field_File_NameAndLine] <|
  .text ": " <|
  .call b!"Y" [.lit "Failed to scan relation indexes."] <|
  .text "\n    An error occurred during the scanning of the \"" <|
  .call b!"R" [.path .Rel_Ref] <|
  .text "\" relation's index information." <|
  .sub b!"external_error_issue" <|
  .text "\n" <|
  .done

/-- /repo/internal/postgres/errors.go:415-419. -/
def dbT_columnUnknown : Tmpl DbPath :=
  .call b!"Wb" [.path .Field_File_NameAndLine] <|
  .text ": " <|
  .call b!"Y" [.lit "Column not found."] <|
  .text "\n    The column \"" <|
  .call b!"R" [.path .Col_IdRef] <|
  .text "\" referenced in \"" <|
  .call b!"R" [.path .Field_Definition] <|
  .text "\" does not exist in the relation \"" <|
  .call b!"R" [.path .Rel_Name] <|
  .text "\"." <|
  .sub b!"connection_info" <|
  .done

/-- /repo/internal/postgres/errors.go:421-425. -/
def dbT_columnFieldTypeWrite : Tmpl DbPath :=
  .call b!"Wb" [.path .Field_File_NameAndLine] <|
  .text ": " <|
  .call b!"Y" [.lit "Column not compatible with field."] <|
  .text "\n    The \"" <|
  .call b!"R" [.path .Col_Name] <|
  .text "\" column's type \"" <|
  .call b!"R" [.path .Col_Type_GetNameFmt] <|
  .text "\" is not compatible for " <|
  .call b!"wu" [.lit "writing"] <|
  .text " with the \"" <|
  .call b!"R" [.path .Field_Name] <|
  .text "\" field's type \"" <|
  .call b!"R" [.path .Field_Type] <|
  .text "\".\n" <|
  .done

/-- /repo/internal/postgres/errors.go:427-431. -/
def dbT_columnFieldTypeRead : Tmpl DbPath :=
  .call b!"Wb" [.path .Field_File_NameAndLine] <|
  .text ": " <|
  .call b!"Y" [.lit "Column not compatible with field."] <|
  .text "\n    The \"" <|
  .call b!"R" [.path .Col_Name] <|
  .text "\" column's type \"" <|
  .call b!"R" [.path .Col_Type_GetNameFmt] <|
  .text "\" is not compatible for " <|
  .call b!"wu" [.lit "reading"] <|
  .text " with the \"" <|
  .call b!"R" [.path .Field_Name] <|
  .text "\" field's type \"" <|
  .call b!"R" [.path .Field_Type] <|
  .text "\".\n" <|
  .done

/-- /repo/internal/postgres/errors.go:433-437. -/
def dbT_columnTextSearchType : Tmpl DbPath :=
  .call b!"Wb" [.path .Field_File_NameAndLine] <|
  .text ": " <|
  .call b!"Y" [.lit "Bad column type for text search."] <|
  .text "\n    The column \"" <|
  .call b!"R" [.path .Col_IdRef] <|
  .text "\" referenced in \"" <|
  .call b!"R" [.path .Field_Definition] <|
  .text "\" is of type \"" <|
  .call b!"R" [.path .Col_Type_GetNameFmt] <|
  .text "\".\n    - a column referenced by a " <|
  .call b!"W" [.path .Field_TypeShort] <|
  .text " directive MUST be of type " <|
  .call b!"Ci" [.lit "tsvector"] <|
  .text " to support " <|
  .call b!"wu" [.lit "full text search"] <|
  .text ".\n" <|
  .done

/-- /repo/internal/postgres/errors.go:439-447. -/
def dbT_columnDefaultUnset : Tmpl DbPath :=
  .call b!"Wb" [.path .Field_File_NameAndLine] <|
  .text ": " <|
  .call b!"Y" [.lit "Column DEFAULT not set."] <|
  .text "\n    The column \"" <|
  .call b!"R" [.path .Col_IdRef] <|
  .text "\" referenced in \"" <|
  .call b!"R" [.path .Field_Definition] <|
  .text "\" has no " <|
  .call b!"Wb" [.lit "DEFAULT"] <|
  .text " constraint.\n    " <|
  .ite (.path .Field_IsDefaultDirective)
    (.text "- a column referenced by a " <|
    .call b!"W" [.path .Field_TypeShort] <|
    .text " directive MUST have a " <|
    .call b!"Wb" [.lit "DEFAULT"] <|
    .text " constraint.\n    " <|
    .done)
    (.text "- a column referenced together with the \"" <|
    .call b!"W" [.lit "default"] <|
    .text "\" option in the tag MUST have a " <|
    .call b!"Wb" [.lit "DEFAULT"] <|
    .text " constraint.\n    " <|
    .done) <|
  .done

/-- /repo/internal/postgres/errors.go:449-453. -/
def dbT_columnQualifierUnknown : Tmpl DbPath :=
  .call b!"Wb" [.path .Field_File_NameAndLine] <|
  .text ": " <|
  .call b!"Y" [.lit "Column qualifier relation not found."] <|
  .text "\n    The qualifier \"" <|
  .call b!"R" [.path .Col_Id_Qualifier] <|
  .text "\" matches no relation.\n    - please consider opening an issue if the error persists.\n" <|
  .done

/-- /repo/internal/postgres/errors.go:459-470. -/
def dbT_predicateOperandQuantifier : Tmpl DbPath :=
  .call b!"Wb" [.path .Field_File_NameAndLine] <|
  .text ": " <|
  .call b!"Y" [.lit "Bad operand type in quantified predicate."] <|
  .text "\n    " <|
  .ite (.path .RHSCol_Id_Name)
    (.text "The predicate \"" <|
    .call b!"R" [.path .PredString] <|
    .text "\" used in \"" <|
    .call b!"R" [.path .Field_Definition] <|
    .text "\" is not valid.\n    - the column \"" <|
    .call b!"R" [.path .RHSCol_IdRef] <|
    .text "\" on the right side is of type " <|
    .call b!"Wi" [.path .RHSCol_Type_GetNameFmt] <|
    .text ".\n    - the quantifier " <|
    .call b!"R" [.path .Quant_String] <|
    .text " requires an " <|
    .call b!"Wi" [.lit "array"] <|
    .text " on the right side.\n    " <|
    .done)
    (.text "The predicate \"" <|
    .call b!"R" [.path .PredString] <|
    .text "\" used in \"" <|
    .call b!"R" [.path .Field_Definition] <|
    .text "\" is not valid.\n    - the expression \"" <|
    .call b!"R" [.path .RHSLit_Expr] <|
    .text "\" on the right side is of type " <|
    .call b!"Wi" [.path .RHSLit_Type_GetNameFmt] <|
    .text ".\n    - the quantifier " <|
    .call b!"R" [.path .Quant_String] <|
    .text " requires an " <|
    .call b!"Wi" [.lit "array"] <|
    .text " on the right side.\n    " <|
    .done) <|
  .done

/-- /repo/internal/postgres/errors.go:472-483. -/
def dbT_predicateOperandArray : Tmpl DbPath :=
  .call b!"Wb" [.path .Field_File_NameAndLine] <|
  .text ": " <|
  .call b!"Y" [.lit "Bad operand type in array predicate."] <|
  .text "\n    " <|
  .ite (.path .RHSCol_Id_Name)
    (.text "The predicate \"" <|
    .call b!"R" [.path .PredString] <|
    .text "\" used in \"" <|
    .call b!"R" [.path .Field_Definition] <|
    .text "\" is not valid.\n    - the column \"" <|
    .call b!"R" [.path .RHSCol_IdRef] <|
    .text "\" on the right side is of type " <|
    .call b!"Wi" [.path .RHSCol_Type_GetNameFmt] <|
    .text ".\n    - the operator " <|
    .call b!"R" [.path .Pred_String] <|
    .text " requires an " <|
    .call b!"Wi" [.lit "array"] <|
    .text " on the right side.\n    " <|
    .done)
    (.text "The predicate \"" <|
    .call b!"R" [.path .PredString] <|
    .text "\" used in \"" <|
    .call b!"R" [.path .Field_Definition] <|
    .text "\" is not valid.\n    - the expression \"" <|
    .call b!"R" [.path .RHSLit_Expr] <|
    .text "\" on the right side is of type " <|
    .call b!"Wi" [.path .RHSLit_Type_GetNameFmt] <|
    .text ".\n    - the operator " <|
    .call b!"R" [.path .Pred_String] <|
    .text " requires an " <|
    .call b!"Wi" [.lit "array"] <|
    .text " on the right side.\n    " <|
    .done) <|
  .done

/-- /repo/internal/postgres/errors.go:485-490. -/
def dbT_predicateOperandBool : Tmpl DbPath :=
  .call b!"Wb" [.path .Field_File_NameAndLine] <|
  .text ": " <|
  .call b!"Y" [.lit "Bad operand type in boolean predicate."] <|
  .text "\n    The predicate \"" <|
  .call b!"R" [.path .PredString] <|
  .text "\" used in \"" <|
  .call b!"R" [.path .Field_Definition] <|
  .text "\" is not valid.\n    - the column \"" <|
  .call b!"R" [.path .Col_IdRef] <|
  .text "\" is of type " <|
  .call b!"Wi" [.path .Col_Type_GetNameFmt] <|
  .text ".\n    - the operator " <|
  .call b!"R" [.path .Pred_String] <|
  .text " requires a " <|
  .call b!"Wi" [.lit "boolean"] <|
  .text " operand.\n" <|
  .done

/-- /repo/internal/postgres/errors.go:492-497. -/
def dbT_predicateOperandNull : Tmpl DbPath :=
  .call b!"Wb" [.path .Field_File_NameAndLine] <|
  .text ": " <|
  .call b!"Y" [.lit "Bad column operand in NULL predicate."] <|
  .text "\n    The predicate \"" <|
  .call b!"R" [.path .PredString] <|
  .text "\" used in \"" <|
  .call b!"R" [.path .Field_Definition] <|
  .text "\" is not valid.\n    - the column \"" <|
  .call b!"R" [.path .Col_IdRef] <|
  .text "\" has the " <|
  .call b!"Wi" [.lit "NOT NULL"] <|
  .text " constraint.\n    - the operator " <|
  .call b!"R" [.path .Pred_String] <|
  .text " requires a column without the " <|
  .call b!"Wi" [.lit "NOT NULL"] <|
  .text " constraint.\n" <|
  .done

/-- /repo/internal/postgres/errors.go:499-510. -/
def dbT_columnComparison : Tmpl DbPath :=
  .call b!"Wb" [.path .Field_File_NameAndLine] <|
  .text ": " <|
  .call b!"Y" [.lit "Bad column comparison."] <|
  .text "\n    " <|
  .ite (.path .RHSCol_Id_Name)
    (.text "The operator \"" <|
    .call b!"R" [.path .Col_Type_GetNameFmt, .path .Pred_String, .path .RHSCol_Type_GetNameFmt] <|
    .text "\" referenced in \"" <|
    .call b!"R" [.path .Field_Definition] <|
    .text "\" does not exist.\n    - column \"" <|
    .call b!"R" [.path .Col_IdRef] <|
    .text "\" is of type \"" <|
    .call b!"R" [.path .Col_Type_GetNameFmt] <|
    .text "\".\n    - column \"" <|
    .call b!"R" [.path .RHSCol_IdRef] <|
    .text "\" is of type \"" <|
    .call b!"R" [.path .RHSCol_Type_GetNameFmt] <|
    .text "\".\n    " <|
    .done)
    (.ite (.path .RHSLit_Expr)
      (.text "The operator \"" <|
      .call b!"R" [.path .Col_Type_GetNameFmt, .path .Pred_String, .path .RHSLit_Type_GetNameFmt] <|
      .text "\" referenced in \"" <|
      .call b!"R" [.path .Field_Definition] <|
      .text "\" does not exist.\n    - column \"" <|
      .call b!"R" [.path .Col_IdRef] <|
      .text "\" is of type \"" <|
      .call b!"R" [.path .Col_Type_GetNameFmt] <|
      .text "\".\n    - expression \"" <|
      .call b!"R" [.path .RHSLit_Expr] <|
      .text "\" is of type \"" <|
      .call b!"R" [.path .RHSLit_Type_GetNameFmt] <|
      .text "\".\n    " <|
      .done)
      (.done) <|
    .done) <|
  .done

/-- /repo/internal/postgres/errors.go:512-517. -/
def dbT_columnFieldComparison : Tmpl DbPath :=
  .call b!"Wb" [.path .Field_File_NameAndLine] <|
  .text ": " <|
  .call b!"Y" [.lit "Bad column field comparison."] <|
  .text "\n    The operator \"" <|
  .call b!"R" [.path .Field_TypeShort, .path .Pred_String, .path .Col_Type_GetNameFmt] <|
  .text "\" referenced in \"" <|
  .call b!"R" [.path .Field_Definition] <|
  .text "\" does not exist.\n    - field \"" <|
  .call b!"R" [.path .Field_Name] <|
  .text "\" is of type \"" <|
  .call b!"R" [.path .Field_TypeShort] <|
  .text "\".\n    - column \"" <|
  .call b!"R" [.path .Col_IdRef] <|
  .text "\" is of type \"" <|
  .call b!"R" [.path .Col_Type_GetNameFmt] <|
  .text "\".\n" <|
  .done

/-- /repo/internal/postgres/errors.go:519-522. -/
def dbT_predicateLiteralExpr : Tmpl DbPath :=
  .call b!"Wb" [.path .Field_File_NameAndLine] <|
  .text ": " <|
  .call b!"Y" [.lit "Bad literal expression."] <|
  .text "\n    The literal expression \"" <|
  .call b!"R" [.path .RHSLit_Expr] <|
  .text "\" used in \"" <|
  .call b!"R" [.path .Field_Definition] <|
  .text "\" is not valid.\n" <|
  .done

/-- /repo/internal/postgres/errors.go:528-533. -/
def dbT_betweenColumnComparison : Tmpl DbPath :=
  .call b!"Wb" [.path .Field_File_NameAndLine] <|
  .text ": " <|
  .call b!"Y" [.lit "Bad column between comparison."] <|
  .text "\n    The operator \"" <|
  .call b!"R" [.path .Col_Type_GetNameFmt, .path .Pred_String, .path .RHSCol_Type_GetNameFmt] <|
  .text "\" represented by \"" <|
  .call b!"R" [.path .WBFieldDefinition] <|
  .text "\" does not exist.\n    - column \"" <|
  .call b!"R" [.path .Col_IdRef] <|
  .text "\" is of type \"" <|
  .call b!"R" [.path .Col_Type_GetNameFmt] <|
  .text "\".\n    - column \"" <|
  .call b!"R" [.path .RHSCol_IdRef] <|
  .text "\" is of type \"" <|
  .call b!"R" [.path .RHSCol_Type_GetNameFmt] <|
  .text "\".\n" <|
  .done

/-- /repo/internal/postgres/errors.go:535-540. -/
def dbT_betweenFieldComparison : Tmpl DbPath :=
  .call b!"Wb" [.path .Field_File_NameAndLine] <|
  .text ": " <|
  .call b!"Y" [.lit "Bad column field between comparison."] <|
  .text "\n    The operator \"" <|
  .call b!"R" [.path .Field_TypeShort, .path .Pred_String, .path .Col_Type_GetNameFmt] <|
  .text "\" represented by \"" <|
  .call b!"R" [.path .WBFieldDefinition] <|
  .text "\" does not exist.\n    - column \"" <|
  .call b!"R" [.path .Col_IdRef] <|
  .text "\" is of type \"" <|
  .call b!"R" [.path .Col_Type_GetNameFmt] <|
  .text "\".\n    - field \"" <|
  .call b!"R" [.path .Field_Name] <|
  .text "\" is of type \"" <|
  .call b!"R" [.path .Field_TypeShort] <|
  .text "\".\n" <|
  .done

/-- /repo/internal/postgres/errors.go:546-550. -/
def dbT_procedureUnknown : Tmpl DbPath :=
  .call b!"Wb" [.path .Field_File_NameAndLine] <|
  .text ": " <|
  .call b!"Y" [.lit "Procedure not found."] <|
  .text "\n    No function with the name \"" <|
  .call b!"R" [.path .FuncName] <|
  .text "\" and argument type \"" <|
  .call b!"R" [.path .Col_Type_GetNameFmt] <|
  .text "\" as referenced in \"" <|
  .call b!"R" [.path .Field_Definition] <|
  .text "\"\n    exists in the database \"" <|
  .call b!"W" [.path .DB_Name] <|
  .text "\" (search_path: " <|
  .call b!"Wb" [.path .DB_SearchPath] <|
  .text ").\n" <|
  .done

/-- /repo/internal/postgres/errors.go:556-560. -/
def dbT_onConflictIndexUnknown : Tmpl DbPath :=
  .call b!"Wb" [.path .Field_File_NameAndLine] <|
  .text ": " <|
  .call b!"Y" [.lit "Index not found."] <|
  .text "\n    The index \"" <|
  .call b!"R" [.path .Field_SqlTagFirst] <|
  .text "\" referenced by \"" <|
  .call b!"R" [.path .Field_Definition] <|
  .text "\" does not exist.\n    - directive \"" <|
  .call b!"W" [.path .Field_TypeShort] <|
  .text "\" requires an index present on the target relation \"" <|
  .call b!"W" [.path .Rel_Id_Name] <|
  .text "\".\n" <|
  .done

/-- /repo/internal/postgres/errors.go:562-566. -/
def dbT_onConflictIndexNotUnique : Tmpl DbPath :=
  .call b!"Wb" [.path .Field_File_NameAndLine] <|
  .text ": " <|
  .call b!"Y" [.lit "Index not unique."] <|
  .text "\n    The index \"" <|
  .call b!"R" [.path .Field_SqlTagFirst] <|
  .text "\" referenced by \"" <|
  .call b!"R" [.path .Field_Definition] <|
  .text "\" is not unique / primary key.\n    - directive \"" <|
  .call b!"W" [.path .Field_TypeShort] <|
  .text "\" requires an index of type: \"" <|
  .call b!"W" [.lit "unique"] <|
  .text "\", or \"" <|
  .call b!"W" [.lit "primary key"] <|
  .text "\".\n" <|
  .done

/-- /repo/internal/postgres/errors.go:568-572. -/
def dbT_onConflictIndexColumnsUnknown : Tmpl DbPath :=
  .call b!"Wb" [.path .Field_File_NameAndLine] <|
  .text ": " <|
  .call b!"Y" [.lit "Column index not found."] <|
  .text "\n    The columns \"" <|
  .call b!"R" [.path .Field_SqlTag] <|
  .text "\" referenced by \"" <|
  .call b!"R" [.path .Field_Definition] <|
  .text "\" do not match an existing index.\n    - directive \"" <|
  .call b!"W" [.path .Field_TypeShort] <|
  .text "\" requires the column(s) that match those of an index present on the target relation \"" <|
  .call b!"W" [.path .Rel_Id_Name] <|
  .text "\".\n" <|
  .done

/-- /repo/internal/postgres/errors.go:574-578. -/
def dbT_onConflictIndexColumnsNotUnique : Tmpl DbPath :=
  .call b!"Wb" [.path .Field_File_NameAndLine] <|
  .text ": " <|
  .call b!"Y" [.lit "Column index not unique."] <|
  .text "\n    The columns \"" <|
  .call b!"R" [.path .Field_SqlTag] <|
  .text "\" referenced by \"" <|
  .call b!"R" [.path .Field_Definition] <|
  .text "\" match no unique / primary key index.\n    - directive \"" <|
  .call b!"W" [.path .Field_TypeShort] <|
  .text "\" requires the column(s) that match those of an index of type: \"" <|
  .call b!"W" [.lit "unique"] <|
  .text "\", or \"" <|
  .call b!"W" [.lit "primary key"] <|
  .text "\".\n" <|
  .done

/-- /repo/internal/postgres/errors.go:580-584. -/
def dbT_onConflictConstraintUnknown : Tmpl DbPath :=
  .call b!"Wb" [.path .Field_File_NameAndLine] <|
  .text ": " <|
  .call b!"Y" [.lit "Constraint not found."] <|
  .text "\n    The constraint \"" <|
  .call b!"R" [.path .Field_SqlTagFirst] <|
  .text "\" referenced by \"" <|
  .call b!"R" [.path .Field_Definition] <|
  .text "\" does not exist.\n    - directive \"" <|
  .call b!"W" [.path .Field_TypeShort] <|
  .text "\" requires a constraint present on the target relation \"" <|
  .call b!"W" [.path .Rel_Id_Name] <|
  .text "\".\n" <|
  .done

/-- /repo/internal/postgres/errors.go:586-590. -/
def dbT_onConflictConstraintNotUnique : Tmpl DbPath :=
  .call b!"Wb" [.path .Field_File_NameAndLine] <|
  .text ": " <|
  .call b!"Y" [.lit "Constraint not unique."] <|
  .text "\n    The constraint \"" <|
  .call b!"R" [.path .Field_SqlTagFirst] <|
  .text "\" referenced by \"" <|
  .call b!"R" [.path .Field_Definition] <|
  .text "\" is not unique / primary key.\n    - directive \"" <|
  .call b!"W" [.path .Field_TypeShort] <|
  .text "\" requires a constraint of type: \"" <|
  .call b!"W" [.lit "unique"] <|
  .text "\", or \"" <|
  .call b!"W" [.lit "primary key"] <|
  .text "\".\n" <|
  .done

/-- The templates of the error codes. -/
def dbTemplates : List (DbCode × Tmpl DbPath) :=
  [(.databaseOpen, dbT_databaseOpen),
   (.databaseInit, dbT_databaseInit),
   (.catalogTypeGet, dbT_catalogTypeGet),
   (.catalogTypeScan, dbT_catalogTypeScan),
   (.catalogOperatorGet, dbT_catalogOperatorGet),
   (.catalogOperatorScan, dbT_catalogOperatorScan),
   (.catalogCastGet, dbT_catalogCastGet),
   (.catalogCastScan, dbT_catalogCastScan),
   (.catalogProcedureGet, dbT_catalogProcedureGet),
   (.catalogProcedureScan, dbT_catalogProcedureScan),
   (.relationUnknown, dbT_relationUnknown),
   (.relationScan, dbT_relationScan),
   (.relationColumnGet, dbT_relationColumnGet),
   (.relationColumnScan, dbT_relationColumnScan),
   (.relationColumnUnknownType, dbT_relationColumnUnknownType),
   (.relationConstraintGet, dbT_relationConstraintGet),
   (.relationConstraintScan, dbT_relationConstraintScan),
   (.relationIndexGet, dbT_relationIndexGet),
   (.relationIndexScan, dbT_relationIndexScan),
   (.columnUnknown, dbT_columnUnknown),
   (.columnFieldTypeWrite, dbT_columnFieldTypeWrite),
   (.columnFieldTypeRead, dbT_columnFieldTypeRead),
   (.columnTextSearchType, dbT_columnTextSearchType),
   (.columnDefaultUnset, dbT_columnDefaultUnset),
   (.columnQualifierUnknown, dbT_columnQualifierUnknown),
   (.predicateOperandQuantifier, dbT_predicateOperandQuantifier),
   (.predicateOperandArray, dbT_predicateOperandArray),
   (.predicateOperandBool, dbT_predicateOperandBool),
   (.predicateOperandNull, dbT_predicateOperandNull),
   (.columnComparison, dbT_columnComparison),
   (.columnFieldComparison, dbT_columnFieldComparison),
   (.predicateLiteralExpr, dbT_predicateLiteralExpr),
   (.betweenColumnComparison, dbT_betweenColumnComparison),
   (.betweenFieldComparison, dbT_betweenFieldComparison),
   (.procedureUnknown, dbT_procedureUnknown),
   (.onConflictIndexUnknown, dbT_onConflictIndexUnknown),
   (.onConflictIndexNotUnique, dbT_onConflictIndexNotUnique),
   (.onConflictIndexColumnsUnknown, dbT_onConflictIndexColumnsUnknown),
   (.onConflictIndexColumnsNotUnique, dbT_onConflictIndexColumnsNotUnique),
   (.onConflictConstraintUnknown, dbT_onConflictConstraintUnknown),
   (.onConflictConstraintNotUnique, dbT_onConflictConstraintNotUnique)]

/-- The templates that others call. -/
def dbHelpers : List (Bytes × Tmpl DbPath) :=
  [(b!"external_error_issue", dbT_external_error_issue),
   (b!"connection_info", dbT_connection_info)]

end Verif.Errors
