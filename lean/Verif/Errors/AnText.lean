import Verif.Errors.Template
import Verif.Analysis.Ident

/-
The templates of the messages of package analysis: /repo/internal/analysis/error.go:243-572.

Written by a script from the Go source; the names of regular expressions are replaced by their texts
(analysis.go:26-34).
-/
namespace Verif.Errors
open Verif.Analysis

/-- The references of the templates: `.A.B` is `A_B`. -/
inductive AnPath where
  | FileAndLine | FieldTypeShort | FieldName | TargetName | FieldTypeKind | FieldKind | TargetXxx
  | TargetKind | FieldDefinition | BlockName | TagError | IsDirective | IsSelectQueryKind
  | TagValueSqlFirst | TagExpr | TagString | FieldType | TagExprIsUnary | TagExprHasRHS
  | TagExprPredicate | RelDefinition
deriving Repr, DecidableEq

/-- /repo/internal/analysis/error.go:574-626, and how the arguments are joined, :635-639. -/
def anFuncs : Funcs where
  colors :=
    [(b!"w", b!"0;37"), (b!"wb", b!"1;37"), (b!"wi", b!"3;37"), (b!"wu", b!"4;37"),
     (b!"c", b!"0;36"), (b!"cb", b!"1;36"), (b!"ci", b!"3;36"), (b!"cu", b!"4;36"),
     (b!"R", b!"0;91"), (b!"Rb", b!"1;91"), (b!"Ri", b!"3;91"), (b!"Ru", b!"4;91"),
     (b!"G", b!"0;92"), (b!"Gb", b!"1;92"), (b!"Gi", b!"3;92"), (b!"Gu", b!"4;92"),
     (b!"Y", b!"0;93"), (b!"Yb", b!"1;93"), (b!"Yi", b!"3;93"), (b!"Yu", b!"4;93"),
     (b!"B", b!"0;94"), (b!"Bb", b!"1;94"), (b!"Bi", b!"3;94"), (b!"Bu", b!"4;94"),
     (b!"C", b!"0;96"), (b!"Cb", b!"1;96"), (b!"Ci", b!"3;96"), (b!"Cu", b!"4;96"),
     (b!"W", b!"0;97"), (b!"Wb", b!"1;97"), (b!"Wi", b!"3;97"), (b!"Wu", b!"4;97")]
  sep := b!""

/-- /repo/internal/analysis/error.go:244-248. -/
def anT_badFieldTypeInt : Tmpl AnPath :=
  .call b!"Wb" [.path .FileAndLine] <|
  .text ": " <|
  .call b!"Y" [.lit "Bad field type."] <|
  .text "\n    Cannot use " <|
  .call b!"R" [.path .FieldTypeShort] <|
  .text " as the type of the " <|
  .call b!"Wb" [.path .FieldName] <|
  .text " field in " <|
  .call b!"Wb" [.path .TargetName] <|
  .text ".\n    " <|
  .call b!"Wb" [.lit "FIX:"] <|
  .text " change the field type to one of: " <|
  .call b!"Ci" [.lit "int, int8, int16, int32, int64, uint, uint8, uint16, uint32, uint64"] <|
  .text ".\n" <|
  .done

/-- /repo/internal/analysis/error.go:250-254. -/
def anT_badFieldTypeStruct : Tmpl AnPath :=
  .call b!"Wb" [.path .FileAndLine] <|
  .text ": " <|
  .call b!"Y" [.lit "Bad field type."] <|
  .text "\n    Cannot use " <|
  .call b!"R" [.path .FieldTypeShort] <|
  .text " (kind " <|
  .call b!"R" [.path .FieldTypeKind] <|
  .text ") as the type of the " <|
  .call b!"Wb" [.path .FieldName] <|
  .text " field in " <|
  .call b!"Wb" [.path .TargetName] <|
  .text ".\n    " <|
  .call b!"Wb" [.lit "FIX:"] <|
  .text " change the field type to be of kind " <|
  .call b!"Ci" [.lit "struct"] <|
  .text ".\n" <|
  .done

/-- /repo/internal/analysis/error.go:256-265. -/
def anT_badIterTypeInterface : Tmpl AnPath :=
  .call b!"Wb" [.path .FileAndLine] <|
  .text ": " <|
  .call b!"Y" [.lit "Bad iterator interface type."] <|
  .text "\n    The type " <|
  .call b!"R" [.path .FieldTypeShort] <|
  .text " of the " <|
  .out (.path .TargetName) <|
  .text "." <|
  .call b!"Wb" [.path .FieldName] <|
  .text " field " <|
  .call b!"Wu" [.lit "IS NOT"] <|
  .text " a valid \"" <|
  .call b!"W" [.lit "iterator interface"] <|
  .text "\" type.\n    " <|
  .call b!"Wb" [.lit "HINT:"] <|
  .text " a valid \"" <|
  .call b!"W" [.lit "iterator interface"] <|
  .text "\" type " <|
  .call b!"Wu" [.lit "MUST"] <|
  .text " satisfy all of the following requirements:\n        - The interface MUST have exactly " <|
  .call b!"Wu" [.lit "one"] <|
  .text " method.\n        - The interface method MUST be " <|
  .call b!"Wu" [.lit "accessible"] <|
  .text " from the generated code, i.e. the method must either be exported or, if unexported, the interface type itself must be anonymous or declared in the same package as the target query type.\n        - The interface method's signature MUST have exactly " <|
  .call b!"Wu" [.lit "one parameter"] <|
  .text " type and exactly " <|
  .call b!"Wu" [.lit "one result"] <|
  .text " type.\n        - The interface method's parameter MUST be of a " <|
  .call b!"Wu" [.lit "named struct"] <|
  .text " type, or a pointer to a " <|
  .call b!"Wu" [.lit "named struct"] <|
  .text " type.\n        - The interface method's result type MUST be the standard " <|
  .call b!"Ci" [.lit "error"] <|
  .text " type.\n" <|
  .done

/-- /repo/internal/analysis/error.go:267-274. -/
def anT_badIterTypeFunc : Tmpl AnPath :=
  .call b!"Wb" [.path .FileAndLine] <|
  .text ": " <|
  .call b!"Y" [.lit "Bad iterator func type."] <|
  .text "\n    The type " <|
  .call b!"R" [.path .FieldTypeShort] <|
  .text " of the " <|
  .out (.path .TargetName) <|
  .text "." <|
  .call b!"Wb" [.path .FieldName] <|
  .text " field " <|
  .call b!"Wu" [.lit "IS NOT"] <|
  .text " a valid \"" <|
  .call b!"W" [.lit "iterator func"] <|
  .text "\" type.\n    " <|
  .call b!"Wb" [.lit "HINT:"] <|
  .text " a valid \"" <|
  .call b!"W" [.lit "iterator func"] <|
  .text "\" type " <|
  .call b!"Wu" [.lit "MUST"] <|
  .text " satisfy all of the following requirements:\n        - The function's signature MUST have exactly " <|
  .call b!"Wu" [.lit "one parameter"] <|
  .text " type and exactly " <|
  .call b!"Wu" [.lit "one result"] <|
  .text " type.\n        - The function's parameter MUST be of a " <|
  .call b!"Wu" [.lit "named struct"] <|
  .text " type, or a pointer to a " <|
  .call b!"Wu" [.lit "named struct"] <|
  .text " type.\n        - The function's result type MUST be the standard " <|
  .call b!"Ci" [.lit "error"] <|
  .text " type.\n" <|
  .done

/-- /repo/internal/analysis/error.go:276-288. -/
def anT_badRelType : Tmpl AnPath :=
  .call b!"Wb" [.path .FileAndLine] <|
  .text ": " <|
  .call b!"Y" [.lit "Bad \"rel\" type."] <|
  .text "\n    The type " <|
  .call b!"R" [.path .FieldTypeShort] <|
  .text " of the " <|
  .out (.path .TargetName) <|
  .text "." <|
  .call b!"Wb" [.path .FieldName] <|
  .text " field " <|
  .call b!"Wu" [.lit "IS NOT"] <|
  .text " a valid \"" <|
  .call b!"W" [.lit "iterator func"] <|
  .text "\" type.\n    " <|
  .call b!"Wb" [.lit "HINT:"] <|
  .text " a valid \"" <|
  .call b!"W" [.lit "rel"] <|
  .text "\" type " <|
  .call b!"Wu" [.lit "MUST"] <|
  .text " be one of the following:\n        - A " <|
  .call b!"Wu" [.lit "named or unnamed struct"] <|
  .text " type.\n        - A " <|
  .call b!"Wu" [.lit "pointer to a named struct"] <|
  .text " type.\n        - A " <|
  .call b!"Wu" [.lit "slice of named structs"] <|
  .text " type.\n        - A " <|
  .call b!"Wu" [.lit "slice of pointers to named structs"] <|
  .text " type.\n        - An " <|
  .call b!"Wu" [.lit "array of named structs"] <|
  .text " type.\n        - An " <|
  .call b!"Wu" [.lit "array of pointers to named structs"] <|
  .text " type.\n        - A valid " <|
  .call b!"Wu" [.lit "iterator interface"] <|
  .text " type.\n        - A valid " <|
  .call b!"Wu" [.lit "iterator func"] <|
  .text " type.\n" <|
  .done

/-- /repo/internal/analysis/error.go:290-294. -/
def anT_illegalQueryField : Tmpl AnPath :=
  .call b!"Wb" [.path .FileAndLine] <|
  .text ": " <|
  .call b!"Y" [.lit "Illegal ", .path .FieldKind, .lit "."] <|
  .text "\n    The " <|
  .call b!"Wb" [.path .TargetXxx] <|
  .text " " <|
  .out (.path .TargetKind) <|
  .text " types " <|
  .call b!"Wu" [.lit "DO NOT"] <|
  .text " support the " <|
  .call b!"R" [.path .FieldDefinition] <|
  .text " " <|
  .out (.path .FieldKind) <|
  .text ".\n    " <|
  .call b!"Wb" [.lit "FIX:"] <|
  .text " Remove the " <|
  .call b!"R" [.path .FieldDefinition] <|
  .text " " <|
  .out (.path .FieldKind) <|
  .text " from the " <|
  .call b!"Wb" [.path .TargetName] <|
  .text " " <|
  .out (.path .TargetKind) <|
  .text " type.\n" <|
  .done

/-- /repo/internal/analysis/error.go:296-300. -/
def anT_illegalStructDirective : Tmpl AnPath :=
  .call b!"Wb" [.path .FileAndLine] <|
  .text ": " <|
  .call b!"Y" [.lit "Illegal directive field."] <|
  .text "\n    The " <|
  .call b!"Wb" [.path .BlockName] <|
  .text " struct " <|
  .call b!"Wu" [.lit "DOES NOT"] <|
  .text " support the " <|
  .call b!"R" [.path .FieldName] <|
  .text " " <|
  .call b!"R" [.path .FieldTypeShort] <|
  .text " directive.\n    " <|
  .call b!"Wb" [.lit "FIX:"] <|
  .text " Remove the " <|
  .call b!"R" [.path .FieldName] <|
  .text " " <|
  .call b!"R" [.path .FieldTypeShort] <|
  .text " directive from the " <|
  .call b!"Wb" [.path .BlockName] <|
  .text " struct of the " <|
  .call b!"W" [.path .TargetName] <|
  .text " " <|
  .out (.path .TargetKind) <|
  .text " type.\n" <|
  .done

/-- /repo/internal/analysis/error.go:302-306. -/
def anT_illegalIteratorField : Tmpl AnPath :=
  .call b!"Wb" [.path .FileAndLine] <|
  .text ": " <|
  .call b!"Y" [.lit "Illegal iterator type field."] <|
  .text "\n    The " <|
  .call b!"Wb" [.path .TargetXxx] <|
  .text " struct types " <|
  .call b!"Wu" [.lit "DO NOT"] <|
  .text " allow for the \"rel\" field's type to be of the \"" <|
  .call b!"Wi" [.lit "iterator"] <|
  .text "\" kind.\n    " <|
  .call b!"Wb" [.lit "FIX:"] <|
  .text " Change the type of the \"" <|
  .call b!"R" [.path .FieldName] <|
  .text " " <|
  .call b!"R" [.path .FieldTypeShort] <|
  .text "\" field in " <|
  .call b!"Wb" [.path .TargetName] <|
  .text " to a \"" <|
  .call b!"Wi" [.lit "non-iterator"] <|
  .text "\" kind.\n" <|
  .done

/-- /repo/internal/analysis/error.go:308-312. -/
def anT_conflictingRelTag : Tmpl AnPath :=
  .call b!"Wb" [.path .FileAndLine] <|
  .text ": " <|
  .call b!"Y" [.lit "Conflicting \"rel\" tag."] <|
  .text "\n    The field " <|
  .call b!"R" [.path .FieldDefinition] <|
  .text " in " <|
  .call b!"Wb" [.path .TargetName] <|
  .text " is in conflict with another field that also has a \"" <|
  .call b!"Wb" [.lit "rel"] <|
  .text "\" tag.\n    " <|
  .call b!"Wb" [.lit "FIX:"] <|
  .text " Make sure that the " <|
  .call b!"Wb" [.path .TargetName] <|
  .text " " <|
  .out (.path .TargetKind) <|
  .text " type has " <|
  .call b!"Wu" [.lit "only one"] <|
  .text " field with the \"" <|
  .call b!"Wb" [.lit "rel"] <|
  .text "\" tag. \n" <|
  .done

/-- /repo/internal/analysis/error.go:314-318. -/
def anT_conflictingRelAlias : Tmpl AnPath :=
  .call b!"Wb" [.path .FileAndLine] <|
  .text ": " <|
  .call b!"Y" [.lit "Conflicting relation alias."] <|
  .text "\n    The relation alias \"" <|
  .call b!"R" [.path .TagError] <|
  .text "\" is used more than once in " <|
  .call b!"Wb" [.path .TargetName] <|
  .text " causing a name collision.\n    " <|
  .call b!"Wb" [.lit "HINT:"] <|
  .text " A " <|
  .call b!"Wi" [.lit "relation_alias"] <|
  .text " MUST be unique within a query.\n" <|
  .done

/-- /repo/internal/analysis/error.go:320-324. -/
def anT_conflictingRelName : Tmpl AnPath :=
  .call b!"Wb" [.path .FileAndLine] <|
  .text ": " <|
  .call b!"Y" [.lit "Conflicting relation name."] <|
  .text "\n    The relation name \"" <|
  .call b!"R" [.path .TagError] <|
  .text "\" is used more than once in " <|
  .call b!"Wb" [.path .TargetName] <|
  .text " causing a name collision.\n    " <|
  .call b!"Wb" [.lit "HINT:"] <|
  .text " A " <|
  .call b!"Wi" [.lit "relation_name"] <|
  .text " MUST be unique within a query or it MUST be hidden behind a unique " <|
  .call b!"Wi" [.lit "relation_alias"] <|
  .text ".\n" <|
  .done

/-- /repo/internal/analysis/error.go:326-343. -/
def anT_conflictingWhere : Tmpl AnPath :=
  .call b!"Wb" [.path .FileAndLine] <|
  .text ": " <|
  .call b!"Y" [.lit "Conflicting \"where\" fields / directives."] <|
  .text "\n    " <|
  .ite (.path .IsDirective)
    (.text "The " <|
    .call b!"R" [.path .FieldTypeShort] <|
    .text " directive in " <|
    .call b!"Wb" [.path .TargetName] <|
    .text " is in conflict with another field or directive.\n    " <|
    .done)
    (.text "The field " <|
    .call b!"R" [.path .FieldName] <|
    .text " (type " <|
    .call b!"R" [.path .FieldTypeShort] <|
    .text ") in " <|
    .call b!"Wb" [.path .TargetName] <|
    .text " is in conflict with another field or directive.\n    " <|
    .done) <|
  .ite (.path .IsSelectQueryKind)
    (.call b!"Wb" [.lit "HINT:"] <|
    .text " The " <|
    .call b!"Wb" [.path .TargetXxx] <|
    .text " query types can have " <|
    .call b!"Wu" [.lit "only one"] <|
    .text " WHERE producing field which MUST be one of the following:\n        - A field of type " <|
    .call b!"Ci" [.lit "gosql.Filter"] <|
    .text ".\n        - A struct field named " <|
    .call b!"Wu" [.lit "Where"] <|
    .text " (case insensitive).\n    " <|
    .done)
    (.call b!"Wb" [.lit "HINT:"] <|
    .text " The " <|
    .call b!"Wb" [.path .TargetXxx] <|
    .text " query types can have " <|
    .call b!"Wu" [.lit "only one"] <|
    .text " WHERE producing field or directive which MUST be one of the following:\n        - A directive field of type " <|
    .call b!"Ci" [.lit "gosql.All"] <|
    .text ".\n        - A field of type " <|
    .call b!"Ci" [.lit "gosql.Filter"] <|
    .text ".\n        - A struct field named " <|
    .call b!"Wu" [.lit "Where"] <|
    .text " (case insensitive).\n    " <|
    .done) <|
  .done

/-- /repo/internal/analysis/error.go:345-352. -/
def anT_conflictingOnConflictTarget : Tmpl AnPath :=
  .call b!"Wb" [.path .FileAndLine] <|
  .text ": " <|
  .call b!"Y" [.lit "Conflicting \"on conflict\" target directives."] <|
  .text "\n    The " <|
  .call b!"R" [.path .FieldTypeShort] <|
  .text " directive is in conflict with another \"target\" directive of the " <|
  .call b!"Wb" [.path .BlockName] <|
  .text " struct in the " <|
  .call b!"Wb" [.path .TargetName] <|
  .text " query type.\n    " <|
  .call b!"Wb" [.lit "HINT:"] <|
  .text " The " <|
  .call b!"Wb" [.path .BlockName] <|
  .text " struct can have " <|
  .call b!"Wu" [.lit "only one"] <|
  .text " of the following \"target\" directives:\n        - The " <|
  .call b!"Ci" [.lit "gosql.Column"] <|
  .text " directive.\n        - The " <|
  .call b!"Ci" [.lit "gosql.Index"] <|
  .text " directive.\n        - The " <|
  .call b!"Ci" [.lit "gosql.Constraint"] <|
  .text " directive.\n" <|
  .done

/-- /repo/internal/analysis/error.go:354-360. -/
def anT_conflictingOnConflictAction : Tmpl AnPath :=
  .call b!"Wb" [.path .FileAndLine] <|
  .text ": " <|
  .call b!"Y" [.lit "Conflicting \"on conflict\" action directives."] <|
  .text "\n    The " <|
  .call b!"R" [.path .FieldTypeShort] <|
  .text " directive is in conflict with another \"action\" directive of the " <|
  .call b!"Wb" [.path .BlockName] <|
  .text " struct in the " <|
  .call b!"Wb" [.path .TargetName] <|
  .text " query type.\n    " <|
  .call b!"Wb" [.lit "HINT:"] <|
  .text " The " <|
  .call b!"Wb" [.path .BlockName] <|
  .text " struct can have " <|
  .call b!"Wu" [.lit "only one"] <|
  .text " of the following \"action\" directives:\n        - The " <|
  .call b!"Ci" [.lit "gosql.Ignore"] <|
  .text " directive.\n        - The " <|
  .call b!"Ci" [.lit "gosql.Update"] <|
  .text " directive.\n" <|
  .done

/-- /repo/internal/analysis/error.go:362-381. -/
def anT_conflictingResultTarget : Tmpl AnPath :=
  .call b!"Wb" [.path .FileAndLine] <|
  .text ": " <|
  .call b!"Y" [.lit "Conflicting \"result\" fields / directives."] <|
  .text "\n    " <|
  .ite (.path .IsDirective)
    (.text "The " <|
    .call b!"R" [.path .FieldTypeShort] <|
    .text " directive in " <|
    .call b!"Wb" [.path .TargetName] <|
    .text " is in conflict with another \"result\" field or directive.\n    " <|
    .done)
    (.text "The field " <|
    .call b!"R" [.path .FieldName] <|
    .text " (type " <|
    .call b!"R" [.path .FieldTypeShort] <|
    .text ") in " <|
    .call b!"Wb" [.path .TargetName] <|
    .text " is in conflict with another \"result\" field or directive.\n    " <|
    .done) <|
  .call b!"Wb" [.lit "HINT:"] <|
  .text " The " <|
  .call b!"Wb" [.lit "InsertXxx"] <|
  .text ", " <|
  .call b!"Wb" [.lit "UpdateXxx"] <|
  .text ", and " <|
  .call b!"Wb" [.lit "DeleteXxx"] <|
  .text " query struct types can have " <|
  .call b!"Wu" [.lit "only one"] <|
  .text " of the following:\n        - The " <|
  .call b!"Ci" [.lit "gosql.Return"] <|
  .text " directive.\n\t- A field named " <|
  .call b!"Wu" [.lit "RowsAffected"] <|
  .text " (case insensitive) which MUST be of one of the following types: " <|
  .call b!"Ci" [.lit "int, int8, int16, int32, int64, uint, uint8, uint16, uint32, uint64"] <|
  .text ".\n        - A field named " <|
  .call b!"Wu" [.lit "Result"] <|
  .text " (case insensitive) whose type MUST be one of the following:\n            - A " <|
  .call b!"Wu" [.lit "named or unnamed struct"] <|
  .text " type.\n            - A " <|
  .call b!"Wu" [.lit "pointer to a named struct"] <|
  .text " type.\n            - A " <|
  .call b!"Wu" [.lit "slice of named structs"] <|
  .text " type.\n            - A " <|
  .call b!"Wu" [.lit "slice of pointers to named structs"] <|
  .text " type.\n            - An " <|
  .call b!"Wu" [.lit "array of named structs"] <|
  .text " type.\n            - An " <|
  .call b!"Wu" [.lit "array of pointers to named structs"] <|
  .text " type.\n            - A valid " <|
  .call b!"Wu" [.lit "iterator interface"] <|
  .text " type.\n            - A valid " <|
  .call b!"Wu" [.lit "iterator func"] <|
  .text " type.\n" <|
  .done

/-- /repo/internal/analysis/error.go:383-387. -/
def anT_conflictingRelationDirective : Tmpl AnPath :=
  .call b!"Wb" [.path .FileAndLine] <|
  .text ": " <|
  .call b!"Y" [.lit "Conflicting \"gosql.Relation\" directive."] <|
  .text "\n    The " <|
  .call b!"R" [.path .FieldTypeShort] <|
  .text " directive is in conflict with another directive of the same type.\n    " <|
  .call b!"Wb" [.lit "FIX:"] <|
  .text " Make sure that the " <|
  .call b!"Wb" [.path .BlockName] <|
  .text " struct field in " <|
  .call b!"Wb" [.path .TargetName] <|
  .text " has " <|
  .call b!"Wu" [.lit "only one"] <|
  .text " " <|
  .call b!"R" [.path .FieldTypeShort] <|
  .text " directive. \n" <|
  .done

/-- /repo/internal/analysis/error.go:389-398. -/
def anT_conflictingFieldOrDirective : Tmpl AnPath :=
  .call b!"Wb" [.path .FileAndLine] <|
  .text ": " <|
  .call b!"Y" [.lit "Conflicting fields / directives."] <|
  .text "\n    " <|
  .ite (.path .IsDirective)
    (.text "The " <|
    .call b!"R" [.path .FieldTypeShort] <|
    .text " directive is in conflict with another field or directive of its \"kind\".\n    " <|
    .call b!"Wb" [.lit "FIX:"] <|
    .text " Make sure that the " <|
    .call b!"Wb" [.path .TargetName] <|
    .text " struct type has, at most, " <|
    .call b!"Wu" [.lit "only one"] <|
    .text " field / directive of the same \"kind\" as the " <|
    .call b!"R" [.path .FieldTypeShort] <|
    .text " directive.\n    " <|
    .done)
    (.text "The field " <|
    .call b!"R" [.path .FieldName] <|
    .text " (type " <|
    .call b!"R" [.path .FieldTypeShort] <|
    .text ") in " <|
    .call b!"Wb" [.path .TargetName] <|
    .text " is in conflict with another field or directive of its \"kind\".\n    " <|
    .call b!"Wb" [.lit "FIX:"] <|
    .text " Make sure that the " <|
    .call b!"Wb" [.path .TargetName] <|
    .text " struct type has, at most, " <|
    .call b!"Wu" [.lit "only one"] <|
    .text " field / directive of the same \"kind\" as the " <|
    .call b!"R" [.path .FieldName] <|
    .text " (type " <|
    .call b!"R" [.path .FieldTypeShort] <|
    .text ") field.\n    " <|
    .done) <|
  .done

/-- /repo/internal/analysis/error.go:400-404. -/
def anT_conflictingFilterConstructor : Tmpl AnPath :=
  .call b!"Wb" [.path .FileAndLine] <|
  .text ": " <|
  .call b!"Y" [.lit "Conflicting filter constructor field."] <|
  .text "\n    The field " <|
  .call b!"R" [.path .FieldName] <|
  .text " (type " <|
  .call b!"R" [.path .FieldTypeShort] <|
  .text ") in " <|
  .call b!"Wb" [.path .TargetName] <|
  .text " is in conflict with another field that implements the \"gosql.FilterConstructor\" interface.\n    " <|
  .call b!"Wb" [.lit "FIX:"] <|
  .text " Make sure that the " <|
  .call b!"R" [.path .TargetName] <|
  .text " struct type has " <|
  .call b!"Wu" [.lit "exactly one"] <|
  .text " field that implements the \"gosql.FilterConstructor\" interface.\n" <|
  .done

/-- /repo/internal/analysis/error.go:406-410. -/
def anT_missingRelField : Tmpl AnPath :=
  .call b!"Wb" [.path .FileAndLine] <|
  .text ": " <|
  .call b!"Y" [.lit "Missing \"rel\" field."] <|
  .text "\n    The " <|
  .call b!"R" [.path .TargetName] <|
  .text " struct type has no field with the \"rel\" tag.\n    " <|
  .call b!"Wb" [.lit "FIX:"] <|
  .text " Make sure that the " <|
  .call b!"R" [.path .TargetName] <|
  .text " struct type has " <|
  .call b!"Wu" [.lit "exactly one"] <|
  .text " field with the \"rel\" tag. \n" <|
  .done

/-- /repo/internal/analysis/error.go:412-416. -/
def anT_missingTagValue : Tmpl AnPath :=
  .call b!"Wb" [.path .FileAndLine] <|
  .text ": " <|
  .call b!"Y" [.lit "Missing \"sql\" tag value."] <|
  .text "\n    The " <|
  .call b!"R" [.path .FieldName] <|
  .text " " <|
  .call b!"R" [.path .FieldTypeShort] <|
  .text " field / directive in " <|
  .call b!"Wb" [.path .TargetName] <|
  .text " is missing a value in its \"sql\" tag, or it is missing the tag completely.\n    " <|
  .call b!"Wb" [.lit "FIX:"] <|
  .text " Make sure that the " <|
  .call b!"R" [.path .FieldName] <|
  .text " " <|
  .call b!"R" [.path .FieldTypeShort] <|
  .text " field / directive in " <|
  .call b!"Wb" [.path .TargetName] <|
  .text " has the \"sql\" tag with a value that's valid for that field / directive. \n" <|
  .done

/-- /repo/internal/analysis/error.go:418-422. -/
def anT_missingTagColumnList : Tmpl AnPath :=
  .call b!"Wb" [.path .FileAndLine] <|
  .text ": " <|
  .call b!"Y" [.lit "Missing \"sql\" tag with column list."] <|
  .text "\n    The " <|
  .call b!"R" [.path .FieldName] <|
  .text " " <|
  .call b!"R" [.path .FieldTypeShort] <|
  .text " field / directive in " <|
  .call b!"Wb" [.path .TargetName] <|
  .text " is missing a list of columns in its \"sql\" tag, or it is missing the tag completely.\n    " <|
  .call b!"Wb" [.lit "FIX:"] <|
  .text " Make sure that the " <|
  .call b!"R" [.path .FieldName] <|
  .text " " <|
  .call b!"R" [.path .FieldTypeShort] <|
  .text " field / directive in " <|
  .call b!"Wb" [.path .TargetName] <|
  .text " has the \"sql\" tag with a valid list of columns. \n" <|
  .done

/-- /repo/internal/analysis/error.go:424-431. -/
def anT_missingOnConflictTarget : Tmpl AnPath :=
  .call b!"Wb" [.path .FileAndLine] <|
  .text ": " <|
  .call b!"Y" [.lit "Missing on_conflict target directive."] <|
  .text "\n    The " <|
  .call b!"R" [.path .FieldName] <|
  .text " struct field in " <|
  .call b!"Wb" [.path .TargetName] <|
  .text " is missing a \"target\" directive.\n    " <|
  .call b!"Wb" [.lit "FIX:"] <|
  .text " Make sure that " <|
  .call b!"R" [.path .FieldName] <|
  .text " in " <|
  .call b!"Wb" [.path .TargetName] <|
  .text " has " <|
  .call b!"Wb" [.lit "exactly one"] <|
  .text " of the following \"target\" directives: \n        - The " <|
  .call b!"Ci" [.lit "gosql.Column"] <|
  .text " directive.\n        - The " <|
  .call b!"Ci" [.lit "gosql.Index"] <|
  .text " directive.\n        - The " <|
  .call b!"Ci" [.lit "gosql.Constraint"] <|
  .text " directive.\n" <|
  .done

/-- /repo/internal/analysis/error.go:433-437. -/
def anT_missingFilterConstructor : Tmpl AnPath :=
  .call b!"Wb" [.path .FileAndLine] <|
  .text ": " <|
  .call b!"Y" [.lit "Missing filter constructor field."] <|
  .text "\n    The " <|
  .call b!"R" [.path .TargetName] <|
  .text " struct type has no field that implements the \"gosql.FilterConstructor\" interface.\n    " <|
  .call b!"Wb" [.lit "FIX:"] <|
  .text " Make sure that the " <|
  .call b!"R" [.path .TargetName] <|
  .text " struct type has " <|
  .call b!"Wu" [.lit "exactly one"] <|
  .text " field that implements the \"gosql.FilterConstructor\" interface.\n" <|
  .done

/-- /repo/internal/analysis/error.go:439-445. -/
def anT_badIdentTagValue : Tmpl AnPath :=
  .call b!"Wb" [.path .FileAndLine] <|
  .text ": " <|
  .call b!"Y" [.lit "Bad identifier value in tag."] <|
  .text "\n    The \"sql\" tag value " <|
  .call b!"R" [.path .TagValueSqlFirst] <|
  .text " in " <|
  .call b!"R" [.path .FieldDefinition] <|
  .text " from " <|
  .call b!"Wb" [.path .TargetName] <|
  .text " is an invalid " <|
  .call b!"Wi" [.lit "identifier"] <|
  .text ".\n    " <|
  .call b!"Wb" [.lit "HINT:"] <|
  .text " A valid " <|
  .call b!"Wi" [.lit "identifier"] <|
  .text " MUST begin with a letter (a-z [case insensitive]) or an underscore (_), subsequent characters in the " <|
  .call b!"Wi" [.lit "identifier"] <|
  .text " can be letters, underscores, and digits (0-9). Put another way, a valid " <|
  .call b!"Wi" [.lit "identifier"] <|
  .text " MUST match the following regular expression: " <|
  .call b!"G" [.lit "^[A-Za-z_]\\w*$"] <|
  .text "\n" <|
  .done

/-- /repo/internal/analysis/error.go:447-455. -/
def anT_badColIdTagValue : Tmpl AnPath :=
  .call b!"Wb" [.path .FileAndLine] <|
  .text ": " <|
  .call b!"Y" [.lit "Bad column_identifier value in tag."] <|
  .text "\n    The \"sql\" tag value " <|
  .call b!"R" [.path .TagError] <|
  .text " in " <|
  .call b!"R" [.path .FieldDefinition] <|
  .text " from " <|
  .call b!"Wb" [.path .TargetName] <|
  .text " is an invalid " <|
  .call b!"Wi" [.lit "column_identifier"] <|
  .text ".\n    " <|
  .call b!"Wb" [.lit "HINT:"] <|
  .text " A valid " <|
  .call b!"Wi" [.lit "column_identifier"] <|
  .text " MUST be of the format " <|
  .call b!"Wi" [.lit "[rel_alias.]column_name"] <|
  .text " where both the " <|
  .call b!"Wi" [.lit "rel_alias"] <|
  .text " and the " <|
  .call b!"Wi" [.lit "column_name"] <|
  .text " are valid " <|
  .call b!"Wi" [.lit "identifiers"] <|
  .text ". A valid " <|
  .call b!"Wi" [.lit "identifier"] <|
  .text " MUST begin with a letter (a-z [case insensitive]) or an underscore (_) and any subsequent characters in the " <|
  .call b!"Wi" [.lit "identifier"] <|
  .text " can be letters, underscores, and digits (0-9). Put another way, a valid " <|
  .call b!"Wi" [.lit "column_identifier"] <|
  .text " MUST match the following regular expression: " <|
  .call b!"G" [.lit "^(?:[A-Za-z_]\\w*\\.)?[A-Za-z_]\\w*$"] <|
  .text "\n" <|
  .done

/-- /repo/internal/analysis/error.go:457-465. -/
def anT_badRelIdTagValue : Tmpl AnPath :=
  .call b!"Wb" [.path .FileAndLine] <|
  .text ": " <|
  .call b!"Y" [.lit "Bad relation_identifier value in tag."] <|
  .text "\n    The \"sql\" tag value " <|
  .call b!"R" [.path .TagError] <|
  .text " in " <|
  .call b!"R" [.path .FieldDefinition] <|
  .text " from " <|
  .call b!"Wb" [.path .TargetName] <|
  .text " is an invalid " <|
  .call b!"Wi" [.lit "relation_identifier"] <|
  .text ".\n    " <|
  .call b!"Wb" [.lit "HINT:"] <|
  .text " A valid " <|
  .call b!"Wi" [.lit "relation_identifier"] <|
  .text " MUST be of the format " <|
  .call b!"Wi" [.lit "[schema_name.]relation_name[:alias_name]"] <|
  .text " where " <|
  .call b!"Wi" [.lit "schema_name"] <|
  .text ", " <|
  .call b!"Wi" [.lit "relation_name"] <|
  .text ", and " <|
  .call b!"Wi" [.lit "alias_name"] <|
  .text " are all valid " <|
  .call b!"Wi" [.lit "identifiers"] <|
  .text ". A valid " <|
  .call b!"Wi" [.lit "identifier"] <|
  .text " MUST begin with a letter (a-z [case insensitive]) or an underscore (_) and any subsequent characters in the " <|
  .call b!"Wi" [.lit "identifier"] <|
  .text " can be letters, underscores, and digits (0-9). Put another way, a valid " <|
  .call b!"Wi" [.lit "relation_identifier"] <|
  .text " MUST match the following regular expression: " <|
  .call b!"G" [.lit "^(?:[A-Za-z_]\\w*\\.)?[A-Za-z_]\\w*(?:\\:[A-Za-z_]\\w*)?$"] <|
  .text "\n" <|
  .done

/-- /repo/internal/analysis/error.go:467-471. -/
def anT_badBoolTagValue : Tmpl AnPath :=
  .call b!"Wb" [.path .FileAndLine] <|
  .text ": " <|
  .call b!"Y" [.lit "Bad boolean value in tag."] <|
  .text "\n    The \"bool\" tag value " <|
  .call b!"R" [.path .TagError] <|
  .text " in " <|
  .call b!"R" [.path .FieldDefinition] <|
  .text " from " <|
  .call b!"Wb" [.path .TargetName] <|
  .text " is an invalid " <|
  .call b!"Wi" [.lit "boolean"] <|
  .text " value.\n    " <|
  .call b!"Wb" [.lit "HINT:"] <|
  .text " A valid " <|
  .call b!"Wi" [.lit "boolean"] <|
  .text " value MUST be either " <|
  .call b!"G" [.lit "AND"] <|
  .text " or " <|
  .call b!"G" [.lit "OR"] <|
  .text " (case insensitive).\n" <|
  .done

/-- /repo/internal/analysis/error.go:473-477. -/
def anT_badUIntegerTagValue : Tmpl AnPath :=
  .call b!"Wb" [.path .FileAndLine] <|
  .text ": " <|
  .call b!"Y" [.lit "Bad unsigned_integer value in tag."] <|
  .text "\n    The \"sql\" tag value " <|
  .call b!"R" [.path .TagError] <|
  .text " in " <|
  .call b!"R" [.path .FieldDefinition] <|
  .text " from " <|
  .call b!"Wb" [.path .TargetName] <|
  .text " is an invalid " <|
  .call b!"Wi" [.lit "unsigned_integer"] <|
  .text " value.\n    " <|
  .call b!"Wb" [.lit "FIX:"] <|
  .text " Change " <|
  .call b!"R" [.path .TagError] <|
  .text " to a valid unsigned integer value.\n" <|
  .done

/-- /repo/internal/analysis/error.go:479-483. -/
def anT_badNullsOrderTagValue : Tmpl AnPath :=
  .call b!"Wb" [.path .FileAndLine] <|
  .text ": " <|
  .call b!"Y" [.lit "Bad nulls_order value in tag."] <|
  .text "\n    The \"sql\" tag value " <|
  .call b!"R" [.path .TagError] <|
  .text " in " <|
  .call b!"R" [.path .FieldDefinition] <|
  .text " from " <|
  .call b!"Wb" [.path .TargetName] <|
  .text " is an invalid " <|
  .call b!"Wi" [.lit "nulls_order"] <|
  .text " value.\n    " <|
  .call b!"Wb" [.lit "HINT:"] <|
  .text " A valid " <|
  .call b!"Wi" [.lit "nulls_order"] <|
  .text " value MUST be either " <|
  .call b!"G" [.lit "NULLSFIRST"] <|
  .text " or " <|
  .call b!"G" [.lit "NULLSLAST"] <|
  .text " (case insensitive).\n" <|
  .done

/-- /repo/internal/analysis/error.go:485-489. -/
def anT_badOverrideTagValue : Tmpl AnPath :=
  .call b!"Wb" [.path .FileAndLine] <|
  .text ": " <|
  .call b!"Y" [.lit "Bad overriding_kind value in tag."] <|
  .text "\n    The \"sql\" tag value " <|
  .call b!"R" [.path .TagError] <|
  .text " in " <|
  .call b!"R" [.path .FieldDefinition] <|
  .text " from " <|
  .call b!"Wb" [.path .TargetName] <|
  .text " is an invalid " <|
  .call b!"Wi" [.lit "overriding_kind"] <|
  .text " value.\n    " <|
  .call b!"Wb" [.lit "HINT:"] <|
  .text " A valid " <|
  .call b!"Wi" [.lit "overriding_kind"] <|
  .text " value MUST be either " <|
  .call b!"G" [.lit "USER"] <|
  .text " or " <|
  .call b!"G" [.lit "SYSTEM"] <|
  .text " (case insensitive).\n" <|
  .done

/-- /repo/internal/analysis/error.go:491-496. -/
def anT_badDirectiveBooleanExpr : Tmpl AnPath :=
  .call b!"Wb" [.path .FileAndLine] <|
  .text ": " <|
  .call b!"Y" [.lit "Bad boolean_expression in directive."] <|
  .text "\n    The expression \"" <|
  .call b!"R" [.path .TagError] <|
  .text "\" in " <|
  .call b!"R" [.path .FieldDefinition] <|
  .text " from " <|
  .call b!"W" [.path .TargetName] <|
  .ite (.path .BlockName)
    (.text "." <|
    .call b!"Wb" [.path .BlockName] <|
    .done)
    (.done) <|
  .text " is an invalid " <|
  .call b!"Wi" [.lit "boolean_expression"] <|
  .text " for a directive.\n    " <|
  .call b!"Wb" [.lit "HINT:"] <|
  .text " A valid " <|
  .call b!"Wi" [.lit "boolean_expression"] <|
  .text " in a directive MUST be a " <|
  .call b!"Wu" [.lit "complete"] <|
  .text " binary or unary expression.\n" <|
  .done

/-- /repo/internal/analysis/error.go:498-509. -/
def anT_badBetweenPredicate : Tmpl AnPath :=
  .call b!"Wb" [.path .FileAndLine] <|
  .text ": " <|
  .call b!"Y" [.lit "Bad between_predicate type."] <|
  .text "\n    The " <|
  .call b!"R" [.path .FieldName] <|
  .text " " <|
  .call b!"R" [.path .FieldTypeShort] <|
  .text " field from " <|
  .call b!"Wb" [.path .TargetName] <|
  .text " has an invalid " <|
  .call b!"Wi" [.lit "between_predicate"] <|
  .text " type.\n    " <|
  .call b!"Wb" [.lit "FIX:"] <|
  .text " A valid " <|
  .call b!"Wi" [.lit "between_predicate"] <|
  .text " type MUST be a " <|
  .call b!"Ci" [.lit "struct"] <|
  .text " type that satisfies the following requirements:\n        - The " <|
  .call b!"Ci" [.lit "struct"] <|
  .text " type MUST have " <|
  .call b!"Wu" [.lit "exactly two"] <|
  .text " fields, no more and no less.\n        - One of the fields MUST be tagged with the letter \"" <|
  .call b!"Wb" [.lit "x"] <|
  .text "\" and the other field MUST be tagged with the letter \"" <|
  .call b!"Wb" [.lit "y"] <|
  .text "\" (case insensitive).\n        - The fields MUST be either of the " <|
  .call b!"Ci" [.lit "gosql.Column"] <|
  .text " directive, or they MUST be named and of a normal non-directive type.\n        " <|
  .call b!"Wb" [.lit "EXAMPLE:"] <|
  .text " type T struct {\n\t\tF int          " <|
  .out (.raw (.lit "sql:\"x\"")) <|
  .text "\n\t\t_ gosql.Column " <|
  .out (.raw (.lit "sql:\"t.col_name,y\"")) <|
  .text "\n\t}\n" <|
  .done

/-- /repo/internal/analysis/error.go:511-515. -/
def anT_badJoinConditionLHS : Tmpl AnPath :=
  .call b!"Wb" [.path .FileAndLine] <|
  .text ": " <|
  .call b!"Y" [.lit "Bad join_condition LHS."] <|
  .text "\n    The LHS \"" <|
  .call b!"R" [.path .TagError] <|
  .text "\" of the \"" <|
  .call b!"R" [.path .TagExpr] <|
  .text "\" expression in " <|
  .call b!"R" [(.raw (.path .TagString))] <|
  .text " is not allowed. \n    " <|
  .call b!"Wb" [.lit "HINT:"] <|
  .text " The " <|
  .call b!"Wb" [.lit "LHS"] <|
  .text " of a " <|
  .call b!"Wi" [.lit "join_condition"] <|
  .text " expression MUST refer to a column of the relation being joined.\n" <|
  .done

/-- /repo/internal/analysis/error.go:517-521. -/
def anT_illegalSliceUpdateModifier : Tmpl AnPath :=
  .call b!"Wb" [.path .FileAndLine] <|
  .text ": " <|
  .call b!"Y" [.lit "Illegal slice update modifier."] <|
  .text "\n    The " <|
  .call b!"R" [.path .TargetXxx] <|
  .text " query types with a \"rel\" field of " <|
  .call b!"Wb" [.lit "slice"] <|
  .text " type " <|
  .call b!"Wu" [.lit "DO NOT"] <|
  .text " support " <|
  .call b!"R" [.path .FieldDefinition] <|
  .text " " <|
  .out (.path .FieldKind) <|
  .text "s.\n    " <|
  .call b!"Wb" [.lit "FIX:"] <|
  .text " remove the " <|
  .call b!"R" [.path .FieldDefinition] <|
  .text " " <|
  .out (.path .FieldKind) <|
  .text " from the " <|
  .call b!"Wb" [.path .TargetName] <|
  .text " query type.\n" <|
  .done

/-- /repo/internal/analysis/error.go:523-527. -/
def anT_illegalListPredicate : Tmpl AnPath :=
  .call b!"Wb" [.path .FileAndLine] <|
  .text ": " <|
  .call b!"Y" [.lit "Illegal list predicate."] <|
  .text "\n    The use of a " <|
  .call b!"Wi" [.lit "list_predicate"] <|
  .text " with a field of non-sequence type is illegal (" <|
  .call b!"R" [.path .TagError] <|
  .text " in \"" <|
  .call b!"R" [.path .TagExpr] <|
  .text "\" from the field " <|
  .call b!"R" [.path .FieldDefinition] <|
  .text " in " <|
  .call b!"W" [.path .TargetName] <|
  .text ").\n    " <|
  .call b!"Wb" [.lit "FIX:"] <|
  .text " Change the " <|
  .call b!"Wi" [.lit "list_predicate"] <|
  .text " " <|
  .call b!"R" [.path .TagError] <|
  .text " to a non-sequence predicate, or change the " <|
  .call b!"R" [.path .FieldName] <|
  .text " field's type " <|
  .call b!"R" [.path .FieldType] <|
  .text " to a " <|
  .call b!"Wu" [.lit "sequence"] <|
  .text " type, i.e. " <|
  .call b!"Ci" [.lit "slice"] <|
  .text ", or " <|
  .call b!"Ci" [.lit "array"] <|
  .text ".\n" <|
  .done

/-- /repo/internal/analysis/error.go:529-538. -/
def anT_illegalUnaryPredicate : Tmpl AnPath :=
  .call b!"Wb" [.path .FileAndLine] <|
  .text ": " <|
  .call b!"Y" [.lit "Illegal unary predicate."] <|
  .text "\n    " <|
  .ite (.path .IsDirective)
    (.text "The use of a " <|
    .call b!"Wi" [.lit "unary_predicate"] <|
    .text " in a " <|
    .call b!"Wi" [.lit "binary_expression"] <|
    .text " is illegal (" <|
    .call b!"R" [.path .TagError] <|
    .text " in \"" <|
    .call b!"R" [.path .TagExpr] <|
    .text "\" from the directive " <|
    .call b!"R" [.path .FieldDefinition] <|
    .text " in " <|
    .call b!"W" [.path .TargetName] <|
    .text ").\n    " <|
    .call b!"Wb" [.lit "FIX:"] <|
    .text " Change the " <|
    .call b!"Wi" [.lit "binary_expression"] <|
    .text " \"" <|
    .call b!"R" [.path .TagExpr] <|
    .text "\" to a valid " <|
    .call b!"Wi" [.lit "unary_expression"] <|
    .text ", or replace the " <|
    .call b!"Wi" [.lit "unary_predicate"] <|
    .text " " <|
    .call b!"R" [.path .TagError] <|
    .text " with a " <|
    .call b!"Wi" [.lit "binary_predicate"] <|
    .text ".\n    " <|
    .done)
    (.text "The use of a " <|
    .call b!"Wi" [.lit "unary_predicate"] <|
    .text " is illegal in the tag of a plain field (" <|
    .call b!"R" [.path .TagError] <|
    .text " in \"" <|
    .call b!"R" [.path .TagExpr] <|
    .text "\" from the field " <|
    .call b!"R" [.path .FieldDefinition] <|
    .text " in " <|
    .call b!"W" [.path .TargetName] <|
    .text ").\n    " <|
    .call b!"Wb" [.lit "FIX:"] <|
    .text " In the expression \"" <|
    .call b!"R" [.path .TagExpr] <|
    .text "\" remove the " <|
    .call b!"Wi" [.lit "unary_predicate"] <|
    .text " " <|
    .call b!"R" [.path .TagError] <|
    .text " or replace it with a " <|
    .call b!"Wi" [.lit "binary_predicate"] <|
    .text ".\n    " <|
    .done) <|
  .done

/-- /repo/internal/analysis/error.go:540-544. -/
def anT_illegalFieldQuantifier : Tmpl AnPath :=
  .call b!"Wb" [.path .FileAndLine] <|
  .text ": " <|
  .call b!"Y" [.lit "Illegal field quantifier."] <|
  .text "\n    The use of a " <|
  .call b!"Wi" [.lit "predicate_quantifier"] <|
  .text " with a " <|
  .call b!"Wu" [.lit "non-sequence"] <|
  .text " field is illegal (" <|
  .call b!"R" [.path .TagError] <|
  .text " in \"" <|
  .call b!"R" [.path .TagExpr] <|
  .text "\" from the " <|
  .out (.path .FieldKind) <|
  .text " " <|
  .call b!"R" [.path .FieldDefinition] <|
  .text " in " <|
  .call b!"W" [.path .TargetName] <|
  .text ").\n    " <|
  .call b!"Wb" [.lit "FIX:"] <|
  .text " Remove the " <|
  .call b!"Wi" [.lit "predicate_quantifier"] <|
  .text " " <|
  .call b!"R" [.path .TagError] <|
  .text " from the expression \"" <|
  .call b!"R" [.path .TagExpr] <|
  .text "\", or change the " <|
  .call b!"R" [.path .FieldName] <|
  .text " field's type " <|
  .call b!"R" [.path .FieldType] <|
  .text " to a " <|
  .call b!"Wu" [.lit "sequence"] <|
  .text " type, i.e. " <|
  .call b!"Ci" [.lit "slice"] <|
  .text ", or " <|
  .call b!"Ci" [.lit "array"] <|
  .text ".\n" <|
  .done

/-- /repo/internal/analysis/error.go:546-558. -/
def anT_illegalPredicateQuantifier : Tmpl AnPath :=
  .call b!"Wb" [.path .FileAndLine] <|
  .text ": " <|
  .call b!"Y" [.lit "Illegal predicate quantifier."] <|
  .text "\n    " <|
  .ite (.path .TagExprIsUnary)
    (.text "The use of a " <|
    .call b!"Wi" [.lit "predicate_quantifier"] <|
    .text " in a directive's " <|
    .call b!"Wi" [.lit "unary_expression"] <|
    .text " is illegal (" <|
    .call b!"R" [.path .TagError] <|
    .text " in \"" <|
    .call b!"R" [.path .TagExpr] <|
    .text "\" from the " <|
    .out (.path .FieldKind) <|
    .text " " <|
    .call b!"R" [.path .FieldDefinition] <|
    .text " in " <|
    .call b!"W" [.path .TargetName] <|
    .text ").\n    " <|
    .done)
    (.text "The use of a " <|
    .call b!"Wi" [.lit "predicate_quantifier"] <|
    .text " with a " <|
    .call b!"Wu" [.lit "non-quantifiable"] <|
    .text " predicate is illegal (" <|
    .call b!"R" [.path .TagError] <|
    .text " in \"" <|
    .call b!"R" [.path .TagExpr] <|
    .text "\" from the " <|
    .out (.path .FieldKind) <|
    .text " " <|
    .call b!"R" [.path .FieldDefinition] <|
    .text " in " <|
    .call b!"W" [.path .TargetName] <|
    .text ").\n    " <|
    .done) <|
  .ite (.or (.path .TagExprHasRHS) (.not (.path .IsDirective)))
    (.call b!"Wb" [.lit "FIX:"] <|
    .text " Remove the " <|
    .call b!"Wi" [.lit "predicate_quantifier"] <|
    .text " " <|
    .call b!"R" [.path .TagError] <|
    .text " from the expression \"" <|
    .call b!"R" [.path .TagExpr] <|
    .text "\", or change the " <|
    .call b!"Wu" [.lit "non-quantifiable"] <|
    .text " predicate " <|
    .call b!"R" [.path .TagExprPredicate] <|
    .text " to a " <|
    .call b!"Wu" [.lit "quantifiable"] <|
    .text " one.\n    " <|
    .done)
    (.call b!"Wb" [.lit "FIX:"] <|
    .text " Remove the " <|
    .call b!"Wi" [.lit "predicate_quantifier"] <|
    .text " " <|
    .call b!"R" [.path .TagError] <|
    .text " from the expression \"" <|
    .call b!"R" [.path .TagExpr] <|
    .text "\".\n    " <|
    .done) <|
  .done

/-- /repo/internal/analysis/error.go:560-564. -/
def anT_unknownColumnQualifier : Tmpl AnPath :=
  .call b!"Wb" [.path .FileAndLine] <|
  .text ": " <|
  .call b!"Y" [.lit "Unknown column qualifier."] <|
  .text "\n    The column qualifier \"" <|
  .call b!"R" [.path .TagError] <|
  .text "\" in " <|
  .call b!"Wb" [.path .TargetName] <|
  .text " field " <|
  .call b!"R" [.path .FieldDefinition] <|
  .text " references an unknown, as of yet unspecified relation.\n    " <|
  .call b!"Wb" [.lit "HINT:"] <|
  .text " Make sure that \"" <|
  .call b!"R" [.path .TagError] <|
  .text "\" does not contain any typos, and that it is referenced " <|
  .call b!"Wu" [.lit "after"] <|
  .text " being first specified in the same tag or another tag in the same query. \n" <|
  .done

/-- /repo/internal/analysis/error.go:566-570. -/
def anT_columnFieldUnknown : Tmpl AnPath :=
  .call b!"Wb" [.path .FileAndLine] <|
  .text ": " <|
  .call b!"Y" [.lit "Column has no matching field."] <|
  .text "\n    The column \"" <|
  .call b!"R" [.path .TagError] <|
  .text "\" referenced in \"" <|
  .call b!"R" [.path .FieldDefinition] <|
  .text "\" has no matching field in \"" <|
  .call b!"R" [.path .RelDefinition] <|
  .text "\" type.\n    " <|
  .call b!"Wb" [.lit "HINT:"] <|
  .text " Columns referenced by the " <|
  .call b!"W" [.path .FieldTypeShort] <|
  .text " directive MUST have a matching field in the \"" <|
  .call b!"W" [.lit "rel"] <|
  .text "\" type. \n" <|
  .done

/-- The templates of the error codes. -/
def anTemplates : List (ECode × Tmpl AnPath) :=
  [(.badFieldTypeInt, anT_badFieldTypeInt),
   (.badFieldTypeStruct, anT_badFieldTypeStruct),
   (.badIterTypeInterface, anT_badIterTypeInterface),
   (.badIterTypeFunc, anT_badIterTypeFunc),
   (.badRelType, anT_badRelType),
   (.illegalQueryField, anT_illegalQueryField),
   (.illegalStructDirective, anT_illegalStructDirective),
   (.illegalIteratorField, anT_illegalIteratorField),
   (.conflictingRelTag, anT_conflictingRelTag),
   (.conflictingRelAlias, anT_conflictingRelAlias),
   (.conflictingRelName, anT_conflictingRelName),
   (.conflictingWhere, anT_conflictingWhere),
   (.conflictingOnConflictTarget, anT_conflictingOnConflictTarget),
   (.conflictingOnConflictAction, anT_conflictingOnConflictAction),
   (.conflictingResultTarget, anT_conflictingResultTarget),
   (.conflictingRelationDirective, anT_conflictingRelationDirective),
   (.conflictingFieldOrDirective, anT_conflictingFieldOrDirective),
   (.conflictingFilterConstructor, anT_conflictingFilterConstructor),
   (.missingRelField, anT_missingRelField),
   (.missingTagValue, anT_missingTagValue),
   (.missingTagColumnList, anT_missingTagColumnList),
   (.missingOnConflictTarget, anT_missingOnConflictTarget),
   (.missingFilterConstructor, anT_missingFilterConstructor),
   (.badIdentTagValue, anT_badIdentTagValue),
   (.badColIdTagValue, anT_badColIdTagValue),
   (.badRelIdTagValue, anT_badRelIdTagValue),
   (.badBoolTagValue, anT_badBoolTagValue),
   (.badUIntegerTagValue, anT_badUIntegerTagValue),
   (.badNullsOrderTagValue, anT_badNullsOrderTagValue),
   (.badOverrideTagValue, anT_badOverrideTagValue),
   (.badDirectiveBooleanExpr, anT_badDirectiveBooleanExpr),
   (.badBetweenPredicate, anT_badBetweenPredicate),
   (.badJoinConditionLHS, anT_badJoinConditionLHS),
   (.illegalSliceUpdateModifier, anT_illegalSliceUpdateModifier),
   (.illegalListPredicate, anT_illegalListPredicate),
   (.illegalUnaryPredicate, anT_illegalUnaryPredicate),
   (.illegalFieldQuantifier, anT_illegalFieldQuantifier),
   (.illegalPredicateQuantifier, anT_illegalPredicateQuantifier),
   (.unknownColumnQualifier, anT_unknownColumnQualifier),
   (.columnFieldUnknown, anT_columnFieldUnknown)]

end Verif.Errors
