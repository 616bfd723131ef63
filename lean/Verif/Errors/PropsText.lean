import Verif.Errors.PropsCases

/-
C79, fifth part: whole messages.
-/
namespace Verif.Errors
open Verif.Analysis Verif.Postgres

/-- A field of a where struct. -/
def sampleField (code : ECode) : AnErr :=
  { code := code, pkgPath := b!"ex.com/app", targetName := b!"UpdateUsers", blockName := b!"Where"
    relField := b!"Users", relBaseName := b!"User", relBasePkgPath := b!"ex.com/app/m"
    relBasePkgName := b!"m", fieldType := b!"ex.com/app.Name", fieldName := b!"Name"
    tagString := b!"sql:\"name = any\"", tag := [(b!"sql", [b!"name = any"])]
    tagExpr := b!"name = any", tagError := b!"any", fileName := b!"q.go", fileLine := 31 }
/-- A directive. -/
def sampleDirective (code : ECode) : AnErr :=
  { code := code, pkgPath := b!"ex.com/app", targetName := b!"SelectUsers", relField := b!"Users"
    relBaseName := b!"User", relBasePkgPath := b!"ex.com/app", relBasePkgName := b!"app"
    fieldType := b!"github.com/frk/gosql.Column", fieldName := b!"_"
    tagString := b!"sql:\"a isnull any\"", tagExpr := b!"a isnull any", tagError := b!"any"
    fileName := b!"q.go", fileLine := 5 }

def sampleType : PgType := { oid := 25, nameFmt := b!"text", category := 'S' }
def sampleInt : PgType := { oid := 23, nameFmt := b!"integer", category := 'N' }
def sampleColumn (name : Bytes) (t : PgType) : Column :=
  { num := 1, name := name, type := t, rel := { name := b!"users" } }
/-- An environment with everything set. -/
def sampleEnv : ErrEnv :=
  { db := { name := b!"test", dsn := b!"postgres:///test", searchPath := b!"public" }
    target := { pkg := b!"ex.com/app", name := b!"SelectUsers", file := { name := b!"t.go", line := 3 } }
    relRef := fun rid => { name := rid.name, schema := b!"public" }
    field := some { name := b!"Lo", type := b!"[]string", tag := b!"sql:\"x\""
                    file := { name := b!"a.go", line := 9 } }
    wbField := some { name := b!"Age", type := b!"struct{}", tag := b!"sql:\"u.age between\""
                      file := { name := b!"a.go", line := 8 } } }
def sampleCond : FieldConditional :=
  { fieldName := b!"Lo", fieldType := .leaf { kind := .string }
    colIdent := { qualifier := b!"u", name := b!"age" }
    column := sampleColumn b!"age" sampleInt, pred := some .isGTE }

/-- Messages of package analysis. -/
def sample_text_analysis : List (AnErr × Bytes) :=
  [((sampleField .illegalPredicateQuantifier),
    b!"\x1b[1;97mq.go:31\x1b[0m: \x1b[0;93mIllegal predicate quantifier.\x1b[0m\n    The use of a \x1b[3;97mpredicate_quantifier\x1b[0m with a \x1b[4;97mnon-quantifiable\x1b[0m predicate is illegal (\x1b[0;91many\x1b[0m in \"\x1b[0;91mname = any\x1b[0m\" from the field \x1b[0;91mName Name `sql:\"name = any\"`\x1b[0m in \x1b[0;97mUpdateUsers\x1b[0m).\n    \x1b[1;97mFIX:\x1b[0m Remove the \x1b[3;97mpredicate_quantifier\x1b[0m \x1b[0;91many\x1b[0m from the expression \"\x1b[0;91mname = any\x1b[0m\", or change the \x1b[4;97mnon-quantifiable\x1b[0m predicate \x1b[0;91m=\x1b[0m to a \x1b[4;97mquantifiable\x1b[0m one.\n    "),
   ((sampleDirective .illegalPredicateQuantifier),
    b!"\x1b[1;97mq.go:5\x1b[0m: \x1b[0;93mIllegal predicate quantifier.\x1b[0m\n    The use of a \x1b[3;97mpredicate_quantifier\x1b[0m in a directive's \x1b[3;97munary_expression\x1b[0m is illegal (\x1b[0;91many\x1b[0m in \"\x1b[0;91ma isnull any\x1b[0m\" from the directive \x1b[0;91m_ gosql.Column `sql:\"a isnull any\"`\x1b[0m in \x1b[0;97mSelectUsers\x1b[0m).\n    \x1b[1;97mFIX:\x1b[0m Remove the \x1b[3;97mpredicate_quantifier\x1b[0m \x1b[0;91many\x1b[0m from the expression \"\x1b[0;91ma isnull any\x1b[0m\".\n    "),
   ((sampleField .columnFieldUnknown),
    b!"\x1b[1;97mq.go:31\x1b[0m: \x1b[0;93mColumn has no matching field.\x1b[0m\n    The column \"\x1b[0;91many\x1b[0m\" referenced in \"\x1b[0;91mName Name `sql:\"name = any\"`\x1b[0m\" has no matching field in \"\x1b[0;91mUsers m.User\x1b[0m\" type.\n    \x1b[1;97mHINT:\x1b[0m Columns referenced by the \x1b[0;97mName\x1b[0m directive MUST have a matching field in the \"\x1b[0;97mrel\x1b[0m\" type. \n"),
   ((sampleDirective .columnFieldUnknown),
    b!"\x1b[1;97mq.go:5\x1b[0m: \x1b[0;93mColumn has no matching field.\x1b[0m\n    The column \"\x1b[0;91many\x1b[0m\" referenced in \"\x1b[0;91m_ gosql.Column `sql:\"a isnull any\"`\x1b[0m\" has no matching field in \"\x1b[0;91mUsers User\x1b[0m\" type.\n    \x1b[1;97mHINT:\x1b[0m Columns referenced by the \x1b[0;97mgosql.Column\x1b[0m directive MUST have a matching field in the \"\x1b[0;97mrel\x1b[0m\" type. \n"),
   ((sampleField .illegalSliceUpdateModifier),
    b!"\x1b[1;97mq.go:31\x1b[0m: \x1b[0;93mIllegal slice update modifier.\x1b[0m\n    The \x1b[0;91mUpdateXxx\x1b[0m query types with a \"rel\" field of \x1b[1;97mslice\x1b[0m type \x1b[4;97mDO NOT\x1b[0m support \x1b[0;91mName Name `sql:\"name = any\"`\x1b[0m fields.\n    \x1b[1;97mFIX:\x1b[0m remove the \x1b[0;91mName Name `sql:\"name = any\"`\x1b[0m field from the \x1b[1;97mUpdateUsers\x1b[0m query type.\n"),
   ((sampleDirective .illegalUnaryPredicate),
    b!"\x1b[1;97mq.go:5\x1b[0m: \x1b[0;93mIllegal unary predicate.\x1b[0m\n    The use of a \x1b[3;97munary_predicate\x1b[0m in a \x1b[3;97mbinary_expression\x1b[0m is illegal (\x1b[0;91many\x1b[0m in \"\x1b[0;91ma isnull any\x1b[0m\" from the directive \x1b[0;91m_ gosql.Column `sql:\"a isnull any\"`\x1b[0m in \x1b[0;97mSelectUsers\x1b[0m).\n    \x1b[1;97mFIX:\x1b[0m Change the \x1b[3;97mbinary_expression\x1b[0m \"\x1b[0;91ma isnull any\x1b[0m\" to a valid \x1b[3;97munary_expression\x1b[0m, or replace the \x1b[3;97munary_predicate\x1b[0m \x1b[0;91many\x1b[0m with a \x1b[3;97mbinary_predicate\x1b[0m.\n    "),
   ((sampleField .badDirectiveBooleanExpr),
    b!"\x1b[1;97mq.go:31\x1b[0m: \x1b[0;93mBad boolean_expression in directive.\x1b[0m\n    The expression \"\x1b[0;91many\x1b[0m\" in \x1b[0;91mName Name `sql:\"name = any\"`\x1b[0m from \x1b[0;97mUpdateUsers\x1b[0m.\x1b[1;97mWhere\x1b[0m is an invalid \x1b[3;97mboolean_expression\x1b[0m for a directive.\n    \x1b[1;97mHINT:\x1b[0m A valid \x1b[3;97mboolean_expression\x1b[0m in a directive MUST be a \x1b[4;97mcomplete\x1b[0m binary or unary expression.\n"),
   ((sampleField .badIdentTagValue),
    b!"\x1b[1;97mq.go:31\x1b[0m: \x1b[0;93mBad identifier value in tag.\x1b[0m\n    The \"sql\" tag value \x1b[0;91mname = any\x1b[0m in \x1b[0;91mName Name `sql:\"name = any\"`\x1b[0m from \x1b[1;97mUpdateUsers\x1b[0m is an invalid \x1b[3;97midentifier\x1b[0m.\n    \x1b[1;97mHINT:\x1b[0m A valid \x1b[3;97midentifier\x1b[0m MUST begin with a letter (a-z [case insensitive]) or an underscore (_), subsequent characters in the \x1b[3;97midentifier\x1b[0m can be letters, underscores, and digits (0-9). Put another way, a valid \x1b[3;97midentifier\x1b[0m MUST match the following regular expression: \x1b[0;92m^[A-Za-z_]\\w*$\x1b[0m\n"),
   ((sampleField .badJoinConditionLHS),
    b!"\x1b[1;97mq.go:31\x1b[0m: \x1b[0;93mBad join_condition LHS.\x1b[0m\n    The LHS \"\x1b[0;91many\x1b[0m\" of the \"\x1b[0;91mname = any\x1b[0m\" expression in \x1b[0;91m`sql:\"name = any\"`\x1b[0m is not allowed. \n    \x1b[1;97mHINT:\x1b[0m The \x1b[1;97mLHS\x1b[0m of a \x1b[3;97mjoin_condition\x1b[0m expression MUST refer to a column of the relation being joined.\n"),
   (({ sampleField .illegalQueryField with fieldType := b!"struct{ A int }", targetName := b!"insertX", tagString := [] }),
    b!"\x1b[1;97mq.go:31\x1b[0m: \x1b[0;93mIllegal field.\x1b[0m\n    The \x1b[1;97mInsertXxx\x1b[0m query types \x1b[4;97mDO NOT\x1b[0m support the \x1b[0;91mName struct{ ... }\x1b[0m field.\n    \x1b[1;97mFIX:\x1b[0m Remove the \x1b[0;91mName struct{ ... }\x1b[0m field from the \x1b[1;97minsertX\x1b[0m query type.\n")]
theorem C79_text_analysis : sample_text_analysis.all (fun x => x.1.message = some x.2) = true := by decide +kernel

/-- Messages of package postgres. -/
def sample_text_postgres : List (DbError × Bytes) :=
  [((complete sampleEnv userChecker (siteField sampleEnv sampleCond .betweenFieldComparison)),
    b!"\x1b[1;97ma.go:9\x1b[0m: \x1b[0;93mBad column field between comparison.\x1b[0m\n    The operator \"\x1b[0;91m[]string >= integer\x1b[0m\" represented by \"\x1b[0;91mAge struct { ... Lo []string `sql:\"x\"` ... } `sql:\"u.age between\"`\x1b[0m\" does not exist.\n    - column \"\x1b[0;91mu.age\x1b[0m\" is of type \"\x1b[0;91minteger\x1b[0m\".\n    - field \"\x1b[0;91mLo\x1b[0m\" is of type \"\x1b[0;91m[]string\x1b[0m\".\n"),
   ((complete sampleEnv userChecker (siteCompare sampleEnv { qualifier := b!"u", name := b!"age" } (sampleColumn b!"age" sampleInt) (.column { name := b!"name" }) (some (sampleColumn b!"name" sampleType)) (some sampleType) (some .isEQ) none .columnComparison)),
    b!"\x1b[1;97ma.go:9\x1b[0m: \x1b[0;93mBad column comparison.\x1b[0m\n    The operator \"\x1b[0;91minteger = text\x1b[0m\" referenced in \"\x1b[0;91mLo []string `sql:\"x\"`\x1b[0m\" does not exist.\n    - column \"\x1b[0;91mu.age\x1b[0m\" is of type \"\x1b[0;91minteger\x1b[0m\".\n    - column \"\x1b[0;91mname\x1b[0m\" is of type \"\x1b[0;91mtext\x1b[0m\".\n    "),
   ((complete sampleEnv userChecker (siteCompare sampleEnv { qualifier := b!"u", name := b!"age" } (sampleColumn b!"age" sampleInt) (.literal b!"'x'") none (some sampleType) (some .isEQ) (some .any) .predicateOperandQuantifier)),
    b!"\x1b[1;97ma.go:9\x1b[0m: \x1b[0;93mBad operand type in quantified predicate.\x1b[0m\n    The predicate \"\x1b[0;91mu.age =any 'x'\x1b[0m\" used in \"\x1b[0;91mLo []string `sql:\"x\"`\x1b[0m\" is not valid.\n    - the expression \"\x1b[0;91m'x'\x1b[0m\" on the right side is of type \x1b[3;97mtext\x1b[0m.\n    - the quantifier \x1b[0;91many\x1b[0m requires an \x1b[3;97marray\x1b[0m on the right side.\n    "),
   ((complete sampleEnv userChecker (siteBetween sampleEnv { qualifier := b!"u", name := b!"age" } (sampleColumn b!"age" sampleInt) { qualifier := b!"u", name := b!"name" } (some (sampleColumn b!"name" sampleType)) .isLTE)),
    b!"\x1b[1;97ma.go:9\x1b[0m: \x1b[0;93mBad column between comparison.\x1b[0m\n    The operator \"\x1b[0;91minteger <= text\x1b[0m\" represented by \"\x1b[0;91mAge struct { ... Lo []string `sql:\"x\"` ... } `sql:\"u.age between\"`\x1b[0m\" does not exist.\n    - column \"\x1b[0;91mu.age\x1b[0m\" is of type \"\x1b[0;91minteger\x1b[0m\".\n    - column \"\x1b[0;91mu.name\x1b[0m\" is of type \"\x1b[0;91mtext\x1b[0m\".\n"),
   ((complete sampleEnv userChecker (siteUnary sampleEnv { qualifier := b!"u", name := b!"age" } (sampleColumn b!"age" sampleInt) .isTrue .predicateOperandBool)),
    b!"\x1b[1;97ma.go:9\x1b[0m: \x1b[0;93mBad operand type in boolean predicate.\x1b[0m\n    The predicate \"\x1b[0;91mu.age istrue\x1b[0m\" used in \"\x1b[0;91mLo []string `sql:\"x\"`\x1b[0m\" is not valid.\n    - the column \"\x1b[0;91mu.age\x1b[0m\" is of type \x1b[3;97minteger\x1b[0m.\n    - the operator \x1b[0;91mistrue\x1b[0m requires a \x1b[3;97mboolean\x1b[0m operand.\n"),
   ((complete sampleEnv userChecker (siteLiteral sampleEnv { qualifier := b!"u", name := b!"age" } (sampleColumn b!"age" sampleInt) b!"''" (some .isEQ) none .predicateLiteralExpr)),
    b!"\x1b[1;97ma.go:9\x1b[0m: \x1b[0;93mBad literal expression.\x1b[0m\n    The literal expression \"\x1b[0;91m''\x1b[0m\" used in \"\x1b[0;91mLo []string `sql:\"x\"`\x1b[0m\" is not valid.\n"),
   ((complete sampleEnv userChecker (siteColumn sampleEnv userRel { qualifier := b!"u", name := b!"age" } (sampleColumn b!"age" sampleInt) .columnDefaultUnset)),
    b!"\x1b[1;97ma.go:9\x1b[0m: \x1b[0;93mColumn DEFAULT not set.\x1b[0m\n    The column \"\x1b[0;91mu.age\x1b[0m\" referenced in \"\x1b[0;91mLo []string `sql:\"x\"`\x1b[0m\" has no \x1b[1;97mDEFAULT\x1b[0m constraint.\n    - a column referenced together with the \"\x1b[0;97mdefault\x1b[0m\" option in the tag MUST have a \x1b[1;97mDEFAULT\x1b[0m constraint.\n    "),
   ((complete { sampleEnv with field := some { name := b!"_", type := b!"github.com/frk/gosql.Default", tag := b!"sql:\"u.age\"" } } userChecker (siteColumn sampleEnv userRel { qualifier := b!"u", name := b!"age" } (sampleColumn b!"age" sampleInt) .columnDefaultUnset)),
    b!"\x1b[1;97m:0\x1b[0m: \x1b[0;93mColumn DEFAULT not set.\x1b[0m\n    The column \"\x1b[0;91mu.age\x1b[0m\" referenced in \"\x1b[0;91m_ gosql.Default `sql:\"u.age\"`\x1b[0m\" has no \x1b[1;97mDEFAULT\x1b[0m constraint.\n    - a column referenced by a \x1b[0;97mgosql.Default\x1b[0m directive MUST have a \x1b[1;97mDEFAULT\x1b[0m constraint.\n    "),
   ((complete sampleEnv userChecker (siteField sampleEnv { sampleCond with func := b!"lower" } .procedureUnknown)),
    b!"\x1b[1;97ma.go:9\x1b[0m: \x1b[0;93mProcedure not found.\x1b[0m\n    No function with the name \"\x1b[0;91mlower\x1b[0m\" and argument type \"\x1b[0;91minteger\x1b[0m\" as referenced in \"\x1b[0;91mLo []string `sql:\"x\"`\x1b[0m\"\n    exists in the database \"\x1b[0;97mtest\x1b[0m\" (search_path: \x1b[1;97mpublic\x1b[0m).\n"),
   ((complete sampleEnv userChecker (siteNoRelation { name := b!"usrs", qualifier := b!"s" })),
    b!"\x1b[1;97ma.go:9\x1b[0m: \x1b[0;93mUnknown relation.\x1b[0m\n    The relation \"\x1b[0;91ms.usrs\x1b[0m\" referenced in \"\x1b[0;91mLo []string `sql:\"x\"`\x1b[0m\" does not exist.\n    - database: \x1b[0;97mtest\x1b[0m (dsn \"\x1b[0;97mpostgres:///test\x1b[0m\")\n    - target type: \x1b[0;97mSelectUsers\x1b[0m (source \"\x1b[0;97mt.go:3\x1b[0m\")\n"),
   ((complete sampleEnv userChecker (siteConflict sampleEnv userRel .onConflictIndexColumnsUnknown)),
    b!"\x1b[1;97ma.go:9\x1b[0m: \x1b[0;93mColumn index not found.\x1b[0m\n    The columns \"\x1b[0;91m\x1b[0m\" referenced by \"\x1b[0;91mLo []string `sql:\"x\"`\x1b[0m\" do not match an existing index.\n    - directive \"\x1b[0;97m[]string\x1b[0m\" requires the column(s) that match those of an index present on the target relation \"\x1b[0;97musers\x1b[0m\".\n"),
   ((complete sampleEnv userChecker (siteNoColumn sampleEnv userRel { name := b!"users", alias := b!"u" } { qualifier := b!"u", name := b!"x" })),
    b!"\x1b[1;97ma.go:9\x1b[0m: \x1b[0;93mColumn not found.\x1b[0m\n    The column \"\x1b[0;91mu.x\x1b[0m\" referenced in \"\x1b[0;91mLo []string `sql:\"x\"`\x1b[0m\" does not exist in the relation \"\x1b[0;91musers\x1b[0m\".\n    - database: \x1b[0;97mtest\x1b[0m (dsn \"\x1b[0;97mpostgres:///test\x1b[0m\")\n    - relation: \x1b[0;97musers\x1b[0m (schema \"\x1b[0;97mpublic\x1b[0m\")\n    - target type: \x1b[0;97mSelectUsers\x1b[0m (source \"\x1b[0;97mt.go:3\x1b[0m\")\n")]
theorem C79_text_postgres : sample_text_postgres.all (fun x => x.1.message = some x.2) = true := by decide +kernel

end Verif.Errors
