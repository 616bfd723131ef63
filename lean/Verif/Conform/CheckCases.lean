import Verif.Conform.Types
import Verif.Postgres.Types

/-
The query and filter structs of the tests of the checker (/repo/internal/postgres/postgres_test.go).

This file is written by /verif/tools/conform.py; do not edit it by hand.
-/
namespace Verif.Conform
open Verif.Analysis Verif.Postgres

/-- internal/testdata/postgres_ok.go:13 -/
def check0 : List (FieldHdr × Ty) := [
    fld b!"Columns" (.struct (.ofList [
    fld b!"A" (.basic .int b!"int") [(b!"sql", [b!"col_a"])],
    fld b!"B" (.basic .string b!"string") [(b!"sql", [b!"col_b"])],
    fld b!"C" (.basic .bool b!"bool") [(b!"sql", [b!"col_c"])],
    fld b!"D" (.basic .float64 b!"float64") [(b!"sql", [b!"col_d"])],
    fld b!"E" time_Time [(b!"sql", [b!"col_e"])]])) [(b!"rel", [b!"column_tests_1"])]]

/-- internal/testdata/postgres_ok.go:23 -/
def check1 : List (FieldHdr × Ty) := [
    fld b!"Rel" t_CT3 [(b!"rel", [b!"column_tests_3"])],
    fld b!"Where" (.struct (.ofList [
    fld b!"SomeTime" c_MyTime [(b!"sql", [b!"some_time <"])]]))]

/-- internal/testdata/postgres_ok.go:30 -/
def check2 : List (FieldHdr × Ty) := [
    fld b!"Rel" (.slice (.ptr t_CT3)) [(b!"rel", [b!"column_tests_3"])]]

/-- internal/testdata/postgres_ok.go:34 -/
def check3 : List (FieldHdr × Ty) := [
    fld b!"Rel" t_CT3b [(b!"rel", [b!"column_tests_3"])],
    fld b!"Where" (.struct (.ofList [
    fld b!"SomeTime" c_MyTime [(b!"sql", [b!"some_time <"])]]))]

/-- internal/testdata/postgres_ok.go:41 -/
def check4 : List (FieldHdr × Ty) := [
    fld b!"Rel" (.slice (.ptr t_CT3b)) [(b!"rel", [b!"column_tests_3"])]]

/-- internal/testdata/postgres_ok.go:45 -/
def check5 : List (FieldHdr × Ty) := [
    fld b!"Rel" t_CT4 [(b!"rel", [b!"column_tests_4"])]]

/-- internal/testdata/postgres_ok.go:49 -/
def check6 : List (FieldHdr × Ty) := [
    fld b!"Rel" (.ptr t_CT4) [(b!"rel", [b!"column_tests_4"])]]

/-- internal/testdata/postgres_ok.go:53 -/
def check7 : List (FieldHdr × Ty) := [
    fld b!"Rel" (.slice (.ptr t_CT4)) [(b!"rel", [b!"column_tests_4"])]]

/-- internal/testdata/postgres_ok.go:57 -/
def check8 : List (FieldHdr × Ty) := [
    fld b!"Columns" t_CT1 [(b!"rel", [b!"column_tests_1:a"])],
    fld b!"Join" (.struct (.ofList [
    low b!"_" g_LeftJoin [(b!"sql", [b!"column_tests_2:b"])]])),
    fld b!"Where" (.struct (.ofList [
    low b!"_" g_Column [(b!"sql", [b!"b.col_baz isnull"])]]))]

/-- internal/testdata/postgres_bad.go:11 -/
def check9 : List (FieldHdr × Ty) := [
    fld b!"Columns" t_CT1 [(b!"rel", [b!"norel"])]]

/-- internal/testdata/postgres_bad.go:16 -/
def check10 : List (FieldHdr × Ty) := [
    fld b!"Rel" t_CT1 [(b!"rel", [b!"column_tests_1:a"])],
    fld b!"Using" (.struct (.ofList [
    low b!"_" g_Relation [(b!"sql", [b!"norel:b"])]])),
    fld b!"Where" (.struct (.ofList [
    low b!"_" g_Column [(b!"sql", [b!"a.col_a = b.col_a"])]]))]

/-- internal/testdata/postgres_bad.go:27 -/
def check11 : List (FieldHdr × Ty) := [
    fld b!"Rel" t_CT1 [(b!"rel", [b!"column_tests_1:a"])],
    fld b!"Using" (.struct (.ofList [
    low b!"_" g_Relation [(b!"sql", [b!"column_tests_2:b"])],
    low b!"_" g_LeftJoin [(b!"sql", [b!"norel:c", b!"c.b_id = b.id"])]])),
    fld b!"Where" (.struct (.ofList [
    low b!"_" g_Column [(b!"sql", [b!"a.col_a = b.col_foo"])]]))]

/-- internal/testdata/postgres_bad.go:39 -/
def check12 : List (FieldHdr × Ty) := [
    fld b!"Columns" t_CT1 [(b!"rel", [b!"column_tests_1:a"])],
    fld b!"Join" (.struct (.ofList [
    low b!"_" g_LeftJoin [(b!"sql", [b!"column_tests_2:b", b!"b.nocol = a.nocol"])]]))]

/-- internal/testdata/postgres_bad.go:47 -/
def check13 : List (FieldHdr × Ty) := [
    fld b!"Columns" t_CT1 [(b!"rel", [b!"column_tests_1:a"])],
    fld b!"Join" (.struct (.ofList [
    low b!"_" g_LeftJoin [(b!"sql", [b!"column_tests_2:b", b!"b.col_foo = a.nocol"])]]))]

/-- internal/testdata/postgres_bad.go:55 -/
def check14 : List (FieldHdr × Ty) := [
    fld b!"Columns" t_CT1 [(b!"rel", [b!"column_tests_1:a"])],
    fld b!"Join" (.struct (.ofList [
    low b!"_" g_LeftJoin [(b!"sql", [b!"column_tests_2:b", b!"b.col_foo istrue"])]]))]

/-- internal/testdata/postgres_bad.go:63 -/
def check15 : List (FieldHdr × Ty) := [
    fld b!"Columns" t_CT1 [(b!"rel", [b!"column_tests_1:a"])],
    fld b!"Join" (.struct (.ofList [
    low b!"_" g_LeftJoin [(b!"sql", [b!"column_tests_2:b", b!"b.col_baz isnull"])]]))]

/-- internal/testdata/postgres_bad.go:71 -/
def check16 : List (FieldHdr × Ty) := [
    fld b!"Columns" t_CT1 [(b!"rel", [b!"column_tests_1:a"])],
    fld b!"Join" (.struct (.ofList [
    low b!"_" g_LeftJoin [(b!"sql", [b!"column_tests_2:b", b!"b.col_baz = 'foo'bar "])]]))]

/-- internal/testdata/postgres_bad.go:79 -/
def check17 : List (FieldHdr × Ty) := [
    fld b!"Columns" t_CT1 [(b!"rel", [b!"column_tests_1:a"])],
    fld b!"Join" (.struct (.ofList [
    low b!"_" g_LeftJoin [(b!"sql", [b!"column_tests_2:b", b!"b.col_foo >any a.col_a"])]]))]

/-- internal/testdata/postgres_bad.go:87 -/
def check18 : List (FieldHdr × Ty) := [
    fld b!"Columns" t_CT1 [(b!"rel", [b!"column_tests_1:a"])],
    fld b!"Join" (.struct (.ofList [
    low b!"_" g_LeftJoin [(b!"sql", [b!"column_tests_2:b", b!"b.col_baz < 'baz'"])]]))]

/-- internal/testdata/postgres_bad.go:95 -/
def check19 : List (FieldHdr × Ty) := [
    fld b!"Rel" t_CT1 [(b!"rel", [b!"column_tests_1:c"])],
    fld b!"OnConflict" (.struct (.ofList [
    low b!"_" g_Column [(b!"sql", [b!"c.col_xyz"])]]))]

/-- internal/testdata/postgres_bad.go:103 -/
def check20 : List (FieldHdr × Ty) := [
    fld b!"Rel" t_CT1 [(b!"rel", [b!"column_tests_1:c"])],
    fld b!"OnConflict" (.struct (.ofList [
    low b!"_" g_Column [(b!"sql", [b!"c.col_a", b!"c.col_b"])]]))]

/-- internal/testdata/postgres_bad.go:111 -/
def check21 : List (FieldHdr × Ty) := [
    fld b!"Rel" t_CT1 [(b!"rel", [b!"column_tests_1:c"])],
    fld b!"OnConflict" (.struct (.ofList [
    low b!"_" g_Index [(b!"sql", [b!"some_index"])]]))]

/-- internal/testdata/postgres_bad.go:119 -/
def check22 : List (FieldHdr × Ty) := [
    fld b!"Rel" t_CT2 [(b!"rel", [b!"column_tests_2:c"])],
    fld b!"OnConflict" (.struct (.ofList [
    low b!"_" g_Index [(b!"sql", [b!"column_tests_2_nonunique_index"])]]))]

/-- internal/testdata/postgres_bad.go:127 -/
def check23 : List (FieldHdr × Ty) := [
    fld b!"Rel" t_CT1 [(b!"rel", [b!"column_tests_1:c"])],
    fld b!"OnConflict" (.struct (.ofList [
    low b!"_" g_Constraint [(b!"sql", [b!"some_constraint"])]]))]

/-- internal/testdata/postgres_bad.go:135 -/
def check24 : List (FieldHdr × Ty) := [
    fld b!"Rel" t_CT2 [(b!"rel", [b!"column_tests_2:c"])],
    fld b!"OnConflict" (.struct (.ofList [
    low b!"_" g_Constraint [(b!"sql", [b!"column_tests_2_nonunique_constraint"])]]))]

/-- internal/testdata/postgres_bad.go:143 -/
def check25 : List (FieldHdr × Ty) := [
    fld b!"Rel" t_CT2 [(b!"rel", [b!"column_tests_2:c"])],
    fld b!"OnConflict" (.struct (.ofList [
    low b!"_" g_Constraint [(b!"sql", [b!"column_tests_2_unique_constraint"])],
    low b!"_" g_Update [(b!"sql", [b!"c.col_a", b!"c.col_b", b!"c.col_xyz"])]]))]

/-- internal/testdata/postgres_bad.go:152 -/
def check26 : List (FieldHdr × Ty) := [
    fld b!"Rel" t_CT1 [(b!"rel", [b!"column_tests_1:c"])],
    fld b!"Where" (.struct (.ofList [
    fld b!"Id" (.basic .int b!"int") [(b!"sql", [b!"c.id"])]]))]

/-- internal/testdata/postgres_bad.go:160 -/
def check27 : List (FieldHdr × Ty) := [
    fld b!"Rel" t_CT1 [(b!"rel", [b!"column_tests_1:c"])],
    fld b!"Where" (.struct (.ofList [
    fld b!"D" (.basic .float64 b!"float64") [(b!"sql", [b!"c.col_e ~"])]]))]

/-- internal/testdata/postgres_bad.go:168 -/
def check28 : List (FieldHdr × Ty) := [
    fld b!"Rel" t_CT1 [(b!"rel", [b!"column_tests_1:c"])],
    fld b!"Where" (.struct (.ofList [
    fld b!"D" (.basic .float64 b!"float64") [(b!"sql", [b!"c.col_d", b!"@lower"])]]))]

/-- internal/testdata/postgres_bad.go:176 -/
def check29 : List (FieldHdr × Ty) := [
    fld b!"Rel" t_CT1 [(b!"rel", [b!"column_tests_1:c"])],
    fld b!"Where" (.struct (.ofList [
    low b!"_" g_Column [(b!"sql", [b!"c.col_xyz istrue"])]]))]

/-- internal/testdata/postgres_bad.go:184 -/
def check30 : List (FieldHdr × Ty) := [
    fld b!"Rel" t_CT1 [(b!"rel", [b!"column_tests_1:c"])],
    fld b!"Where" (.struct (.ofList [
    low b!"_" g_Column [(b!"sql", [b!"c.col_a istrue"])]]))]

/-- internal/testdata/postgres_bad.go:200 -/
def check31 : List (FieldHdr × Ty) := [
    fld b!"Rel" t_CT1 [(b!"rel", [b!"column_tests_1:c"])],
    fld b!"Where" (.struct (.ofList [
    low b!"_" g_Column [(b!"sql", [b!"c.col_a = c.col_xyz"])]]))]

/-- internal/testdata/postgres_bad.go:208 -/
def check32 : List (FieldHdr × Ty) := [
    fld b!"Rel" t_CT1 [(b!"rel", [b!"column_tests_1:c"])],
    fld b!"Where" (.struct (.ofList [
    low b!"_" g_Column [(b!"sql", [b!"c.col_a = 123abc"])]]))]

/-- internal/testdata/postgres_bad.go:216 -/
def check33 : List (FieldHdr × Ty) := [
    fld b!"Rel" t_CT1 [(b!"rel", [b!"column_tests_1:c"])],
    fld b!"Where" (.struct (.ofList [
    low b!"_" g_Column [(b!"sql", [b!"c.col_a isin c.col_b"])]]))]

/-- internal/testdata/postgres_bad.go:224 -/
def check34 : List (FieldHdr × Ty) := [
    fld b!"Rel" t_CT1 [(b!"rel", [b!"column_tests_1:c"])],
    fld b!"Where" (.struct (.ofList [
    low b!"_" g_Column [(b!"sql", [b!"c.col_a = c.col_b"])]]))]

/-- internal/testdata/postgres_bad.go:232 -/
def check35 : List (FieldHdr × Ty) := [
    fld b!"Rel" t_CT1 [(b!"rel", [b!"column_tests_1:c"])],
    fld b!"Where" (.struct (.ofList [
    low b!"a" (.struct (.ofList [
    low b!"_" g_Column [(b!"sql", [b!"c.col_a", b!"x"])],
    low b!"_" g_Column [(b!"sql", [b!"c.col_c", b!"y"])]])) [(b!"sql", [b!"c.col_xyz isbetween"])]]))]

/-- internal/testdata/postgres_bad.go:243 -/
def check36 : List (FieldHdr × Ty) := [
    fld b!"Rel" t_CT1 [(b!"rel", [b!"column_tests_1:c"])],
    fld b!"Where" (.struct (.ofList [
    low b!"a" (.struct (.ofList [
    low b!"_" g_Column [(b!"sql", [b!"c.col_xyz", b!"x"])],
    low b!"_" g_Column [(b!"sql", [b!"c.col_c", b!"y"])]])) [(b!"sql", [b!"c.col_a isbetween"])]]))]

/-- internal/testdata/postgres_bad.go:254 -/
def check37 : List (FieldHdr × Ty) := [
    fld b!"Rel" t_CT1 [(b!"rel", [b!"column_tests_1:c"])],
    fld b!"Where" (.struct (.ofList [
    low b!"a" (.struct (.ofList [
    low b!"x" (.basic .int b!"int") [(b!"sql", [b!"x"])],
    low b!"y" (.basic .bool b!"bool") [(b!"sql", [b!"y"])]])) [(b!"sql", [b!"c.col_a isbetween"])]]))]

/-- internal/testdata/postgres_bad.go:265 -/
def check38 : List (FieldHdr × Ty) := [
    fld b!"Rel" t_CT1 [(b!"rel", [b!"column_tests_1:c"])],
    low b!"_" g_OrderBy [(b!"sql", [b!"c.col_a", b!"c.col_xyz"])]]

/-- internal/testdata/postgres_bad.go:271 -/
def check39 : List (FieldHdr × Ty) := [
    fld b!"Rel" t_CT1 [(b!"rel", [b!"column_tests_1:c"])],
    low b!"_" g_Default [(b!"sql", [b!"c.col_xyz"])]]

/-- internal/testdata/postgres_bad.go:277 -/
def check40 : List (FieldHdr × Ty) := [
    fld b!"Rel" t_CT1 [(b!"rel", [b!"column_tests_1:c"])],
    low b!"_" g_Default [(b!"sql", [b!"c.col_b"])]]

/-- internal/testdata/postgres_bad.go:283 -/
def check41 : List (FieldHdr × Ty) := [
    fld b!"Rel" t_CT1_bad [(b!"rel", [b!"column_tests_1:c"])],
    low b!"_" g_Return [(b!"sql", [b!"c.col_xyz"])]]

/-- internal/testdata/postgres_bad.go:289 -/
def check42 : List (FieldHdr × Ty) := [
    low b!"_" t_CT1 [(b!"rel", [b!"column_tests_1:c"])],
    low b!"_" g_TextSearch [(b!"sql", [b!"c.col_xyz"])],
    emb b!"FilterMaker" c_FilterMaker]

/-- internal/testdata/postgres_bad.go:296 -/
def check43 : List (FieldHdr × Ty) := [
    low b!"_" t_CT1 [(b!"rel", [b!"column_tests_1:c"])],
    low b!"_" g_TextSearch [(b!"sql", [b!"c.col_b"])],
    emb b!"FilterMaker" c_FilterMaker]

/-- internal/testdata/postgres_bad.go:303 -/
def check44 : List (FieldHdr × Ty) := [
    fld b!"Rel" (.struct (.ofList [
    fld b!"Xyz" (.basic .string b!"string") [(b!"sql", [b!"col_xyz"])]])) [(b!"rel", [b!"column_tests_1:c"])]]

/-- internal/testdata/postgres_bad.go:310 -/
def check45 : List (FieldHdr × Ty) := [
    fld b!"Rel" (.struct (.ofList [
    fld b!"XYZ" (.basic .string b!"string") [(b!"sql", [b!"col_xyz"])]])) [(b!"rel", [b!"column_tests_1:c"])]]

/-- internal/testdata/postgres_bad.go:331 -/
def check46 : List (FieldHdr × Ty) := [
    fld b!"Rel" (.struct (.ofList [
    fld b!"B" (.basic .int b!"int") [(b!"sql", [b!"col_c"])]])) [(b!"rel", [b!"column_tests_1:c"])]]

/-- internal/testdata/postgres_bad.go:338 -/
def check47 : List (FieldHdr × Ty) := [
    fld b!"Rel" t_CT1 [(b!"rel", [b!"column_tests_1:c"])],
    fld b!"Result" (.struct (.ofList [
    fld b!"A" (.basic .int b!"int") [(b!"sql", [b!"col_xyz"])]]))]

/-- internal/testdata/postgres_bad.go:346 -/
def check48 : List (FieldHdr × Ty) := [
    fld b!"Columns" t_CT1 [(b!"rel", [b!"noschema.column_tests_1:c"])]]

/-- internal/testdata/postgres_bad.go:351 -/
def check49 : List (FieldHdr × Ty) := [
    fld b!"Rel" t_CT1_bad [(b!"rel", [b!"column_tests_1:c"])]]

/-- internal/testdata/postgres_bad.go:356 -/
def check50 : List (FieldHdr × Ty) := [
    low b!"_" (.struct (.ofList [
    fld b!"Metadata" (.func { params := 0, results := 0, errResult := false } .chan) [(b!"sql", [b!"metadata2"])]])) [(b!"rel", [b!"test_user:c"])],
    emb b!"FilterMaker" c_FilterMaker]

/-- internal/testdata/postgres_bad.go:364 -/
def check51 : List (FieldHdr × Ty) := [
    low b!"_" (.struct (.ofList [
    fld b!"Envelope" .chan [(b!"sql", [b!"envelope"])]])) [(b!"rel", [b!"test_user:c"])],
    emb b!"FilterMaker" c_FilterMaker]

/-- internal/testdata/postgres_bad.go:372 -/
def check52 : List (FieldHdr × Ty) := [
    low b!"_" (.struct (.ofList [
    fld b!"Lines" (.basic .float64 b!"float64") [(b!"sql", [b!"col_linearr"])]])) [(b!"rel", [b!"pgsql_test:t"])],
    emb b!"FilterMaker" c_FilterMaker]

/-- internal/testdata/postgres_bad.go:380 -/
def check53 : List (FieldHdr × Ty) := [
    fld b!"Rel" t_CT1 [(b!"rel", [b!"column_tests_1:c"])],
    fld b!"Where" (.struct (.ofList [
    low b!"_" g_Column [(b!"sql", [b!"c.col_a notin 'foo bar'"])]]))]

/-- internal/testdata/postgres_bad.go:388 -/
def check54 : List (FieldHdr × Ty) := [
    fld b!"Rel" t_CT1 [(b!"rel", [b!"column_tests_1:c"])],
    fld b!"Where" (.struct (.ofList [
    fld b!"D" (.basic .float64 b!"float64") [(b!"sql", [b!"c.col_d", b!"@unknown_func"])]]))]

/-- internal/testdata/postgres_bad.go:396 -/
def check55 : List (FieldHdr × Ty) := [
    fld b!"Rel" (.struct (.ofList [
    fld b!"B" (.basic .string b!"string") [(b!"sql", [b!"col_b", b!"default"])]])) [(b!"rel", [b!"column_tests_1:c"])]]

/-- internal/testdata/postgres_bad.go:403 -/
def check56 : List (FieldHdr × Ty) := [
    fld b!"Rel" (.struct (.ofList [
    fld b!"B" (.basic .int b!"int") [(b!"sql", [b!"col_c"])]])) [(b!"rel", [b!"column_tests_1:c"])]]

/-- internal/testdata/postgres_bad.go:410 -/
def check57 : List (FieldHdr × Ty) := [
    fld b!"Rel" (.struct (.ofList [
    fld b!"Envelope" .chan [(b!"sql", [b!"envelope"])]])) [(b!"rel", [b!"test_user:c"])]]

/-- internal/testdata/postgres_bad.go:417 -/
def check58 : List (FieldHdr × Ty) := [
    fld b!"Rel" (.struct (.ofList [
    fld b!"Lines" (.basic .float64 b!"float64") [(b!"sql", [b!"col_linearr"])]])) [(b!"rel", [b!"pgsql_test:t"])]]

/-- internal/testdata/postgres_bad.go:424 -/
def check59 : List (FieldHdr × Ty) := [
    fld b!"Rel" t_CT1 [(b!"rel", [b!"column_tests_1:c"])],
    fld b!"Where" (.struct (.ofList [
    low b!"a" (.struct (.ofList [
    low b!"_" g_Column [(b!"sql", [b!"c.col_d", b!"x"])],
    low b!"_" g_Column [(b!"sql", [b!"c.col_c", b!"y"])]])) [(b!"sql", [b!"c.col_a isbetween"])]]))]

/-- internal/testdata/postgres_bad.go:435 -/
def check60 : List (FieldHdr × Ty) := [
    fld b!"Rel" t_CT2 [(b!"rel", [b!"column_tests_2:c"])],
    fld b!"OnConflict" (.struct (.ofList [
    low b!"_" g_Column [(b!"sql", [b!"c.col_indkey1", b!"c.col_indkey2", b!"c.col_indkey3"])]]))]

/-- The query structs, with the expected error if one is expected. -/
def checkCases : List (Bytes × List (FieldHdr × Ty) × Option DbErr) := [
  (b!"SelectPostgresTestOK_Simple", check0, none),
  (b!"SelectPostgresTestOK_Enums", check1, none),
  (b!"InsertPostgresTestOK_Enums", check2, none),
  (b!"SelectPostgresTestOK_CustomTypePointer", check3, none),
  (b!"InsertPostgresTestOK_CustomTypePointer", check4, none),
  (b!"SelectPostgresTestOK_CompositeType", check5, none),
  (b!"SelectPostgresTestOK_CompositeTypePointer", check6, none),
  (b!"InsertPostgresTestOK_CompositeTypeSlice", check7, none),
  (b!"SelectPostgresTestOK_WhereJoinedUnaryNullColumn", check8, none),
  (b!"SelectPostgresTestBAD_NoRelation", check9, some .relationUnknown),
  (b!"DeletePostgresTestBAD_JoinNoRelation", check10, some .relationUnknown),
  (b!"DeletePostgresTestBAD_JoinNoRelation2", check11, some .relationUnknown),
  (b!"SelectPostgresTestBAD_JoinNoColumn", check12, some .columnUnknown),
  (b!"SelectPostgresTestBAD_JoinNoColumn2", check13, some .columnUnknown),
  (b!"SelectPostgresTestBAD_JoinBadUnaryBoolColumn", check14, some .predicateOperandBool),
  (b!"SelectPostgresTestBAD_JoinBadUnaryNullColumn", check15, some .predicateOperandNull),
  (b!"SelectPostgresTestBAD_JoinBadLiteralExpression", check16, some .predicateLiteralExpr),
  (b!"SelectPostgresTestBAD_JoinBadQuantifierColumnType", check17, some .predicateOperandQuantifier),
  (b!"SelectPostgresTestBAD_JoinBadComparisonOperandType", check18, some .columnComparison),
  (b!"InsertPostgresTestBAD_OnConflictNoColumn", check19, some .columnUnknown),
  (b!"InsertPostgresTestBAD_OnConflictColumnNoIndexMatch", check20, some .onConflictIndexColumnsUnknown),
  (b!"InsertPostgresTestBAD_OnConflictNoIndex", check21, some .onConflictIndexUnknown),
  (b!"InsertPostgresTestBAD_OnConflictNoUniqueIndex", check22, some .onConflictIndexNotUnique),
  (b!"InsertPostgresTestBAD_OnConflictNoConstraint", check23, some .onConflictConstraintUnknown),
  (b!"InsertPostgresTestBAD_OnConflictNoUniqueConstraint", check24, some .onConflictConstraintNotUnique),
  (b!"InsertPostgresTestBAD_OnConflictUpdateColumnNotFound", check25, some .columnUnknown),
  (b!"SelectPostgresTestBAD_WhereFieldColumnNotFound", check26, some .columnUnknown),
  (b!"SelectPostgresTestBAD_WhereCannotCompareTypes", check27, some .columnFieldComparison),
  (b!"SelectPostgresTestBAD_WhereColumnTypeForFuncname", check28, some .procedureUnknown),
  (b!"SelectPostgresTestBAD_WhereColumnNotFound", check29, some .columnUnknown),
  (b!"SelectPostgresTestBAD_WhereColumnBadBoolOp", check30, some .predicateOperandBool),
  (b!"SelectPostgresTestBAD_WhereColumnNotFoundRHS", check31, some .columnUnknown),
  (b!"SelectPostgresTestBAD_WhereColumnBadLiteralExpression", check32, some .predicateLiteralExpr),
  (b!"SelectPostgresTestBAD_WhereColumnBadTypeForQuantifier", check33, some .predicateOperandArray),
  (b!"SelectPostgresTestBAD_WhereColumnBadTypeComparison", check34, some .columnComparison),
  (b!"SelectPostgresTestBAD_WhereBetweenColumnNotFound", check35, some .columnUnknown),
  (b!"SelectPostgresTestBAD_WhereBetweenArgColumnNotFound", check36, some .columnUnknown),
  (b!"SelectPostgresTestBAD_WhereBetweenComparisonBadArgType", check37, some .betweenFieldComparison),
  (b!"SelectPostgresTestBAD_OrderByColumnNotFound", check38, some .columnUnknown),
  (b!"InsertPostgresTestBAD_DefaultColumnNotFound", check39, some .columnUnknown),
  (b!"InsertPostgresTestBAD_DefaultNotSet", check40, some .columnDefaultUnset),
  (b!"UpdatePostgresTestBAD_ReturnColumnNotFound", check41, some .columnUnknown),
  (b!"SelectPostgresTestBAD_RelationColumnNotFound", check44, some .columnUnknown),
  (b!"InsertPostgresTestBAD_RelationColumnNotFound", check45, some .columnUnknown),
  (b!"InsertPostgresTestBAD_BadFieldToColumnType", check46, some .columnFieldTypeWrite),
  (b!"InsertPostgresTestBAD_ResultColumnNotFound", check47, some .columnUnknown),
  (b!"SelectPostgresTestBAD_NoSchema", check48, some .relationUnknown),
  (b!"SelectPostgresTestBAD_RelationColumnNotFound2", check49, some .columnUnknown),
  (b!"SelectPostgresTestBAD_WhereLiteralBadTypeForQuantifier", check53, some .predicateOperandArray),
  (b!"SelectPostgresTestBAD_WhereUnknownFunc", check54, some .procedureUnknown),
  (b!"InsertPostgresTestBAD_DefaultOption", check55, some .columnDefaultUnset),
  (b!"SelectPostgresTestBAD_ColumnTypeToBadField", check56, some .columnFieldTypeRead),
  (b!"SelectPostgresTestBAD_ColumnTypeToBadField2", check57, some .columnFieldTypeRead),
  (b!"SelectPostgresTestBAD_ColumnTypeToBadField3", check58, some .columnFieldTypeRead),
  (b!"SelectPostgresTestBAD_BadBetweenColumnComparison", check59, some .betweenColumnComparison),
  (b!"InsertPostgresTestBAD_OnConflictIndexColumnsNotUnique", check60, some .onConflictIndexColumnsNotUnique)]

/-- The filter structs, with the expected error. -/
def fcheckCases : List (Bytes × List (FieldHdr × Ty) × Option DbErr) := [
  (b!"FilterPostgresTestBAD_TextSearchColumnNotFound", check42, some .columnUnknown),
  (b!"FilterPostgresTestBAD_TextSearchBadColumnType", check43, some .columnTextSearchType),
  (b!"FilterPostgresTestBAD_BadFieldWriteType", check50, some .columnFieldTypeWrite),
  (b!"FilterPostgresTestBAD_BadFieldWriteType2", check51, some .columnFieldTypeWrite),
  (b!"FilterPostgresTestBAD_BadFieldWriteType3", check52, some .columnFieldTypeWrite)]

end Verif.Conform
