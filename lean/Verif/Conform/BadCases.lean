import Verif.Conform.Types

/-
The query and filter structs that the analysis tests expect to be refused
(/repo/internal/analysis/analysis_test.go).

This file is written by /verif/tools/conform.py; do not edit it by hand.
-/
namespace Verif.Conform
open Verif.Analysis

/-- internal/testdata/analysis_bad.go:13 -/
def bad0 : List (FieldHdr × Ty) := [
    fld b!"User" (.ptr c_User)]

/-- internal/testdata/analysis_bad.go:18 -/
def bad1 : List (FieldHdr × Ty) := [
    fld b!"User" (.basic .string b!"string") [(b!"rel", [b!"users_table"])]]

/-- internal/testdata/analysis_bad.go:23 -/
def bad2 : List (FieldHdr × Ty) := [
    fld b!"Rel" t_T [(b!"rel", [b!"foo.123:bar"])]]

/-- internal/testdata/analysis_bad.go:28 -/
def bad3 : List (FieldHdr × Ty) := [
    fld b!"Rel1" t_T [(b!"rel", [b!"relation_a:a"])],
    fld b!"Rel2" t_T [(b!"rel", [b!""])]]

/-- internal/testdata/analysis_bad.go:34 -/
def bad4 : List (FieldHdr × Ty) := [
    fld b!"Count" (.basic .int b!"int") [(b!"rel", [b!"relation_a:a"])]]

/-- internal/testdata/analysis_bad.go:39 -/
def bad5 : List (FieldHdr × Ty) := [
    fld b!"Exists" (.basic .bool b!"bool") [(b!"rel", [b!"relation_a:a"])]]

/-- internal/testdata/analysis_bad.go:44 -/
def bad6 : List (FieldHdr × Ty) := [
    fld b!"NotExists" (.basic .bool b!"bool") [(b!"rel", [b!"relation_a:a"])]]

/-- internal/testdata/analysis_bad.go:49 -/
def bad7 : List (FieldHdr × Ty) := [
    low b!"_" g_Relation [(b!"rel", [b!"relation_a:a"])]]

/-- internal/testdata/analysis_bad.go:54 -/
def bad8 : List (FieldHdr × Ty) := [
    fld b!"Rel" (.slice (.ptr (.struct .nil))) [(b!"rel", [b!"relation_a:a"])]]

/-- internal/testdata/analysis_bad.go:59 -/
def bad9 : List (FieldHdr × Ty) := [
    fld b!"Rel" (.slice t_T) [(b!"rel", [b!"relation_a:a"])],
    low b!"_" g_All]

/-- internal/testdata/analysis_bad.go:65 -/
def bad10 : List (FieldHdr × Ty) := [
    fld b!"Rel" t_T [(b!"rel", [b!"relation_a:a"])],
    low b!"_" g_All]

/-- internal/testdata/analysis_bad.go:71 -/
def bad11 : List (FieldHdr × Ty) := [
    fld b!"Rel" t_T [(b!"rel", [b!"relation_a:a"])],
    fld b!"Where" (.struct (.ofList [
    fld b!"Id" (.basic .int b!"int") [(b!"sql", [b!"a.id"])]])),
    low b!"_" g_All]

/-- internal/testdata/analysis_bad.go:80 -/
def bad12 : List (FieldHdr × Ty) := [
    fld b!"Rel" t_T [(b!"rel", [b!"relation_a:a"])],
    low b!"_" g_Default [(b!"sql", [b!"*"])]]

/-- internal/testdata/analysis_bad.go:86 -/
def bad13 : List (FieldHdr × Ty) := [
    fld b!"Rel" t_T [(b!"rel", [b!"relation_a:a"])],
    low b!"_" g_Default]

/-- internal/testdata/analysis_bad.go:92 -/
def bad14 : List (FieldHdr × Ty) := [
    fld b!"Rel" t_T [(b!"rel", [b!"relation_a:a"])],
    low b!"_" g_Force [(b!"sql", [b!"*"])]]

/-- internal/testdata/analysis_bad.go:98 -/
def bad15 : List (FieldHdr × Ty) := [
    fld b!"Rel" t_T [(b!"rel", [b!"relation_a:a"])],
    low b!"_" g_Force [(b!"sql", [b!"a.id", b!"1234"])]]

/-- internal/testdata/analysis_bad.go:110 -/
def bad16 : List (FieldHdr × Ty) := [
    fld b!"Rel" t_T [(b!"rel", [b!"relation_a:a"])],
    low b!"_" g_Return [(b!"sql", [b!"*"])],
    low b!"_" g_Return [(b!"sql", [b!"a.id"])]]

/-- internal/testdata/analysis_bad.go:117 -/
def bad17 : List (FieldHdr × Ty) := [
    fld b!"Rel" t_T [(b!"rel", [b!"relation_a:a"])],
    low b!"_" g_Return]

/-- internal/testdata/analysis_bad.go:123 -/
def bad18 : List (FieldHdr × Ty) := [
    fld b!"Rel" t_T [(b!"rel", [b!"relation_a:a"])],
    low b!"_" g_Limit [(b!"sql", [b!"10"])]]

/-- internal/testdata/analysis_bad.go:129 -/
def bad19 : List (FieldHdr × Ty) := [
    fld b!"Rel" t_T [(b!"rel", [b!"relation_a:a"])],
    low b!"_" g_Offset [(b!"sql", [b!"2"])]]

/-- internal/testdata/analysis_bad.go:135 -/
def bad20 : List (FieldHdr × Ty) := [
    fld b!"Rel" t_T [(b!"rel", [b!"relation_a:a"])],
    low b!"_" g_OrderBy [(b!"sql", [b!"a.id"])]]

/-- internal/testdata/analysis_bad.go:141 -/
def bad21 : List (FieldHdr × Ty) := [
    fld b!"Rel" t_T [(b!"rel", [b!"relation_a:a"])],
    low b!"_" g_Override [(b!"sql", [b!"user"])]]

/-- internal/testdata/analysis_bad.go:147 -/
def bad22 : List (FieldHdr × Ty) := [
    fld b!"Rel" t_T [(b!"rel", [b!"relation_a:a"])],
    low b!"_" g_TextSearch [(b!"sql", [b!"a._document"])]]

/-- internal/testdata/analysis_bad.go:153 -/
def bad23 : List (FieldHdr × Ty) := [
    fld b!"Rel" t_T [(b!"rel", [b!"relation_a:a"])],
    low b!"_" g_Column [(b!"sql", [b!"a.id"])]]

/-- internal/testdata/analysis_bad.go:159 -/
def bad24 : List (FieldHdr × Ty) := [
    fld b!"Rel" t_T [(b!"rel", [b!"relation_a:a"])],
    fld b!"Where" (.struct (.ofList [
    fld b!"Id" (.basic .int b!"int") [(b!"sql", [b!"id"])]]))]

/-- internal/testdata/analysis_bad.go:167 -/
def bad25 : List (FieldHdr × Ty) := [
    fld b!"Rel" t_T [(b!"rel", [b!"relation_a:a"])],
    fld b!"Join" (.struct (.ofList [
    low b!"_" g_Relation]))]

/-- internal/testdata/analysis_bad.go:175 -/
def bad26 : List (FieldHdr × Ty) := [
    fld b!"Rel" t_T [(b!"rel", [b!"relation_a:a"])],
    fld b!"From" (.struct (.ofList [
    low b!"_" g_Relation]))]

/-- internal/testdata/analysis_bad.go:183 -/
def bad27 : List (FieldHdr × Ty) := [
    fld b!"Rel" t_T [(b!"rel", [b!"relation_a:a"])],
    fld b!"Using" (.struct (.ofList [
    low b!"_" g_Relation]))]

/-- internal/testdata/analysis_bad.go:191 -/
def bad28 : List (FieldHdr × Ty) := [
    fld b!"Rel" t_T [(b!"rel", [b!"relation_a:a"])],
    fld b!"OnConflict" (.struct .nil)]

/-- internal/testdata/analysis_bad.go:199 -/
def bad29 : List (FieldHdr × Ty) := [
    fld b!"Rel" t_T [(b!"rel", [b!"relation_a:a"])],
    fld b!"Result" t_T]

/-- internal/testdata/analysis_bad.go:205 -/
def bad30 : List (FieldHdr × Ty) := [
    fld b!"Rel" (.slice t_T) [(b!"rel", [b!"relation_a:a"])],
    low b!"_" g_Limit [(b!"sql", [b!"10"])],
    fld b!"Limit" (.basic .int b!"int")]

/-- internal/testdata/analysis_bad.go:212 -/
def bad31 : List (FieldHdr × Ty) := [
    fld b!"Rel" (.slice t_T) [(b!"rel", [b!"relation_a:a"])],
    fld b!"Offset" (.basic .int b!"int"),
    low b!"_" g_Offset [(b!"sql", [b!"2"])]]

/-- internal/testdata/analysis_bad.go:219 -/
def bad32 : List (FieldHdr × Ty) := [
    fld b!"Rel" (.slice t_T) [(b!"rel", [b!"relation_a:a"])],
    fld b!"RowsAffected" (.basic .int b!"int")]

/-- internal/testdata/analysis_bad.go:225 -/
def bad33 : List (FieldHdr × Ty) := [
    fld b!"Rel" (.slice t_T) [(b!"rel", [b!"relation_a:a"])],
    fld b!"F" g_Filter]

/-- internal/testdata/analysis_bad.go:231 -/
def bad34 : List (FieldHdr × Ty) := [
    fld b!"Rel" (.slice t_T) [(b!"rel", [b!"relation_a:a"])],
    fld b!"Where" (.struct (.ofList [
    fld b!"Id" (.basic .int b!"int") [(b!"sql", [b!"id"])]])),
    fld b!"F" g_Filter]

/-- internal/testdata/analysis_bad.go:240 -/
def bad35 : List (FieldHdr × Ty) := [
    fld b!"Rel" t_T [(b!"rel", [b!"relation_a:a"])],
    fld b!"ErrorHandler" t_myerrorhandler,
    low b!"erh" t_myerrorhandler]

/-- internal/testdata/analysis_bad.go:256 -/
def bad36 : List (FieldHdr × Ty) := [
    fld b!"Rel" t_badIterator [(b!"rel", [b!"relation_a:a"])]]

/-- internal/testdata/analysis_bad.go:261 -/
def bad37 : List (FieldHdr × Ty) := [
    fld b!"Rel" (.func { params := 1, results := 1, errResult := false } (.ptr c_User)) [(b!"rel", [b!"relation_a:a"])]]

/-- internal/testdata/analysis_bad.go:266 -/
def bad38 : List (FieldHdr × Ty) := [
    fld b!"Rel" t_badIterator2 [(b!"rel", [b!"relation_a:a"])]]

/-- internal/testdata/analysis_bad.go:271 -/
def bad39 : List (FieldHdr × Ty) := [
    fld b!"Rel" c_BadIterator [(b!"rel", [b!"relation_a:a"])]]

/-- internal/testdata/analysis_bad.go:276 -/
def bad40 : List (FieldHdr × Ty) := [
    fld b!"Rel" (.func { params := 1, results := 1, errResult := true } (.ptr (.struct .nil))) [(b!"rel", [b!"relation_a:a"])]]

/-- internal/testdata/analysis_bad.go:281 -/
def bad41 : List (FieldHdr × Ty) := [
    fld b!"Rel" (.func { params := 1, results := 1, errResult := true } (.ptr t_notstruct)) [(b!"rel", [b!"relation_a:a"])]]

/-- internal/testdata/analysis_bad.go:288 -/
def bad42 : List (FieldHdr × Ty) := [
    fld b!"Rel" (.slice (.ptr t_notstruct)) [(b!"rel", [b!"relation_a:a"])]]

/-- internal/testdata/analysis_bad.go:293 -/
def bad43 : List (FieldHdr × Ty) := [
    fld b!"Rel" (.struct (.ofList [
    fld b!"Foo" (.basic .string b!"string") [(b!"sql", [b!"1234"])]])) [(b!"rel", [b!"relation_a:a"])]]

/-- internal/testdata/analysis_bad.go:300 -/
def bad44 : List (FieldHdr × Ty) := [
    fld b!"Rel" t_T [(b!"rel", [b!"relation_a:a"])],
    low b!"_" g_All,
    fld b!"Where" (.struct (.ofList [
    fld b!"Id" (.basic .int b!"int") [(b!"sql", [b!"id"])]]))]

/-- internal/testdata/analysis_bad.go:309 -/
def bad45 : List (FieldHdr × Ty) := [
    fld b!"Rel" t_T [(b!"rel", [b!"relation_a:a"])],
    fld b!"Where" (.slice (.basic .string b!"string"))]

/-- internal/testdata/analysis_bad.go:315 -/
def bad46 : List (FieldHdr × Ty) := [
    fld b!"Rel" t_T [(b!"rel", [b!"relation_a:a"])],
    fld b!"Where" (.struct (.ofList [
    fld b!"Id" (.basic .int b!"int") [(b!"sql", [b!"id"])],
    fld b!"Name" (.basic .string b!"string") [(b!"bool", [b!"abc"]), (b!"sql", [b!"name"])]]))]

/-- internal/testdata/analysis_bad.go:324 -/
def bad47 : List (FieldHdr × Ty) := [
    fld b!"Rel" t_T [(b!"rel", [b!"relation_a:a"])],
    fld b!"Where" (.struct (.ofList [
    fld b!"Id" (.basic .int b!"int") [(b!"sql", [b!"id"])],
    fld b!"X" t_notstruct [(b!"sql", [b!">"])]]))]

/-- internal/testdata/analysis_bad.go:333 -/
def bad48 : List (FieldHdr × Ty) := [
    fld b!"Rel" t_T [(b!"rel", [b!"relation_a:a"])],
    fld b!"Where" (.struct (.ofList [
    low b!"_" g_Column [(b!"sql", [b!"123 = x"])]]))]

/-- internal/testdata/analysis_bad.go:341 -/
def bad49 : List (FieldHdr × Ty) := [
    fld b!"Rel" t_T [(b!"rel", [b!"relation_a:a"])],
    fld b!"Where" (.struct (.ofList [
    low b!"_" g_Column [(b!"sql", [b!"x isin any y"])]]))]

/-- internal/testdata/analysis_bad.go:349 -/
def bad50 : List (FieldHdr × Ty) := [
    fld b!"Rel" t_T [(b!"rel", [b!"relation_a:a"])],
    fld b!"Where" (.struct (.ofList [
    low b!"_" g_Column [(b!"sql", [b!"123 isnull"])]]))]

/-- internal/testdata/analysis_bad.go:357 -/
def bad51 : List (FieldHdr × Ty) := [
    fld b!"Rel" t_T [(b!"rel", [b!"relation_a:a"])],
    fld b!"Where" (.struct (.ofList [
    low b!"_" g_Column [(b!"sql", [b!"x <="])]]))]

/-- internal/testdata/analysis_bad.go:365 -/
def bad52 : List (FieldHdr × Ty) := [
    fld b!"Rel" t_T [(b!"rel", [b!"relation_a:a"])],
    fld b!"Where" (.struct (.ofList [
    low b!"_" g_Column [(b!"sql", [b!"x isnull any"])]]))]

/-- internal/testdata/analysis_bad.go:373 -/
def bad53 : List (FieldHdr × Ty) := [
    fld b!"Rel" t_T [(b!"rel", [b!"relation_a:a"])],
    fld b!"Where" (.struct (.ofList [
    low b!"between" t_notstruct [(b!"sql", [b!"a.foo isbetween"])]]))]

/-- internal/testdata/analysis_bad.go:381 -/
def bad54 : List (FieldHdr × Ty) := [
    fld b!"Rel" t_T [(b!"rel", [b!"relation_a:a"])],
    fld b!"Where" (.struct (.ofList [
    low b!"between" (.struct (.ofList [
    low b!"x" (.basic .int b!"int"),
    low b!"y" (.basic .int b!"int"),
    low b!"z" (.basic .int b!"int")])) [(b!"sql", [b!"a.foo isbetween"])]]))]

/-- internal/testdata/analysis_bad.go:391 -/
def bad55 : List (FieldHdr × Ty) := [
    fld b!"Rel" t_T [(b!"rel", [b!"relation_a:a"])],
    fld b!"Where" (.struct (.ofList [
    low b!"between" (.struct (.ofList [
    low b!"_" g_Column [(b!"sql", [b!"a.bar", b!"x"])],
    low b!"_" g_Column [(b!"sql", [b!"123", b!"y"])]])) [(b!"sql", [b!"a.foo isbetween"])]]))]

/-- internal/testdata/analysis_bad.go:402 -/
def bad56 : List (FieldHdr × Ty) := [
    fld b!"Rel" t_T [(b!"rel", [b!"relation_a:a"])],
    fld b!"Where" (.struct (.ofList [
    low b!"between" (.struct (.ofList [
    low b!"_" g_Column [(b!"sql", [b!"a.bar"])],
    low b!"_" g_Column [(b!"sql", [b!"a.baz", b!"y"])]])) [(b!"sql", [b!"a.foo isbetween"])]]))]

/-- internal/testdata/analysis_bad.go:413 -/
def bad57 : List (FieldHdr × Ty) := [
    fld b!"Rel" t_T [(b!"rel", [b!"relation_a:a"])],
    fld b!"Where" (.struct (.ofList [
    low b!"between" (.struct (.ofList [
    low b!"_" g_Column [(b!"sql", [b!"a.bar", b!"x"])],
    low b!"_" g_Column [(b!"sql", [b!"a.baz", b!"y"])]])) [(b!"sql", [b!"123 isbetween"])]]))]

/-- internal/testdata/analysis_bad.go:424 -/
def bad58 : List (FieldHdr × Ty) := [
    fld b!"Rel" t_T [(b!"rel", [b!"relation_a:a"])],
    fld b!"Where" (.struct (.ofList [
    fld b!"Id" (.basic .int b!"int") [(b!"sql", [b!"123"])]]))]

/-- internal/testdata/analysis_bad.go:432 -/
def bad59 : List (FieldHdr × Ty) := [
    fld b!"Rel" t_T [(b!"rel", [b!"relation_a:a"])],
    fld b!"Where" (.struct (.ofList [
    fld b!"Id" (.slice (.basic .int b!"int")) [(b!"sql", [b!"a.id notin any"])]]))]

/-- internal/testdata/analysis_bad.go:440 -/
def bad60 : List (FieldHdr × Ty) := [
    fld b!"Rel" t_T [(b!"rel", [b!"relation_a:a"])],
    fld b!"Where" (.struct (.ofList [
    fld b!"Id" (.basic .int b!"int") [(b!"sql", [b!"a.id istrue"])]]))]

/-- internal/testdata/analysis_bad.go:448 -/
def bad61 : List (FieldHdr × Ty) := [
    fld b!"Rel" t_T [(b!"rel", [b!"relation_a:a"])],
    fld b!"Where" (.struct (.ofList [
    fld b!"Id" (.basic .int b!"int") [(b!"sql", [b!"a.id = any"])]]))]

/-- internal/testdata/analysis_bad.go:456 -/
def bad62 : List (FieldHdr × Ty) := [
    fld b!"Rel" t_T [(b!"rel", [b!"relation_a:a"])],
    fld b!"Join" t_notstruct]

/-- internal/testdata/analysis_bad.go:462 -/
def bad63 : List (FieldHdr × Ty) := [
    fld b!"Rel" t_T [(b!"rel", [b!"relation_a:a"])],
    fld b!"Join" (.struct (.ofList [
    low b!"_" g_Relation [(b!"sql", [b!"foobar"])]]))]

/-- internal/testdata/analysis_bad.go:470 -/
def bad64 : List (FieldHdr × Ty) := [
    fld b!"Rel" t_T [(b!"rel", [b!"relation_a:a"])],
    fld b!"Using" (.struct (.ofList [
    low b!"_" g_Relation [(b!"sql", [b!"foo"])],
    low b!"_" g_Relation [(b!"sql", [b!"bar"])]]))]

/-- internal/testdata/analysis_bad.go:479 -/
def bad65 : List (FieldHdr × Ty) := [
    fld b!"Rel" t_T [(b!"rel", [b!"relation_a:a"])],
    fld b!"From" (.struct (.ofList [
    low b!"_" g_Relation [(b!"sql", [b!"123"])]]))]

/-- internal/testdata/analysis_bad.go:487 -/
def bad66 : List (FieldHdr × Ty) := [
    fld b!"Rel" t_T [(b!"rel", [b!"relation_a:a"])],
    fld b!"Join" (.struct (.ofList [
    low b!"_" g_LeftJoin [(b!"sql", [b!"123"])]]))]

/-- internal/testdata/analysis_bad.go:495 -/
def bad67 : List (FieldHdr × Ty) := [
    fld b!"Rel" t_T [(b!"rel", [b!"relation_a:a"])],
    fld b!"Join" (.struct (.ofList [
    low b!"_" g_LeftJoin [(b!"sql", [b!"relation_b:b", b!"123 = b.foo"])]]))]

/-- internal/testdata/analysis_bad.go:503 -/
def bad68 : List (FieldHdr × Ty) := [
    fld b!"Rel" t_T [(b!"rel", [b!"relation_a:a"])],
    fld b!"Join" (.struct (.ofList [
    low b!"_" g_LeftJoin [(b!"sql", [b!"relation_b:b", b!"b.foo ="])]]))]

/-- internal/testdata/analysis_bad.go:511 -/
def bad69 : List (FieldHdr × Ty) := [
    fld b!"Rel" t_T [(b!"rel", [b!"relation_a:a"])],
    fld b!"Join" (.struct (.ofList [
    low b!"_" g_LeftJoin [(b!"sql", [b!"relation_b:b", b!"b.foo isnull any"])]]))]

/-- internal/testdata/analysis_bad.go:519 -/
def bad70 : List (FieldHdr × Ty) := [
    fld b!"Rel" t_T [(b!"rel", [b!"relation_a:a"])],
    fld b!"Join" (.struct (.ofList [
    low b!"_" g_LeftJoin [(b!"sql", [b!"relation_b:b", b!"b.foo isin any a.bar"])]]))]

/-- internal/testdata/analysis_bad.go:527 -/
def bad71 : List (FieldHdr × Ty) := [
    fld b!"Rel" t_T [(b!"rel", [b!"relation_a:a"])],
    fld b!"Using" (.struct (.ofList [
    low b!"_" g_Column [(b!"sql", [b!"a.foo"])]]))]

/-- internal/testdata/analysis_bad.go:535 -/
def bad72 : List (FieldHdr × Ty) := [
    fld b!"Rel" t_T [(b!"rel", [b!"relation_a:a"])],
    fld b!"OnConflict" t_notstruct]

/-- internal/testdata/analysis_bad.go:541 -/
def bad73 : List (FieldHdr × Ty) := [
    fld b!"Rel" t_T [(b!"rel", [b!"relation_a:a"])],
    fld b!"OnConflict" (.struct (.ofList [
    low b!"_" g_Index [(b!"sql", [b!"some_index"])],
    low b!"_" g_Column [(b!"sql", [b!"a.id"])]]))]

/-- internal/testdata/analysis_bad.go:550 -/
def bad74 : List (FieldHdr × Ty) := [
    fld b!"Rel" t_T [(b!"rel", [b!"relation_a:a"])],
    fld b!"OnConflict" (.struct (.ofList [
    low b!"_" g_Column [(b!"sql", [b!"a.id"])],
    low b!"_" g_Index [(b!"sql", [b!"some_index"])]]))]

/-- internal/testdata/analysis_bad.go:559 -/
def bad75 : List (FieldHdr × Ty) := [
    fld b!"Rel" t_T [(b!"rel", [b!"relation_a:a"])],
    fld b!"OnConflict" (.struct (.ofList [
    low b!"_" g_Index [(b!"sql", [b!"some_index"])],
    low b!"_" g_Constraint [(b!"sql", [b!"some_constraint"])]]))]

/-- internal/testdata/analysis_bad.go:568 -/
def bad76 : List (FieldHdr × Ty) := [
    fld b!"Rel" t_T [(b!"rel", [b!"relation_a:a"])],
    fld b!"OnConflict" (.struct (.ofList [
    low b!"_" g_Column [(b!"sql", [b!"a.id"])],
    low b!"_" g_Update [(b!"sql", [b!"a.foo"])],
    low b!"_" g_Ignore]))]

/-- internal/testdata/analysis_bad.go:578 -/
def bad77 : List (FieldHdr × Ty) := [
    fld b!"Rel" t_T [(b!"rel", [b!"relation_a:a"])],
    fld b!"OnConflict" (.struct (.ofList [
    low b!"_" g_Column [(b!"sql", [b!"a.id"])],
    low b!"_" g_Ignore,
    low b!"_" g_Update [(b!"sql", [b!"a.foo"])]]))]

/-- internal/testdata/analysis_bad.go:588 -/
def bad78 : List (FieldHdr × Ty) := [
    fld b!"Rel" t_T [(b!"rel", [b!"relation_a:a"])],
    fld b!"OnConflict" (.struct (.ofList [
    low b!"_" g_Column [(b!"sql", [b!"a.id", b!"a.1234"])]]))]

/-- internal/testdata/analysis_bad.go:596 -/
def bad79 : List (FieldHdr × Ty) := [
    fld b!"Rel" t_T [(b!"rel", [b!"relation_a:a"])],
    fld b!"OnConflict" (.struct (.ofList [
    low b!"_" g_Index [(b!"sql", [b!"1234"])]]))]

/-- internal/testdata/analysis_bad.go:604 -/
def bad80 : List (FieldHdr × Ty) := [
    fld b!"Rel" t_T [(b!"rel", [b!"relation_a:a"])],
    fld b!"OnConflict" (.struct (.ofList [
    low b!"_" g_Constraint [(b!"sql", [b!"1234"])]]))]

/-- internal/testdata/analysis_bad.go:612 -/
def bad81 : List (FieldHdr × Ty) := [
    fld b!"Rel" t_T [(b!"rel", [b!"relation_a:a"])],
    fld b!"OnConflict" (.struct (.ofList [
    low b!"_" g_Column [(b!"sql", [b!"a.id"])],
    low b!"_" g_Update [(b!"sql", [b!"a.id", b!"a.1234"])]]))]

/-- internal/testdata/analysis_bad.go:621 -/
def bad82 : List (FieldHdr × Ty) := [
    fld b!"Rel" t_T [(b!"rel", [b!"relation_a:a"])],
    fld b!"OnConflict" (.struct (.ofList [
    low b!"_" g_LeftJoin [(b!"sql", [b!"relation_b:b", b!"b.id=a.id"])]]))]

/-- internal/testdata/analysis_bad.go:629 -/
def bad83 : List (FieldHdr × Ty) := [
    fld b!"Rel" t_T [(b!"rel", [b!"relation_a:a"])],
    fld b!"OnConflict" (.struct (.ofList [
    low b!"_" g_Update [(b!"sql", [b!"a.foo", b!"a.bar"])]]))]

/-- internal/testdata/analysis_bad.go:637 -/
def bad84 : List (FieldHdr × Ty) := [
    fld b!"Rel" (.slice t_T) [(b!"rel", [b!"relation_a:a"])],
    fld b!"Limit" (.basic .string b!"string") [(b!"sql", [b!"123"])]]

/-- internal/testdata/analysis_bad.go:643 -/
def bad85 : List (FieldHdr × Ty) := [
    fld b!"Rel" (.slice t_T) [(b!"rel", [b!"relation_a:a"])],
    low b!"_" g_Limit [(b!"sql", [b!""])]]

/-- internal/testdata/analysis_bad.go:649 -/
def bad86 : List (FieldHdr × Ty) := [
    fld b!"Rel" (.slice t_T) [(b!"rel", [b!"relation_a:a"])],
    low b!"_" g_Limit [(b!"sql", [b!"abc"])]]

/-- internal/testdata/analysis_bad.go:655 -/
def bad87 : List (FieldHdr × Ty) := [
    fld b!"Rel" (.slice t_T) [(b!"rel", [b!"relation_a:a"])],
    fld b!"Offset" (.basic .string b!"string") [(b!"sql", [b!"123"])]]

/-- internal/testdata/analysis_bad.go:661 -/
def bad88 : List (FieldHdr × Ty) := [
    fld b!"Rel" (.slice t_T) [(b!"rel", [b!"relation_a:a"])],
    low b!"_" g_Offset [(b!"sql", [b!""])]]

/-- internal/testdata/analysis_bad.go:667 -/
def bad89 : List (FieldHdr × Ty) := [
    fld b!"Rel" (.slice t_T) [(b!"rel", [b!"relation_a:a"])],
    low b!"_" g_Offset [(b!"sql", [b!"abc"])]]

/-- internal/testdata/analysis_bad.go:673 -/
def bad90 : List (FieldHdr × Ty) := [
    fld b!"Rel" (.slice t_T) [(b!"rel", [b!"relation_a:a"])],
    low b!"_" g_OrderBy]

/-- internal/testdata/analysis_bad.go:679 -/
def bad91 : List (FieldHdr × Ty) := [
    fld b!"Rel" (.slice t_T) [(b!"rel", [b!"relation_a:a"])],
    low b!"_" g_OrderBy [(b!"sql", [b!"a.id:nullsthird"])]]

/-- internal/testdata/analysis_bad.go:685 -/
def bad92 : List (FieldHdr × Ty) := [
    fld b!"Rel" (.slice t_T) [(b!"rel", [b!"relation_a:a"])],
    low b!"_" g_OrderBy [(b!"sql", [b!"-a.id:nullsfirst", b!"a.1234"])]]

/-- internal/testdata/analysis_bad.go:691 -/
def bad93 : List (FieldHdr × Ty) := [
    fld b!"Rel" (.slice t_T) [(b!"rel", [b!"relation_a:a"])],
    low b!"_" g_Override [(b!"sql", [b!"foo"])]]

/-- internal/testdata/analysis_bad.go:697 -/
def bad94 : List (FieldHdr × Ty) := [
    fld b!"Rel" t_T [(b!"rel", [b!"relation_a:a"])],
    low b!"_" g_Return [(b!"sql", [b!"*"])],
    fld b!"Result" (.slice t_T)]

/-- internal/testdata/analysis_bad.go:704 -/
def bad95 : List (FieldHdr × Ty) := [
    fld b!"Rel" t_T [(b!"rel", [b!"relation_a:a"])],
    fld b!"Result" (.slice t_notstruct)]

/-- internal/testdata/analysis_bad.go:710 -/
def bad96 : List (FieldHdr × Ty) := [
    fld b!"Rel" t_T [(b!"rel", [b!"relation_a:a"])],
    fld b!"Result" (.slice t_T),
    fld b!"RowsAffected" (.basic .int b!"int")]

/-- internal/testdata/analysis_bad.go:717 -/
def bad97 : List (FieldHdr × Ty) := [
    fld b!"Rel" t_T [(b!"rel", [b!"relation_a:a"])],
    fld b!"RowsAffected" (.basic .string b!"string")]

/-- internal/testdata/analysis_bad.go:729 -/
def bad98 : List (FieldHdr × Ty) := [
    fld b!"Rel" (.slice t_T) [(b!"rel", [b!"relation_a:a"])],
    low b!"_" g_All]

/-- internal/testdata/analysis_bad.go:735 -/
def bad99 : List (FieldHdr × Ty) := [
    fld b!"Rel" (.slice t_T) [(b!"rel", [b!"relation_a:a"])],
    fld b!"Where" (.struct (.ofList [
    fld b!"Name" (.basic .string b!"string") [(b!"sql", [b!"name"])]]))]

/-- internal/testdata/analysis_bad.go:743 -/
def bad100 : List (FieldHdr × Ty) := [
    fld b!"Rel" (.slice t_T) [(b!"rel", [b!"relation_a:a"])],
    fld b!"F" g_Filter]

/-- internal/testdata/analysis_bad.go:749 -/
def bad101 : List (FieldHdr × Ty) := [
    fld b!"Rel" t_T [(b!"rel", [b!"relation_a:a"])],
    fld b!"Where" (.struct (.ofList [
    low b!"_" g_Column [(b!"sql", [b!"a.id isfalse a.foo"])]]))]

/-- internal/testdata/analysis_bad.go:757 -/
def bad102 : List (FieldHdr × Ty) := [
    fld b!"Rel" t_T [(b!"rel", [b!"relation_a:a"])],
    fld b!"Join" (.struct (.ofList [
    low b!"_" g_LeftJoin [(b!"sql", [b!"relation_b:b", b!"b.foo istrue a.bar"])]]))]

/-- internal/testdata/analysis_bad.go:765 -/
def bad103 : List (FieldHdr × Ty) := [
    fld b!"Rel" t_T [(b!"rel", [b!"relation_a"])],
    fld b!"Where" (.struct (.ofList [
    low b!"a" (.basic .int b!"int") [(b!"sql", [b!"column_a isin"])]]))]

/-- internal/testdata/analysis_bad.go:773 -/
def bad104 : List (FieldHdr × Ty) := [
    fld b!"Rel" t_T [(b!"rel", [b!"relation_a"])],
    fld b!"Using" (.struct (.ofList [
    low b!"_" g_Relation [(b!"sql", [b!"relation_d:d"])],
    low b!"_" g_LeftJoin [(b!"sql", [b!"relation_a", b!"id = d.a_id"])]])),
    fld b!"Where" (.struct (.ofList [
    low b!"_" g_Column [(b!"sql", [b!"a.id = d.a_id"])]]))]

/-- internal/testdata/analysis_bad.go:785 -/
def bad105 : List (FieldHdr × Ty) := [
    fld b!"Rel" t_T [(b!"rel", [b!"relation_a:a"])],
    fld b!"Using" (.struct (.ofList [
    low b!"_" g_Relation [(b!"sql", [b!"relation_b:b"])],
    low b!"_" g_LeftJoin [(b!"sql", [b!"relation_c:a", b!"a.id = b.c_id"])]])),
    fld b!"Where" (.struct (.ofList [
    low b!"_" g_Column [(b!"sql", [b!"a.id = b.a_id"])]]))]

/-- internal/testdata/analysis_bad.go:809 -/
def bad106 : List (FieldHdr × Ty) := [
    fld b!"Join" (.struct (.ofList [
    low b!"_" g_LeftJoin [(b!"sql", [b!"relation_a", b!"relation_a.foo istrue"])]])),
    fld b!"Rel" t_T [(b!"rel", [b!"relation_a"])]]

/-- internal/testdata/analysis_bad.go:817 -/
def bad107 : List (FieldHdr × Ty) := [
    fld b!"Join" (.struct (.ofList [
    low b!"_" g_LeftJoin [(b!"sql", [b!"relation_b:a", b!"a.foo istrue"])]])),
    fld b!"Rel" t_T [(b!"rel", [b!"relation_a:a"])]]

/-- internal/testdata/analysis_bad.go:825 -/
def bad108 : List (FieldHdr × Ty) := [
    fld b!"Rel" t_T [(b!"rel", [b!"relation_a"])],
    fld b!"From" (.struct (.ofList [
    low b!"_" g_Relation [(b!"sql", [b!"relation_a"])],
    low b!"_" g_LeftJoin [(b!"sql", [b!"relation_d:d", b!"d.id = relation_a.d_id"])]])),
    fld b!"Where" (.struct (.ofList [
    fld b!"Value" (.basic .string b!"string") [(b!"sql", [b!"d.col_value"])]]))]

/-- internal/testdata/analysis_bad.go:837 -/
def bad109 : List (FieldHdr × Ty) := [
    fld b!"Rel" t_T [(b!"rel", [b!"relation_a:a"])],
    fld b!"From" (.struct (.ofList [
    low b!"_" g_Relation [(b!"sql", [b!"relation_b:a"])],
    low b!"_" g_LeftJoin [(b!"sql", [b!"relation_c:c", b!"c.id = a.c_id"])]])),
    fld b!"Where" (.struct (.ofList [
    fld b!"Value" (.basic .string b!"string") [(b!"sql", [b!"c.col_value"])]]))]

/-- internal/testdata/analysis_bad.go:849 -/
def bad110 : List (FieldHdr × Ty) := [
    fld b!"Rel" t_T [(b!"rel", [b!"relation_a:a"])],
    fld b!"Join" (.struct (.ofList [
    low b!"_" g_LeftJoin [(b!"sql", [b!"relation_b:b", b!"b.id = c.b_id"])]]))]

/-- internal/testdata/analysis_bad.go:857 -/
def bad111 : List (FieldHdr × Ty) := [
    fld b!"Rel" t_T [(b!"rel", [b!"relation_a"])],
    fld b!"Join" (.struct (.ofList [
    low b!"_" g_LeftJoin [(b!"sql", [b!"relation_b", b!"relation_b.id = relation_c.b_id"])]]))]

/-- internal/testdata/analysis_bad.go:871 -/
def bad112 : List (FieldHdr × Ty) := [
    fld b!"Rel" t_CT1 [(b!"rel", [b!"column_tests_1:c"])],
    low b!"_" g_Return [(b!"sql", [b!"x.col_a"])]]

/-- internal/testdata/analysis_bad.go:877 -/
def bad113 : List (FieldHdr × Ty) := [
    fld b!"Columns" t_CT1 [(b!"rel", [b!"column_tests_1:a"])],
    fld b!"Join" (.struct (.ofList [
    low b!"_" g_LeftJoin [(b!"sql", [b!"column_tests_2:b", b!"x.col_foo = a.col_a"])]]))]

/-- internal/testdata/analysis_bad.go:885 -/
def bad114 : List (FieldHdr × Ty) := [
    fld b!"Columns" t_CT1 [(b!"rel", [b!"column_tests_1:a"])],
    fld b!"Join" (.struct (.ofList [
    low b!"_" g_LeftJoin [(b!"sql", [b!"column_tests_2:b", b!"b.col_foo = x.col_a"])]]))]

/-- internal/testdata/analysis_bad.go:893 -/
def bad115 : List (FieldHdr × Ty) := [
    fld b!"Rel" t_CT1 [(b!"rel", [b!"column_tests_1:c"])],
    low b!"_" g_Force [(b!"sql", [b!"x.col_a"])]]

/-- internal/testdata/analysis_bad.go:899 -/
def bad116 : List (FieldHdr × Ty) := [
    fld b!"Rel" t_CT1 [(b!"rel", [b!"column_tests_1:c"])],
    fld b!"Where" (.struct (.ofList [
    fld b!"Id" (.basic .int b!"int") [(b!"sql", [b!"x.id"])]]))]

/-- internal/testdata/analysis_bad.go:907 -/
def bad117 : List (FieldHdr × Ty) := [
    fld b!"Rel" t_CT1 [(b!"rel", [b!"column_tests_1:c"])],
    fld b!"Where" (.struct (.ofList [
    low b!"_" g_Column [(b!"sql", [b!"x.col_a = 123"])]]))]

/-- internal/testdata/analysis_bad.go:915 -/
def bad118 : List (FieldHdr × Ty) := [
    fld b!"Rel" t_CT1 [(b!"rel", [b!"column_tests_1:c"])],
    fld b!"Where" (.struct (.ofList [
    low b!"_" g_Column [(b!"sql", [b!"c.col_a = x.col_a"])]]))]

/-- internal/testdata/analysis_bad.go:923 -/
def bad119 : List (FieldHdr × Ty) := [
    fld b!"Rel" t_CT1 [(b!"rel", [b!"column_tests_1:c"])],
    low b!"_" g_OrderBy [(b!"sql", [b!"x.col_a"])]]

/-- internal/testdata/analysis_bad.go:929 -/
def bad120 : List (FieldHdr × Ty) := [
    fld b!"Rel" t_CT1 [(b!"rel", [b!"column_tests_1:c"])],
    fld b!"Where" (.struct (.ofList [
    low b!"a" (.struct (.ofList [
    low b!"_" g_Column [(b!"sql", [b!"c.col_b", b!"x"])],
    low b!"_" g_Column [(b!"sql", [b!"c.col_c", b!"y"])]])) [(b!"sql", [b!"x.col_a isbetween"])]]))]

/-- internal/testdata/analysis_bad.go:940 -/
def bad121 : List (FieldHdr × Ty) := [
    fld b!"Rel" t_CT1 [(b!"rel", [b!"column_tests_1:c"])],
    fld b!"Where" (.struct (.ofList [
    low b!"a" (.struct (.ofList [
    low b!"_" g_Column [(b!"sql", [b!"x.col_b", b!"x"])],
    low b!"_" g_Column [(b!"sql", [b!"c.col_c", b!"y"])]])) [(b!"sql", [b!"c.col_a isbetween"])]]))]

/-- internal/testdata/analysis_bad.go:951 -/
def bad122 : List (FieldHdr × Ty) := [
    fld b!"Rel" t_CT1 [(b!"rel", [b!"column_tests_1:c"])],
    low b!"_" g_Default [(b!"sql", [b!"x.col_b"])]]

/-- internal/testdata/analysis_bad.go:957 -/
def bad123 : List (FieldHdr × Ty) := [
    fld b!"Columns" t_CT1 [(b!"rel", [b!"column_tests_1:a"])],
    fld b!"Join" (.struct (.ofList [
    low b!"_" g_LeftJoin [(b!"sql", [b!"column_tests_2:b", b!"a.col_b = b.col_bar"])]]))]

/-- internal/testdata/analysis_bad.go:965 -/
def bad124 : List (FieldHdr × Ty) := [
    fld b!"Rel" t_T2 [(b!"rel", [b!"relation_a:a"])],
    low b!"_" g_Return [(b!"sql", [b!"a.foo", b!"a.bar", b!"a.baz", b!"a.quux"])]]

/-- internal/testdata/analysis_bad.go:971 -/
def bad125 : List (FieldHdr × Ty) := [
    fld b!"Rel" t_T2 [(b!"rel", [b!"relation_a:a"])],
    low b!"_" g_Force [(b!"sql", [b!"a.foo", b!"a.bar", b!"a.baz", b!"a.quux"])]]

/-- internal/testdata/analysis_bad.go:977 -/
def bad126 : List (FieldHdr × Ty) := [
    emb b!"Context" context_Context,
    fld b!"Rel" (.slice t_T) [(b!"rel", [b!"relation_a:a"])],
    low b!"ctx" context_Context]

/-- The refused query structs and the expected codes. -/
def badCases : List (Bytes × List (FieldHdr × Ty) × ECode) := [
  (b!"InsertAnalysisTestBAD_NoDataField", bad0, .missingRelField),
  (b!"InsertAnalysisTestBAD3", bad1, .badRelType),
  (b!"DeleteAnalysisTestBAD_BadRelId", bad2, .badRelIdTagValue),
  (b!"SelectAnalysisTestBAD_MultipleRelTags", bad3, .conflictingRelTag),
  (b!"DeleteAnalysisTestBAD_IllegalCountField", bad4, .illegalQueryField),
  (b!"UpdateAnalysisTestBAD_IllegalExistsField", bad5, .illegalQueryField),
  (b!"InsertAnalysisTestBAD_IllegalNotExistsField", bad6, .illegalQueryField),
  (b!"SelectAnalysisTestBAD_IllegalRelationDirective", bad7, .illegalQueryField),
  (b!"SelectAnalysisTestBAD_UnnamedBaseStructType", bad8, .badRelType),
  (b!"SelectAnalysisTestBAD_IllegalAllDirective", bad9, .illegalQueryField),
  (b!"InsertAnalysisTestBAD_IllegalAllDirective", bad10, .illegalQueryField),
  (b!"UpdateAnalysisTestBAD_ConflictWhereProducer", bad11, .conflictingWhere),
  (b!"DeleteAnalysisTestBAD_IllegalDefaultDirective", bad12, .illegalQueryField),
  (b!"UpdateAnalysisTestBAD_EmptyDefaultDirectiveCollist", bad13, .missingTagColumnList),
  (b!"SelectAnalysisTestBAD_IllegalForceDirective", bad14, .illegalQueryField),
  (b!"UpdateAnalysisTestBAD_BadForceDirectiveColId", bad15, .badColIdTagValue),
  (b!"DeleteAnalysisTestBAD_ConflictResultProducer", bad16, .conflictingResultTarget),
  (b!"UpdateAnalysisTestBAD_EmptyReturnDirectiveCollist", bad17, .missingTagColumnList),
  (b!"InsertAnalysisTestBAD_IllegalLimitField", bad18, .illegalQueryField),
  (b!"UpdateAnalysisTestBAD_IllegalOffsetField", bad19, .illegalQueryField),
  (b!"InsertAnalysisTestBAD_IllegalOrderByDirective", bad20, .illegalQueryField),
  (b!"DeleteAnalysisTestBAD_IllegalOverrideDirective", bad21, .illegalQueryField),
  (b!"SelectAnalysisTestBAD_IllegalTextSearchDirective", bad22, .illegalQueryField),
  (b!"SelectAnalysisTestBAD_IllegalColumnDirective", bad23, .illegalQueryField),
  (b!"InsertAnalysisTestBAD_IllegalWhereBlock", bad24, .illegalQueryField),
  (b!"UpdateAnalysisTestBAD_IllegalJoinBlock", bad25, .illegalQueryField),
  (b!"DeleteAnalysisTestBAD_IllegalFromBlock", bad26, .illegalQueryField),
  (b!"SelectAnalysisTestBAD_IllegalUsingBlock", bad27, .illegalQueryField),
  (b!"UpdateAnalysisTestBAD_IllegalOnConflictBlock", bad28, .illegalQueryField),
  (b!"SelectAnalysisTestBAD_IllegalResultField", bad29, .illegalQueryField),
  (b!"SelectAnalysisTestBAD_ConflictLimitProducer", bad30, .conflictingFieldOrDirective),
  (b!"SelectAnalysisTestBAD_ConflictOffsetProducer", bad31, .conflictingFieldOrDirective),
  (b!"SelectAnalysisTestBAD_IllegalRowsAffectedField", bad32, .illegalQueryField),
  (b!"InsertAnalysisTestBAD_IllegalFilterField", bad33, .illegalQueryField),
  (b!"SelectAnalysisTestBAD_ConflictWhereProducer", bad34, .conflictingWhere),
  (b!"DeleteAnalysisTestBAD_ConflictErrorHandler", bad35, .conflictingFieldOrDirective),
  (b!"SelectAnalysisTestBAD_IteratorWithTooManyMethods", bad36, .badIterTypeInterface),
  (b!"SelectAnalysisTestBAD_IteratorWithBadSignature", bad37, .badIterTypeFunc),
  (b!"SelectAnalysisTestBAD_IteratorWithBadSignatureIface", bad38, .badIterTypeInterface),
  (b!"SelectAnalysisTestBAD_IteratorWithUnexportedMethod", bad39, .badIterTypeInterface),
  (b!"SelectAnalysisTestBAD_IteratorWithUnnamedArgument", bad40, .badIterTypeFunc),
  (b!"SelectAnalysisTestBAD_IteratorWithNonStructArgument", bad41, .badIterTypeFunc),
  (b!"InsertAnalysisTestBAD_BadRelfiedlStructBaseType", bad42, .badRelType),
  (b!"UpdateAnalysisTestBAD_BadRelTypeFieldColId", bad43, .badColIdTagValue),
  (b!"UpdateAnalysisTestBAD_ConflictWhereProducer2", bad44, .conflictingWhere),
  (b!"DeleteAnalysisTestBAD_BadWhereBlockType", bad45, .badFieldTypeStruct),
  (b!"SelectAnalysisTestBAD_BadBoolTagValue", bad46, .badBoolTagValue),
  (b!"SelectAnalysisTestBAD_BadNestedWhereBlockType", bad47, .badFieldTypeStruct),
  (b!"SelectAnalysisTestBAD_BadColumnExpressionLHS", bad48, .badColIdTagValue),
  (b!"SelectAnalysisTestBAD_BadColumnPredicateCombo", bad49, .illegalPredicateQuantifier),
  (b!"DeleteAnalysisTestBAD_BadColumnExpressionLHS", bad50, .badColIdTagValue),
  (b!"UpdateAnalysisTestBAD_BadUnaryOp", bad51, .badDirectiveBooleanExpr),
  (b!"UpdateAnalysisTestBAD_ExtraQuantifier", bad52, .illegalPredicateQuantifier),
  (b!"SelectAnalysisTestBAD_BadBetweenFieldType", bad53, .badBetweenPredicate),
  (b!"SelectAnalysisTestBAD_BadBetweenFieldType2", bad54, .badBetweenPredicate),
  (b!"SelectAnalysisTestBAD_BadBetweenArgColId", bad55, .badColIdTagValue),
  (b!"SelectAnalysisTestBAD_NoBetweenXYArg", bad56, .badBetweenPredicate),
  (b!"SelectAnalysisTestBAD_BadBetweenColId", bad57, .badColIdTagValue),
  (b!"DeleteAnalysisTestBAD_BadWhereFieldColId", bad58, .badColIdTagValue),
  (b!"DeleteAnalysisTestBAD_BadWhereFieldPredicateCombo", bad59, .illegalPredicateQuantifier),
  (b!"DeleteAnalysisTestBAD_IllegalWhereFieldUnaryPredicate", bad60, .illegalUnaryPredicate),
  (b!"UpdateAnalysisTestBAD_BadWhereFieldTypeForQuantifier", bad61, .illegalFieldQuantifier),
  (b!"SelectAnalysisTestBAD_BadJoinBlockType", bad62, .badFieldTypeStruct),
  (b!"SelectAnalysisTestBAD_IllegalJoinBlockRelationDirective", bad63, .illegalStructDirective),
  (b!"DeleteAnalysisTestBAD_ConflictRelationDirective", bad64, .conflictingRelationDirective),
  (b!"UpdateAnalysisTestBAD_BadFromRelationRelId", bad65, .badRelIdTagValue),
  (b!"SelectAnalysisTestBAD_BadJoinDirectiveRelId", bad66, .badRelIdTagValue),
  (b!"SelectAnalysisTestBAD_BadJoinDirectiveExpressionColId", bad67, .badColIdTagValue),
  (b!"SelectAnalysisTestBAD_BadJoinDirectiveExpressionPredicate", bad68, .badDirectiveBooleanExpr),
  (b!"SelectAnalysisTestBAD_BadJoinDirectiveExpressionExtraQuantifier", bad69, .illegalPredicateQuantifier),
  (b!"SelectAnalysisTestBAD_BadJoinDirectiveExpressionPredicateCombo", bad70, .illegalPredicateQuantifier),
  (b!"DeleteAnalysisTestBAD_IllegalJoinBlockDirective", bad71, .illegalStructDirective),
  (b!"InsertAnalysisTestBAD_BadOnConflictBlockType", bad72, .badFieldTypeStruct),
  (b!"InsertAnalysisTestBAD_ConflictOnConflictBlockTargetProducer", bad73, .conflictingOnConflictTarget),
  (b!"InsertAnalysisTestBAD_ConflictOnConflictBlockTargetProducer2", bad74, .conflictingOnConflictTarget),
  (b!"InsertAnalysisTestBAD_ConflictOnConflictBlockTargetProducer3", bad75, .conflictingOnConflictTarget),
  (b!"InsertAnalysisTestBAD_ConflictOnConflictBlockActionProducer", bad76, .conflictingOnConflictAction),
  (b!"InsertAnalysisTestBAD_ConflictOnConflictBlockActionProducer2", bad77, .conflictingOnConflictAction),
  (b!"InsertAnalysisTestBAD_BadOnConflictColumnTargetValue", bad78, .badColIdTagValue),
  (b!"InsertAnalysisTestBAD_BadOnConflictIndexTargetIdent", bad79, .badIdentTagValue),
  (b!"InsertAnalysisTestBAD_BadOnConflictConstraintTargetIdent", bad80, .badIdentTagValue),
  (b!"InsertAnalysisTestBAD_BadOnConflictUpdateActionCollist", bad81, .badColIdTagValue),
  (b!"InsertAnalysisTestBAD_IllegalOnConflictDirective", bad82, .illegalStructDirective),
  (b!"InsertAnalysisTestBAD_NoOnConflictTarget", bad83, .missingOnConflictTarget),
  (b!"SelectAnalysisTestBAD_BadLimitFieldType", bad84, .badFieldTypeInt),
  (b!"SelectAnalysisTestBAD_NoLimitDirectiveValue", bad85, .missingTagValue),
  (b!"SelectAnalysisTestBAD_BadLimitDirectiveValue", bad86, .badUIntegerTagValue),
  (b!"SelectAnalysisTestBAD_BadOffsetFieldType", bad87, .badFieldTypeInt),
  (b!"SelectAnalysisTestBAD_NoOffsetDirectiveValue", bad88, .missingTagValue),
  (b!"SelectAnalysisTestBAD_BadOffsetDirectiveValue", bad89, .badUIntegerTagValue),
  (b!"SelectAnalysisTestBAD_EmptyOrderByDirectiveCollist", bad90, .missingTagColumnList),
  (b!"SelectAnalysisTestBAD_BadOrderByDirectiveNullsOrderValue", bad91, .badNullsOrderTagValue),
  (b!"SelectAnalysisTestBAD_BadOrderByDirectiveCollist", bad92, .badColIdTagValue),
  (b!"InsertAnalysisTestBAD_BadOverrideDirectiveKindValue", bad93, .badOverrideTagValue),
  (b!"UpdateAnalysisTestBAD_ConflictResultProducer", bad94, .conflictingResultTarget),
  (b!"UpdateAnalysisTestBAD_BadResultFieldType", bad95, .badRelType),
  (b!"DeleteAnalysisTestBAD_ConflictResultProducer2", bad96, .conflictingResultTarget),
  (b!"DeleteAnalysisTestBAD_BadRowsAffecteFieldType", bad97, .badFieldTypeInt),
  (b!"UpdateAnalysisTestBAD_IllegalAllDirective", bad98, .illegalSliceUpdateModifier),
  (b!"UpdateAnalysisTestBAD_IllegalWhereStruct", bad99, .illegalSliceUpdateModifier),
  (b!"UpdateAnalysisTestBAD_IllegalFilterField", bad100, .illegalSliceUpdateModifier),
  (b!"DeleteAnalysisTestBAD_IllegalUnaryPredicateInExpression", bad101, .illegalUnaryPredicate),
  (b!"SelectAnalysisTestBAD_IllegalUnaryPredicateInJoinDirectiveExpression", bad102, .illegalUnaryPredicate),
  (b!"DeleteAnalysisTestBAD_ListPredicate", bad103, .illegalListPredicate),
  (b!"DeleteAnalysisTestBAD_ConflictingRelationName", bad104, .conflictingRelName),
  (b!"DeleteAnalysisTestBAD_ConflictingRelationAlias", bad105, .conflictingRelAlias),
  (b!"SelectAnalysisTestBAD_ConflictingRelName", bad106, .conflictingRelName),
  (b!"SelectAnalysisTestBAD_ConflictingRelAlias", bad107, .conflictingRelAlias),
  (b!"UpdateAnalysisTestBAD_ConflictingRelationName", bad108, .conflictingRelName),
  (b!"UpdateAnalysisTestBAD_ConflictingRelationAlias", bad109, .conflictingRelAlias),
  (b!"SelectAnalysisTestBAD_UnknownColumnQualifier", bad110, .unknownColumnQualifier),
  (b!"SelectAnalysisTestBAD_UnknownColumnQualifier2", bad111, .unknownColumnQualifier),
  (b!"UpdateAnalysisTestBAD_UnknownColumnQualifierInReturn", bad112, .unknownColumnQualifier),
  (b!"SelectAnalysisTestBAD_UnknownColumnQualifierInJoin", bad113, .unknownColumnQualifier),
  (b!"SelectAnalysisTestBAD_UnknownColumnQualifierInJoin2", bad114, .unknownColumnQualifier),
  (b!"InsertAnalysisTestBAD_UnknownColumnQualifierInForce", bad115, .unknownColumnQualifier),
  (b!"SelectAnalysisTestBAD_UnknownColumnQualifierInWhereField", bad116, .unknownColumnQualifier),
  (b!"SelectAnalysisTestBAD_UnknownColumnQualifierInWhereColumn", bad117, .unknownColumnQualifier),
  (b!"SelectAnalysisTestBAD_UnknownColumnQualifierInWhereColumn2", bad118, .unknownColumnQualifier),
  (b!"SelectAnalysisTestBAD_UnknownColumnQualifierInOrderBy", bad119, .unknownColumnQualifier),
  (b!"SelectAnalysisTestBAD_UnknownColumnQualifierInBetween", bad120, .unknownColumnQualifier),
  (b!"SelectAnalysisTestBAD_UnknownColumnQualifierInBetweenColumn", bad121, .unknownColumnQualifier),
  (b!"InsertAnalysisTestBAD_UnknownColumnQualifierInDefault", bad122, .unknownColumnQualifier),
  (b!"SelectAnalysisTestBAD_JoinConditionalLHSOperand", bad123, .badJoinConditionLHS),
  (b!"InsertAnalysisTestBAD_ReturnColumnNoField", bad124, .columnFieldUnknown),
  (b!"UpdateAnalysisTestBAD_ForceColumnNoField", bad125, .columnFieldUnknown),
  (b!"InsertAnalysisTestBAD_WithContextConflict", bad126, .conflictingFieldOrDirective)]
/-- internal/testdata/analysis_bad.go:104 -/
def fbad0 : List (FieldHdr × Ty) := [
    fld b!"Rel" t_T [(b!"rel", [b!"relation_a:a"])],
    low b!"_" g_Return [(b!"sql", [b!"*"])]]

/-- internal/testdata/analysis_bad.go:723 -/
def fbad1 : List (FieldHdr × Ty) := [
    fld b!"Rel" t_T [(b!"rel", [b!"relation_a:a"])],
    low b!"_" g_TextSearch [(b!"sql", [b!"123"])]]

/-- internal/testdata/analysis_bad.go:797 -/
def fbad2 : List (FieldHdr × Ty) := [
    low b!"_" t_T [(b!"rel", [b!"relation_a:a"])],
    low b!"_" g_TextSearch [(b!"rel", [b!"a.ts_document"])]]

/-- internal/testdata/analysis_bad.go:803 -/
def fbad3 : List (FieldHdr × Ty) := [
    low b!"_" (.func { params := 1, results := 1, errResult := true } (.ptr t_T)) [(b!"rel", [b!"relation_a:a"])],
    low b!"_" g_TextSearch [(b!"sql", [b!"a.ts_document"])]]

/-- internal/testdata/analysis_bad.go:865 -/
def fbad4 : List (FieldHdr × Ty) := [
    low b!"_" t_CT1 [(b!"rel", [b!"column_tests_1:c"])],
    low b!"_" g_TextSearch [(b!"sql", [b!"x.col_b"])]]

/-- internal/testdata/analysis_bad.go:984 -/
def fbad5 : List (FieldHdr × Ty) := [
    low b!"_" t_T [(b!"rel", [b!"relation_a:a"])],
    low b!"_" g_TextSearch [(b!"sql", [b!"a.ts_document"])]]

/-- internal/testdata/analysis_bad.go:990 -/
def fbad6 : List (FieldHdr × Ty) := [
    low b!"_" t_T [(b!"rel", [b!"relation_a:a"])],
    low b!"_" g_TextSearch [(b!"sql", [b!"a.ts_document"])],
    emb b!"FilterMaker" c_FilterMaker,
    low b!"maker" c_FilterMaker]

/-- The refused filter structs and the expected codes. -/
def fbadCases : List (Bytes × List (FieldHdr × Ty) × ECode) := [
  (b!"FilterAnalysisTestBAD_IllegalReturnDirective", fbad0, .illegalQueryField),
  (b!"FilterAnalysisTestBAD_BadTextSearchDirectiveColId", fbad1, .badColIdTagValue),
  (b!"FilterAnalysisTestBAD_ConflictingRelTag", fbad2, .conflictingRelTag),
  (b!"FilterAnalysisTestBAD_IllegalIteratorType", fbad3, .illegalIteratorField),
  (b!"FilterAnalysisTestBAD_UnknownColumnQualifierInTextSearch", fbad4, .unknownColumnQualifier),
  (b!"FilterAnalysisTestBAD_NoFilterConstructor", fbad5, .missingFilterConstructor),
  (b!"FilterAnalysisTestBAD_ConflictingFilterConstructor", fbad6, .conflictingFilterConstructor)]

end Verif.Conform
