import Verif.Conform.Types

/-
The query and filter structs that the analysis tests expect to be accepted, with the expected results
(/repo/internal/analysis/analysis_test.go).

This file is written by /verif/tools/conform.py; do not edit it by hand.
-/
namespace Verif.Conform
open Verif.Analysis

/-- internal/testdata/analysis_ok.go:23 -/
def ok0 : List (FieldHdr × Ty) := [
    fld b!"UserRec" (.ptr c_User) [(b!"rel", [b!"users_table"])]]

/-- internal/testdata/analysis_ok.go:28 -/
def ok1 : List (FieldHdr × Ty) := [
    fld b!"UserRec" (.struct (.ofList [
    low b!"_" (.basic .string b!"string") [(b!"sql", [b!"name"])],
    fld b!"Name" (.basic .string b!"string") [(b!"sql", [b!"-"])],
    fld b!"Name2" (.basic .string b!"string"),
    fld b!"Name3" (.basic .string b!"string") [(b!"sql", [b!"name"])]])) [(b!"rel", [b!"users_table"])]]

/-- internal/testdata/analysis_ok.go:38 -/
def ok2 : List (FieldHdr × Ty) := [
    fld b!"User" (.func { params := 1, results := 1, errResult := true } (.ptr c_User)) [(b!"rel", [b!"users_table"])]]

/-- internal/testdata/analysis_ok.go:45 -/
def ok3 : List (FieldHdr × Ty) := [
    fld b!"User" t_namedIteratorFunc [(b!"rel", [b!"users_table"])]]

/-- internal/testdata/analysis_ok.go:50 -/
def ok4 : List (FieldHdr × Ty) := [
    fld b!"User" (.iface { methods := 1, name0 := b!"Fn" } (.func { params := 1, results := 1, errResult := true } (.ptr c_User))) [(b!"rel", [b!"users_table"])]]

/-- internal/testdata/analysis_ok.go:61 -/
def ok5 : List (FieldHdr × Ty) := [
    fld b!"User" t_namedIterator [(b!"rel", [b!"users_table"])]]

/-- internal/testdata/analysis_ok.go:66 -/
def ok6 : List (FieldHdr × Ty) := [
    fld b!"Rel" (.struct (.ofList [
    low b!"a" (.basic .int b!"int") [(b!"sql", [b!"a", b!"pk"])],
    low b!"b" (.basic .int b!"int") [(b!"sql", [b!"b", b!"nullempty"])],
    low b!"c" (.basic .int b!"int") [(b!"sql", [b!"c", b!"ro", b!"json"])],
    low b!"d" (.basic .int b!"int") [(b!"sql", [b!"d", b!"wo"])],
    low b!"e" (.basic .int b!"int") [(b!"sql", [b!"e", b!"add"])],
    low b!"f" (.basic .int b!"int") [(b!"sql", [b!"f", b!"coalesce"])],
    low b!"g" (.basic .int b!"int") [(b!"sql", [b!"g", b!"coalesce(-1)"])]])) [(b!"rel", [b!"relation_a"])]]

/-- internal/testdata/analysis_ok.go:79 -/
def ok7 : List (FieldHdr × Ty) := [
    fld b!"Rel" (.struct (.ofList [
    fld b!"Foobar" c_Foo [(b!"sql", [b!">foo_"])]])) [(b!"rel", [b!"relation_a"])]]

/-- internal/testdata/analysis_ok.go:86 -/
def ok8 : List (FieldHdr × Ty) := [
    fld b!"Rel" (.struct .nil) [(b!"rel", [b!"relation_a"])],
    fld b!"Where" (.struct (.ofList [
    fld b!"ID" (.basic .int b!"int") [(b!"sql", [b!"id"])]]))]

/-- internal/testdata/analysis_ok.go:94 -/
def ok9 : List (FieldHdr × Ty) := [
    fld b!"Rel" (.struct .nil) [(b!"rel", [b!"relation_a"])],
    fld b!"Where" (.struct (.ofList [
    low b!"_" g_Column [(b!"sql", [b!"column_a notnull"])],
    low b!"_" g_Column [(b!"bool", [b!"and"]), (b!"sql", [b!"column_b isnull"])],
    low b!"_" g_Column [(b!"bool", [b!"or"]), (b!"sql", [b!"column_c nottrue"])],
    low b!"_" g_Column [(b!"sql", [b!"column_d istrue"])],
    low b!"_" g_Column [(b!"bool", [b!"or"]), (b!"sql", [b!"column_e notfalse"])],
    low b!"_" g_Column [(b!"bool", [b!"or"]), (b!"sql", [b!"column_f isfalse"])],
    low b!"_" g_Column [(b!"sql", [b!"column_g notunknown"])],
    low b!"_" g_Column [(b!"sql", [b!"column_h isunknown"])],
    low b!"_" g_Column [(b!"sql", [b!"column_i"])]]))]

/-- internal/testdata/analysis_ok.go:110 -/
def ok10 : List (FieldHdr × Ty) := [
    fld b!"Rel" (.struct .nil) [(b!"rel", [b!"relation_a"])],
    fld b!"Where" (.struct (.ofList [
    low b!"x" (.struct (.ofList [
    low b!"foo" (.basic .int b!"int") [(b!"sql", [b!"column_foo"])],
    low b!"_" g_Column [(b!"sql", [b!"column_a isnull"])]])) [(b!"sql", [b!">"])],
    low b!"y" (.struct (.ofList [
    low b!"_" g_Column [(b!"sql", [b!"column_b nottrue"])],
    low b!"bar" (.basic .string b!"string") [(b!"bool", [b!"or"]), (b!"sql", [b!"column_bar"])],
    low b!"z" (.struct (.ofList [
    low b!"baz" (.basic .bool b!"bool") [(b!"sql", [b!"column_baz"])],
    low b!"quux" (.basic .string b!"string") [(b!"sql", [b!"column_quux"])],
    low b!"_" g_Column [(b!"bool", [b!"or"]), (b!"sql", [b!"column_c istrue"])]])) [(b!"sql", [b!">"])]])) [(b!"bool", [b!"or"]), (b!"sql", [b!">"])],
    low b!"_" g_Column [(b!"bool", [b!"or"]), (b!"sql", [b!"column_d notfalse"])],
    low b!"_" g_Column [(b!"sql", [b!"column_e isfalse"])],
    low b!"foo" (.basic .int b!"int") [(b!"sql", [b!"column_foo"])]]))]

/-- internal/testdata/analysis_ok.go:133 -/
def ok11 : List (FieldHdr × Ty) := [
    fld b!"Rel" (.struct .nil) [(b!"rel", [b!"relation_a"])],
    fld b!"Where" (.struct (.ofList [
    low b!"a" (.basic .int b!"int") [(b!"sql", [b!"column_a <"])],
    low b!"b" (.basic .int b!"int") [(b!"sql", [b!"column_b >"])],
    low b!"c" (.basic .int b!"int") [(b!"sql", [b!"column_c <="])],
    low b!"d" (.basic .int b!"int") [(b!"sql", [b!"column_d >="])],
    low b!"e" (.basic .int b!"int") [(b!"sql", [b!"column_e ="])],
    low b!"f" (.basic .int b!"int") [(b!"sql", [b!"column_f <>"])],
    low b!"g" (.basic .int b!"int") [(b!"sql", [b!"column_g"])]]))]

/-- internal/testdata/analysis_ok.go:147 -/
def ok12 : List (FieldHdr × Ty) := [
    fld b!"Rel" (.struct .nil) [(b!"rel", [b!"relation_a"])],
    fld b!"Where" (.struct (.ofList [
    low b!"_" g_Column [(b!"sql", [b!"column_a <> column_b"])],
    low b!"_" g_Column [(b!"sql", [b!"column_c=column_d"])],
    low b!"_" g_Column [(b!"sql", [b!"column_e>123"])],
    low b!"_" g_Column [(b!"sql", [b!"column_f = 'active'"])],
    low b!"_" g_Column [(b!"sql", [b!"column_g <> true"])]]))]

/-- internal/testdata/analysis_ok.go:159 -/
def ok13 : List (FieldHdr × Ty) := [
    fld b!"Rel" (.struct .nil) [(b!"rel", [b!"relation_a"])],
    fld b!"Where" (.struct (.ofList [
    low b!"a" (.struct (.ofList [
    low b!"x" (.basic .int b!"int") [(b!"sql", [b!"x"])],
    low b!"y" (.basic .int b!"int") [(b!"sql", [b!"y"])]])) [(b!"sql", [b!"column_a isbetween"])],
    low b!"b" (.struct (.ofList [
    low b!"_" g_Column [(b!"sql", [b!"column_x", b!"X"])],
    low b!"_" g_Column [(b!"sql", [b!"column_y", b!"Y"])]])) [(b!"sql", [b!"column_b isbetweensym"])],
    low b!"c" (.struct (.ofList [
    low b!"_" g_Column [(b!"sql", [b!"column_z", b!"x"])],
    low b!"z" (.basic .int b!"int") [(b!"sql", [b!"y"])]])) [(b!"sql", [b!"column_c notbetweensym"])],
    low b!"d" (.struct (.ofList [
    low b!"z" (.basic .int b!"int") [(b!"sql", [b!"x"])],
    low b!"_" g_Column [(b!"sql", [b!"column_z", b!"y"])]])) [(b!"sql", [b!"column_d notbetween"])],
    low b!"d2" (.struct (.ofList [
    low b!"z" (.basic .int b!"int") [(b!"sql", [b!"lower"])],
    low b!"_" g_Column [(b!"sql", [b!"column_z", b!"upper"])]])) [(b!"sql", [b!"column_d notbetween"])]]))]

/-- internal/testdata/analysis_ok.go:186 -/
def ok14 : List (FieldHdr × Ty) := [
    fld b!"Rel" (.struct .nil) [(b!"rel", [b!"relation_a"])],
    fld b!"Where" (.struct (.ofList [
    low b!"a" (.basic .int b!"int") [(b!"sql", [b!"column_a isdistinct"])],
    low b!"b" (.basic .int b!"int") [(b!"sql", [b!"column_b notdistinct"])],
    low b!"_" g_Column [(b!"sql", [b!"column_c isdistinct column_x"])],
    low b!"_" g_Column [(b!"sql", [b!"column_d notdistinct column_y"])]]))]

/-- internal/testdata/analysis_ok.go:198 -/
def ok15 : List (FieldHdr × Ty) := [
    fld b!"Rel" (.struct .nil) [(b!"rel", [b!"relation_a"])],
    fld b!"Where" (.struct (.ofList [
    low b!"a" (.slice (.basic .int b!"int")) [(b!"sql", [b!"column_a isin"])],
    low b!"b" (.array 5 (.basic .int b!"int")) [(b!"sql", [b!"column_b notin"])],
    low b!"c" (.slice (.basic .int b!"int")) [(b!"sql", [b!"column_c=any"])],
    low b!"d" (.array 10 (.basic .int b!"int")) [(b!"sql", [b!"column_d >some"])],
    low b!"e" (.slice (.basic .int b!"int")) [(b!"sql", [b!"column_e <= all"])]]))]

/-- internal/testdata/analysis_ok.go:210 -/
def ok16 : List (FieldHdr × Ty) := [
    fld b!"Rel" (.struct .nil) [(b!"rel", [b!"relation_a"])],
    fld b!"Where" (.struct (.ofList [
    low b!"a" (.basic .string b!"string") [(b!"sql", [b!"column_a islike"])],
    low b!"b" (.basic .string b!"string") [(b!"sql", [b!"column_b notlike"])],
    low b!"c" (.basic .string b!"string") [(b!"sql", [b!"column_c issimilar"])],
    low b!"d" (.basic .string b!"string") [(b!"sql", [b!"column_d notsimilar"])],
    low b!"e" (.basic .string b!"string") [(b!"sql", [b!"column_e ~"])],
    low b!"f" (.basic .string b!"string") [(b!"sql", [b!"column_f~*"])],
    low b!"g" (.basic .string b!"string") [(b!"sql", [b!"column_g!~"])],
    low b!"h" (.basic .string b!"string") [(b!"sql", [b!"column_h !~*"])]]))]

/-- internal/testdata/analysis_ok.go:225 -/
def ok17 : List (FieldHdr × Ty) := [
    fld b!"Rel" (.struct .nil) [(b!"rel", [b!"relation_a:a"])],
    fld b!"Using" (.struct (.ofList [
    low b!"_" g_Relation [(b!"sql", [b!"relation_b:b"])],
    low b!"_" g_LeftJoin [(b!"sql", [b!"relation_c:c", b!"c.b_id = b.id"])],
    low b!"_" g_RightJoin [(b!"sql", [b!"relation_d:d", b!"d.c_id = c.id;d.num > b.num"])],
    low b!"_" g_FullJoin [(b!"sql", [b!"relation_e:e", b!"e.d_id = d.id", b!"e.is_foo isfalse"])],
    low b!"_" g_CrossJoin [(b!"sql", [b!"relation_f:f"])]])),
    fld b!"Where" (.struct (.ofList [
    low b!"_" g_Column [(b!"sql", [b!"a.id = d.a_id"])]]))]

/-- internal/testdata/analysis_ok.go:240 -/
def ok18 : List (FieldHdr × Ty) := [
    fld b!"Rel" (.struct .nil) [(b!"rel", [b!"relation_a:a"])],
    fld b!"From" (.struct (.ofList [
    low b!"_" g_Relation [(b!"sql", [b!"relation_b:b"])],
    low b!"_" g_LeftJoin [(b!"sql", [b!"relation_c:c", b!"c.b_id = b.id"])],
    low b!"_" g_RightJoin [(b!"sql", [b!"relation_d:d", b!"d.c_id = c.id;d.num > b.num"])],
    low b!"_" g_FullJoin [(b!"sql", [b!"relation_e:e", b!"e.d_id = d.id", b!"e.is_foo isfalse"])],
    low b!"_" g_CrossJoin [(b!"sql", [b!"relation_f:f"])]])),
    fld b!"Where" (.struct (.ofList [
    low b!"_" g_Column [(b!"sql", [b!"a.id = d.a_id"])]]))]

/-- internal/testdata/analysis_ok.go:255 -/
def ok19 : List (FieldHdr × Ty) := [
    fld b!"Rel" (.struct .nil) [(b!"rel", [b!"relation_a:a"])],
    fld b!"Join" (.struct (.ofList [
    low b!"_" g_LeftJoin [(b!"sql", [b!"relation_b:b", b!"b.a_id = a.id"])],
    low b!"_" g_LeftJoin [(b!"sql", [b!"relation_c:c", b!"c.b_id = b.id"])],
    low b!"_" g_RightJoin [(b!"sql", [b!"relation_d:d", b!"d.c_id = c.id;d.num > b.num"])],
    low b!"_" g_FullJoin [(b!"sql", [b!"relation_e:e", b!"e.d_id = d.id", b!"e.is_foo isfalse"])],
    low b!"_" g_CrossJoin [(b!"sql", [b!"relation_f:f"])]])),
    fld b!"Where" (.struct (.ofList [
    low b!"_" g_Column [(b!"sql", [b!"a.id = d.a_id"])]]))]

/-- internal/testdata/analysis_ok.go:270 -/
def ok20 : List (FieldHdr × Ty) := [
    fld b!"Rel" (.struct .nil) [(b!"rel", [b!"relation_a:a"])],
    low b!"_" g_All]

/-- internal/testdata/analysis_ok.go:276 -/
def ok21 : List (FieldHdr × Ty) := [
    fld b!"Rel" (.struct .nil) [(b!"rel", [b!"relation_a:a"])],
    low b!"_" g_All]

/-- internal/testdata/analysis_ok.go:282 -/
def ok22 : List (FieldHdr × Ty) := [
    fld b!"Rel" t_T [(b!"rel", [b!"relation_a:a"])],
    low b!"_" g_Return [(b!"sql", [b!"*"])]]

/-- internal/testdata/analysis_ok.go:288 -/
def ok23 : List (FieldHdr × Ty) := [
    fld b!"Rel" t_T2 [(b!"rel", [b!"relation_a:a"])],
    low b!"_" g_Return [(b!"sql", [b!"a.foo", b!"a.bar", b!"a.baz"])]]

/-- internal/testdata/analysis_ok.go:294 -/
def ok24 : List (FieldHdr × Ty) := [
    fld b!"Rel" t_T2 [(b!"rel", [b!"relation_a:a"])],
    low b!"_" g_Return [(b!"sql", [b!"a.foo", b!"a.bar", b!"a.baz"])]]

/-- internal/testdata/analysis_ok.go:300 -/
def ok25 : List (FieldHdr × Ty) := [
    fld b!"Rel" (.struct .nil) [(b!"rel", [b!"relation_a:a"])],
    low b!"_" g_Default [(b!"sql", [b!"*"])]]

/-- internal/testdata/analysis_ok.go:306 -/
def ok26 : List (FieldHdr × Ty) := [
    fld b!"Rel" (.struct .nil) [(b!"rel", [b!"relation_a:a"])],
    low b!"_" g_Default [(b!"sql", [b!"a.foo", b!"a.bar", b!"a.baz"])]]

/-- internal/testdata/analysis_ok.go:312 -/
def ok27 : List (FieldHdr × Ty) := [
    fld b!"Rel" (.struct .nil) [(b!"rel", [b!"relation_a:a"])],
    low b!"_" g_Force [(b!"sql", [b!"*"])]]

/-- internal/testdata/analysis_ok.go:318 -/
def ok28 : List (FieldHdr × Ty) := [
    fld b!"Rel" t_T2 [(b!"rel", [b!"relation_a:a"])],
    low b!"_" g_Force [(b!"sql", [b!"a.foo", b!"a.bar", b!"a.baz"])]]

/-- internal/testdata/analysis_ok.go:328 -/
def ok29 : List (FieldHdr × Ty) := [
    fld b!"Rel" (.struct .nil) [(b!"rel", [b!"relation_a:a"])],
    low b!"eh" t_myerrorhandler]

/-- internal/testdata/analysis_ok.go:334 -/
def ok30 : List (FieldHdr × Ty) := [
    fld b!"Rel" (.struct .nil) [(b!"rel", [b!"relation_a:a"])],
    lowEmb b!"myerrorhandler" t_myerrorhandler]

/-- internal/testdata/analysis_ok.go:344 -/
def ok31 : List (FieldHdr × Ty) := [
    fld b!"Rel" (.struct .nil) [(b!"rel", [b!"relation_a:a"])],
    low b!"eh" t_myerrorinfohandler]

/-- internal/testdata/analysis_ok.go:350 -/
def ok32 : List (FieldHdr × Ty) := [
    fld b!"Rel" (.struct .nil) [(b!"rel", [b!"relation_a:a"])],
    lowEmb b!"myerrorinfohandler" t_myerrorinfohandler]

/-- internal/testdata/analysis_ok.go:356 -/
def ok33 : List (FieldHdr × Ty) := [
    fld b!"Count" (.basic .int b!"int") [(b!"rel", [b!"relation_a:a"])]]

/-- internal/testdata/analysis_ok.go:361 -/
def ok34 : List (FieldHdr × Ty) := [
    fld b!"Exists" (.basic .bool b!"bool") [(b!"rel", [b!"relation_a:a"])]]

/-- internal/testdata/analysis_ok.go:366 -/
def ok35 : List (FieldHdr × Ty) := [
    fld b!"NotExists" (.basic .bool b!"bool") [(b!"rel", [b!"relation_a:a"])]]

/-- internal/testdata/analysis_ok.go:371 -/
def ok36 : List (FieldHdr × Ty) := [
    low b!"_" g_Relation [(b!"rel", [b!"relation_a:a"])]]

/-- internal/testdata/analysis_ok.go:376 -/
def ok37 : List (FieldHdr × Ty) := [
    fld b!"Rel" (.slice t_T) [(b!"rel", [b!"relation_a:a"])],
    low b!"_" g_Limit [(b!"sql", [b!"25"])]]

/-- internal/testdata/analysis_ok.go:382 -/
def ok38 : List (FieldHdr × Ty) := [
    fld b!"Rel" (.slice t_T) [(b!"rel", [b!"relation_a:a"])],
    fld b!"Limit" (.basic .int b!"int") [(b!"sql", [b!"10"])]]

/-- internal/testdata/analysis_ok.go:388 -/
def ok39 : List (FieldHdr × Ty) := [
    fld b!"Rel" (.slice t_T) [(b!"rel", [b!"relation_a:a"])],
    low b!"_" g_Offset [(b!"sql", [b!"25"])]]

/-- internal/testdata/analysis_ok.go:394 -/
def ok40 : List (FieldHdr × Ty) := [
    fld b!"Rel" (.slice t_T) [(b!"rel", [b!"relation_a:a"])],
    fld b!"Offset" (.basic .int b!"int") [(b!"sql", [b!"10"])]]

/-- internal/testdata/analysis_ok.go:400 -/
def ok41 : List (FieldHdr × Ty) := [
    fld b!"Rel" (.slice t_T) [(b!"rel", [b!"relation_a:a"])],
    low b!"_" g_OrderBy [(b!"sql", [b!"a.foo:nullsfirst", b!"-a.bar:nullsfirst", b!"-a.baz", b!"a.quux:nullslast"])]]

/-- internal/testdata/analysis_ok.go:406 -/
def ok42 : List (FieldHdr × Ty) := [
    fld b!"Rel" (.slice t_T) [(b!"rel", [b!"relation_a:a"])],
    low b!"_" g_Override [(b!"sql", [b!"system"])]]

/-- internal/testdata/analysis_ok.go:419 -/
def ok43 : List (FieldHdr × Ty) := [
    fld b!"Rel" (.slice t_T) [(b!"rel", [b!"relation_a:a"])],
    fld b!"OnConflict" (.struct (.ofList [
    low b!"_" g_Ignore]))]

/-- internal/testdata/analysis_ok.go:427 -/
def ok44 : List (FieldHdr × Ty) := [
    fld b!"Rel" (.slice t_T) [(b!"rel", [b!"relation_a:a"])],
    fld b!"OnConflict" (.struct (.ofList [
    low b!"_" g_Column [(b!"sql", [b!"a.id"])],
    low b!"_" g_Ignore]))]

/-- internal/testdata/analysis_ok.go:436 -/
def ok45 : List (FieldHdr × Ty) := [
    fld b!"Rel" (.slice t_T) [(b!"rel", [b!"relation_a:a"])],
    fld b!"OnConflict" (.struct (.ofList [
    low b!"_" g_Constraint [(b!"sql", [b!"relation_constraint_xyz"])],
    low b!"_" g_Update [(b!"sql", [b!"a.foo", b!"a.bar", b!"a.baz"])]]))]

/-- internal/testdata/analysis_ok.go:445 -/
def ok46 : List (FieldHdr × Ty) := [
    fld b!"Rel" (.slice t_T) [(b!"rel", [b!"relation_a:a"])],
    fld b!"OnConflict" (.struct (.ofList [
    low b!"_" g_Index [(b!"sql", [b!"relation_index_xyz"])],
    low b!"_" g_Update [(b!"sql", [b!"*"])]]))]

/-- internal/testdata/analysis_ok.go:454 -/
def ok47 : List (FieldHdr × Ty) := [
    low b!"_" g_Relation [(b!"rel", [b!"relation_a:a"])],
    fld b!"Where" (.struct (.ofList [
    low b!"_" g_Column [(b!"sql", [b!"a.is_inactive istrue"])]])),
    fld b!"Result" (.slice t_T)]

/-- internal/testdata/analysis_ok.go:463 -/
def ok48 : List (FieldHdr × Ty) := [
    low b!"_" g_Relation [(b!"rel", [b!"relation_a:a"])],
    fld b!"Where" (.struct (.ofList [
    low b!"_" g_Column [(b!"sql", [b!"a.is_inactive istrue"])]])),
    fld b!"RowsAffected" (.basic .int b!"int")]

/-- internal/testdata/analysis_ok.go:472 -/
def ok49 : List (FieldHdr × Ty) := [
    fld b!"Rel" (.slice t_T) [(b!"rel", [b!"relation_a:a"])],
    fld b!"Filter" g_Filter]

/-- internal/testdata/analysis_ok.go:478 -/
def ok50 : List (FieldHdr × Ty) := [
    fld b!"Rel" (.struct (.ofList [
    low b!"f1" (.basic .bool b!"bool") [(b!"sql", [b!"c1"])],
    low b!"f2" (.basic .uint8 b!"byte") [(b!"sql", [b!"c2"])],
    low b!"f3" (.basic .int32 b!"rune") [(b!"sql", [b!"c3"])],
    low b!"f4" (.basic .int8 b!"int8") [(b!"sql", [b!"c4"])],
    low b!"f5" (.basic .int16 b!"int16") [(b!"sql", [b!"c5"])],
    low b!"f6" (.basic .int32 b!"int32") [(b!"sql", [b!"c6"])],
    low b!"f7" (.basic .int64 b!"int64") [(b!"sql", [b!"c7"])],
    low b!"f8" (.basic .int b!"int") [(b!"sql", [b!"c8"])],
    low b!"f9" (.basic .uint8 b!"uint8") [(b!"sql", [b!"c9"])],
    low b!"f10" (.basic .uint16 b!"uint16") [(b!"sql", [b!"c10"])],
    low b!"f11" (.basic .uint32 b!"uint32") [(b!"sql", [b!"c11"])],
    low b!"f12" (.basic .uint64 b!"uint64") [(b!"sql", [b!"c12"])],
    low b!"f13" (.basic .uint b!"uint") [(b!"sql", [b!"c13"])],
    low b!"f14" (.basic .uintptr b!"uintptr") [(b!"sql", [b!"c14"])],
    low b!"f15" (.basic .float32 b!"float32") [(b!"sql", [b!"c15"])],
    low b!"f16" (.basic .float64 b!"float64") [(b!"sql", [b!"c16"])],
    low b!"f17" (.basic .complex64 b!"complex64") [(b!"sql", [b!"c17"])],
    low b!"f18" (.basic .complex128 b!"complex128") [(b!"sql", [b!"c18"])],
    low b!"f19" (.basic .string b!"string") [(b!"sql", [b!"c19"])]])) [(b!"rel", [b!"relation_a:a"])]]

/-- internal/testdata/analysis_ok.go:503 -/
def ok51 : List (FieldHdr × Ty) := [
    fld b!"Rel" (.struct (.ofList [
    low b!"f1" (.slice (.basic .bool b!"bool")) [(b!"sql", [b!"c1"])],
    low b!"f2" (.slice (.basic .uint8 b!"byte")) [(b!"sql", [b!"c2"])],
    low b!"f3" (.slice (.basic .int32 b!"rune")) [(b!"sql", [b!"c3"])],
    low b!"f4" net_HardwareAddr [(b!"sql", [b!"c4"])],
    low b!"f5" json_RawMessage [(b!"sql", [b!"c5"])],
    low b!"f6" (.slice json_Marshaler) [(b!"sql", [b!"c6"])],
    low b!"f7" (.slice json_RawMessage) [(b!"sql", [b!"c7"])],
    low b!"f8" (.slice (.slice (.basic .uint8 b!"byte"))) [(b!"sql", [b!"c8"])],
    low b!"f9" (.slice (.array 2 (.array 2 (.basic .float64 b!"float64")))) [(b!"sql", [b!"c9"])],
    low b!"f10" (.slice (.slice (.array 2 (.basic .float64 b!"float64")))) [(b!"sql", [b!"c10"])],
    low b!"f11" (.map (.basic .string b!"string") sql_NullString) [(b!"sql", [b!"c11"])],
    low b!"f12" (.slice (.map (.basic .string b!"string") (.ptr (.basic .string b!"string")))) [(b!"sql", [b!"c12"])],
    low b!"f13" (.slice (.array 2 (.ptr big_Int))) [(b!"sql", [b!"c13"])]])) [(b!"rel", [b!"relation_a:a"])]]

/-- internal/testdata/analysis_ok.go:522 -/
def ok52 : List (FieldHdr × Ty) := [
    fld b!"Rel" (.struct (.ofList [
    low b!"f1" json_Marshaler [(b!"sql", [b!"c1"])],
    low b!"f2" json_Unmarshaler [(b!"sql", [b!"c2"])],
    low b!"f3" (.iface { methods := 0 } .chan) [(b!"sql", [b!"c3"])]])) [(b!"rel", [b!"relation_a:a"])]]

/-- internal/testdata/analysis_ok.go:615 -/
def ok53 : List (FieldHdr × Ty) := [
    fld b!"Rel" (.struct (.ofList [
    low b!"f1" anyTy [(b!"sql", [b!"c1"])],
    low b!"f2" (.ptr anyTy) [(b!"sql", [b!"c2"])],
    low b!"f3" t_donothing [(b!"sql", [b!"c3"])],
    low b!"f4" (.ptr t_donothing) [(b!"sql", [b!"c4"])]])) [(b!"rel", [b!"relation_a:a"])]]

/-- internal/testdata/analysis_ok.go:625 -/
def ok54 : List (FieldHdr × Ty) := [
    emb b!"Context" context_Context,
    fld b!"UserRec" (.ptr c_User) [(b!"rel", [b!"users_table"])]]

/-- internal/testdata/analysis_ok.go:631 -/
def ok55 : List (FieldHdr × Ty) := [
    fld b!"Ctx" context_Context,
    fld b!"UserRec" (.ptr c_User) [(b!"rel", [b!"users_table"])]]

def want0 : Query :=
  { typeName := b!"InsertAnalysisTestOK1",
    kind := .insert,
    rel := { fieldName := b!"UserRec",
             id := { name := b!"users_table" },
             type := { base := { name := b!"User",
                                 kind := .struct,
                                 pkgPath := b!"github.com/frk/gosql/internal/testdata/common",
                                 pkgName := b!"common",
                                 isImported := true },
                       isPointer := true,
                       fields := [{ name := b!"Id",
                                    type := .leaf { kind := .int },
                                    isEmbedded := false,
                                    isExported := true,
                                    tag := [(b!"sql", [b!"id"])],
                                    colIdent := { name := b!"id" },
                                    filterColumnKey := b!"Id",
                                    mode := modeDefault },
                                  { name := b!"Email",
                                    type := .leaf { kind := .string },
                                    isEmbedded := false,
                                    isExported := true,
                                    tag := [(b!"sql", [b!"email"])],
                                    colIdent := { name := b!"email" },
                                    filterColumnKey := b!"Email",
                                    mode := modeDefault },
                                  { name := b!"FullName",
                                    type := .leaf { kind := .string },
                                    isEmbedded := false,
                                    isExported := true,
                                    tag := [(b!"sql", [b!"full_name"])],
                                    colIdent := { name := b!"full_name" },
                                    filterColumnKey := b!"FullName",
                                    mode := modeDefault },
                                  { name := b!"CreatedAt",
                                    type := .leaf { name := b!"Time",
                                                    kind := .struct,
                                                    pkgPath := b!"time",
                                                    pkgName := b!"time",
                                                    isImported := true,
                                                    isJSONMarshaler := true,
                                                    isJSONUnmarshaler := true },
                                    isEmbedded := false,
                                    isExported := true,
                                    tag := [(b!"sql", [b!"created_at"])],
                                    colIdent := { name := b!"created_at" },
                                    filterColumnKey := b!"CreatedAt",
                                    mode := modeDefault }] } } }

def want1 : Query :=
  { typeName := b!"InsertAnalysisTestOK2",
    kind := .insert,
    rel := { fieldName := b!"UserRec",
             id := { name := b!"users_table" },
             type := { base := { kind := .struct },
                       fields := [{ name := b!"Name3",
                                    type := .leaf { kind := .string },
                                    isEmbedded := false,
                                    isExported := true,
                                    tag := [(b!"sql", [b!"name"])],
                                    colIdent := { name := b!"name" },
                                    filterColumnKey := b!"Name3",
                                    mode := modeDefault }] } } }

def want2 : Query :=
  { typeName := b!"SelectAnalysisTestOK3",
    kind := .select,
    rel := { fieldName := b!"User",
             id := { name := b!"users_table" },
             type := { base := { name := b!"User",
                                 kind := .struct,
                                 pkgPath := b!"github.com/frk/gosql/internal/testdata/common",
                                 pkgName := b!"common",
                                 isImported := true },
                       isPointer := true,
                       isIter := true,
                       fields := [{ name := b!"Id",
                                    type := .leaf { kind := .int },
                                    isEmbedded := false,
                                    isExported := true,
                                    tag := [(b!"sql", [b!"id"])],
                                    colIdent := { name := b!"id" },
                                    filterColumnKey := b!"Id",
                                    mode := modeDefault },
                                  { name := b!"Email",
                                    type := .leaf { kind := .string },
                                    isEmbedded := false,
                                    isExported := true,
                                    tag := [(b!"sql", [b!"email"])],
                                    colIdent := { name := b!"email" },
                                    filterColumnKey := b!"Email",
                                    mode := modeDefault },
                                  { name := b!"FullName",
                                    type := .leaf { kind := .string },
                                    isEmbedded := false,
                                    isExported := true,
                                    tag := [(b!"sql", [b!"full_name"])],
                                    colIdent := { name := b!"full_name" },
                                    filterColumnKey := b!"FullName",
                                    mode := modeDefault },
                                  { name := b!"CreatedAt",
                                    type := .leaf { name := b!"Time",
                                                    kind := .struct,
                                                    pkgPath := b!"time",
                                                    pkgName := b!"time",
                                                    isImported := true,
                                                    isJSONMarshaler := true,
                                                    isJSONUnmarshaler := true },
                                    isEmbedded := false,
                                    isExported := true,
                                    tag := [(b!"sql", [b!"created_at"])],
                                    colIdent := { name := b!"created_at" },
                                    filterColumnKey := b!"CreatedAt",
                                    mode := modeDefault }] } } }

def want3 : Query :=
  { typeName := b!"SelectAnalysisTestOK4",
    kind := .select,
    rel := { fieldName := b!"User",
             id := { name := b!"users_table" },
             type := { base := { name := b!"User",
                                 kind := .struct,
                                 pkgPath := b!"github.com/frk/gosql/internal/testdata/common",
                                 pkgName := b!"common",
                                 isImported := true },
                       isPointer := true,
                       isIter := true,
                       fields := [{ name := b!"Id",
                                    type := .leaf { kind := .int },
                                    isEmbedded := false,
                                    isExported := true,
                                    tag := [(b!"sql", [b!"id"])],
                                    colIdent := { name := b!"id" },
                                    filterColumnKey := b!"Id",
                                    mode := modeDefault },
                                  { name := b!"Email",
                                    type := .leaf { kind := .string },
                                    isEmbedded := false,
                                    isExported := true,
                                    tag := [(b!"sql", [b!"email"])],
                                    colIdent := { name := b!"email" },
                                    filterColumnKey := b!"Email",
                                    mode := modeDefault },
                                  { name := b!"FullName",
                                    type := .leaf { kind := .string },
                                    isEmbedded := false,
                                    isExported := true,
                                    tag := [(b!"sql", [b!"full_name"])],
                                    colIdent := { name := b!"full_name" },
                                    filterColumnKey := b!"FullName",
                                    mode := modeDefault },
                                  { name := b!"CreatedAt",
                                    type := .leaf { name := b!"Time",
                                                    kind := .struct,
                                                    pkgPath := b!"time",
                                                    pkgName := b!"time",
                                                    isImported := true,
                                                    isJSONMarshaler := true,
                                                    isJSONUnmarshaler := true },
                                    isEmbedded := false,
                                    isExported := true,
                                    tag := [(b!"sql", [b!"created_at"])],
                                    colIdent := { name := b!"created_at" },
                                    filterColumnKey := b!"CreatedAt",
                                    mode := modeDefault }] } } }

def want4 : Query :=
  { typeName := b!"SelectAnalysisTestOK5",
    kind := .select,
    rel := { fieldName := b!"User",
             id := { name := b!"users_table" },
             type := { base := { name := b!"User",
                                 kind := .struct,
                                 pkgPath := b!"github.com/frk/gosql/internal/testdata/common",
                                 pkgName := b!"common",
                                 isImported := true },
                       isPointer := true,
                       isIter := true,
                       iterMethod := b!"Fn",
                       fields := [{ name := b!"Id",
                                    type := .leaf { kind := .int },
                                    isEmbedded := false,
                                    isExported := true,
                                    tag := [(b!"sql", [b!"id"])],
                                    colIdent := { name := b!"id" },
                                    filterColumnKey := b!"Id",
                                    mode := modeDefault },
                                  { name := b!"Email",
                                    type := .leaf { kind := .string },
                                    isEmbedded := false,
                                    isExported := true,
                                    tag := [(b!"sql", [b!"email"])],
                                    colIdent := { name := b!"email" },
                                    filterColumnKey := b!"Email",
                                    mode := modeDefault },
                                  { name := b!"FullName",
                                    type := .leaf { kind := .string },
                                    isEmbedded := false,
                                    isExported := true,
                                    tag := [(b!"sql", [b!"full_name"])],
                                    colIdent := { name := b!"full_name" },
                                    filterColumnKey := b!"FullName",
                                    mode := modeDefault },
                                  { name := b!"CreatedAt",
                                    type := .leaf { name := b!"Time",
                                                    kind := .struct,
                                                    pkgPath := b!"time",
                                                    pkgName := b!"time",
                                                    isImported := true,
                                                    isJSONMarshaler := true,
                                                    isJSONUnmarshaler := true },
                                    isEmbedded := false,
                                    isExported := true,
                                    tag := [(b!"sql", [b!"created_at"])],
                                    colIdent := { name := b!"created_at" },
                                    filterColumnKey := b!"CreatedAt",
                                    mode := modeDefault }] } } }

def want5 : Query :=
  { typeName := b!"SelectAnalysisTestOK6",
    kind := .select,
    rel := { fieldName := b!"User",
             id := { name := b!"users_table" },
             type := { base := { name := b!"User",
                                 kind := .struct,
                                 pkgPath := b!"github.com/frk/gosql/internal/testdata/common",
                                 pkgName := b!"common",
                                 isImported := true },
                       isPointer := true,
                       isIter := true,
                       iterMethod := b!"Fn",
                       fields := [{ name := b!"Id",
                                    type := .leaf { kind := .int },
                                    isEmbedded := false,
                                    isExported := true,
                                    tag := [(b!"sql", [b!"id"])],
                                    colIdent := { name := b!"id" },
                                    filterColumnKey := b!"Id",
                                    mode := modeDefault },
                                  { name := b!"Email",
                                    type := .leaf { kind := .string },
                                    isEmbedded := false,
                                    isExported := true,
                                    tag := [(b!"sql", [b!"email"])],
                                    colIdent := { name := b!"email" },
                                    filterColumnKey := b!"Email",
                                    mode := modeDefault },
                                  { name := b!"FullName",
                                    type := .leaf { kind := .string },
                                    isEmbedded := false,
                                    isExported := true,
                                    tag := [(b!"sql", [b!"full_name"])],
                                    colIdent := { name := b!"full_name" },
                                    filterColumnKey := b!"FullName",
                                    mode := modeDefault },
                                  { name := b!"CreatedAt",
                                    type := .leaf { name := b!"Time",
                                                    kind := .struct,
                                                    pkgPath := b!"time",
                                                    pkgName := b!"time",
                                                    isImported := true,
                                                    isJSONMarshaler := true,
                                                    isJSONUnmarshaler := true },
                                    isEmbedded := false,
                                    isExported := true,
                                    tag := [(b!"sql", [b!"created_at"])],
                                    colIdent := { name := b!"created_at" },
                                    filterColumnKey := b!"CreatedAt",
                                    mode := modeDefault }] } } }

def want6 : Query :=
  { typeName := b!"SelectAnalysisTestOK7",
    kind := .select,
    rel := { fieldName := b!"Rel",
             id := { name := b!"relation_a" },
             type := { base := { kind := .struct },
                       fields := [{ name := b!"a",
                                    type := .leaf { kind := .int },
                                    isEmbedded := false,
                                    isExported := false,
                                    tag := [(b!"sql", [b!"a", b!"pk"])],
                                    colIdent := { name := b!"a" },
                                    filterColumnKey := b!"a",
                                    mode := modeDefault },
                                  { name := b!"b",
                                    type := .leaf { kind := .int },
                                    isEmbedded := false,
                                    isExported := false,
                                    tag := [(b!"sql", [b!"b", b!"nullempty"])],
                                    colIdent := { name := b!"b" },
                                    filterColumnKey := b!"b",
                                    mode := modeDefault,
                                    nullEmpty := true },
                                  { name := b!"c",
                                    type := .leaf { kind := .int },
                                    isEmbedded := false,
                                    isExported := false,
                                    tag := [(b!"sql", [b!"c", b!"ro", b!"json"])],
                                    colIdent := { name := b!"c" },
                                    filterColumnKey := b!"c",
                                    mode := (FieldMode.clear modeDefault modeWrite) },
                                  { name := b!"d",
                                    type := .leaf { kind := .int },
                                    isEmbedded := false,
                                    isExported := false,
                                    tag := [(b!"sql", [b!"d", b!"wo"])],
                                    colIdent := { name := b!"d" },
                                    filterColumnKey := b!"d",
                                    mode := (FieldMode.clear modeDefault modeRead) },
                                  { name := b!"e",
                                    type := .leaf { kind := .int },
                                    isEmbedded := false,
                                    isExported := false,
                                    tag := [(b!"sql", [b!"e", b!"add"])],
                                    colIdent := { name := b!"e" },
                                    filterColumnKey := b!"e",
                                    mode := modeDefault,
                                    useAdd := true },
                                  { name := b!"f",
                                    type := .leaf { kind := .int },
                                    isEmbedded := false,
                                    isExported := false,
                                    tag := [(b!"sql", [b!"f", b!"coalesce"])],
                                    colIdent := { name := b!"f" },
                                    filterColumnKey := b!"f",
                                    mode := modeDefault,
                                    useCoalesce := true },
                                  { name := b!"g",
                                    type := .leaf { kind := .int },
                                    isEmbedded := false,
                                    isExported := false,
                                    tag := [(b!"sql", [b!"g", b!"coalesce(-1)"])],
                                    colIdent := { name := b!"g" },
                                    filterColumnKey := b!"g",
                                    mode := modeDefault,
                                    useCoalesce := true,
                                    coalesceValue := b!"-1" }] } } }

def want7 : Query :=
  { typeName := b!"InsertAnalysisTestOK8",
    kind := .insert,
    rel := { fieldName := b!"Rel",
             id := { name := b!"relation_a" },
             type := { base := { kind := .struct },
                       fields := [{ name := b!"Val",
                                    type := .leaf { kind := .string },
                                    selector := [{ name := b!"Foobar",
                                                   tag := [(b!"sql", [b!">foo_"])],
                                                   typeName := b!"Foo",
                                                   typePkgPath := b!"github.com/frk/gosql/internal/testdata/common",
                                                   typePkgName := b!"common",
                                                   isImported := true,
                                                   isEmbedded := false,
                                                   isExported := true,
                                                   isPointer := false,
                                                   mode := modeDefault },
                                                 { name := b!"Bar",
                                                   tag := [(b!"sql", [b!">bar_"])],
                                                   typeName := b!"Bar",
                                                   typePkgPath := b!"github.com/frk/gosql/internal/testdata/common",
                                                   typePkgName := b!"common",
                                                   isImported := true,
                                                   isEmbedded := false,
                                                   isExported := true,
                                                   isPointer := false,
                                                   mode := modeDefault },
                                                 { name := b!"Baz",
                                                   tag := [(b!"sql", [b!">baz_"])],
                                                   typeName := b!"Baz",
                                                   typePkgPath := b!"github.com/frk/gosql/internal/testdata/common",
                                                   typePkgName := b!"common",
                                                   isImported := true,
                                                   isEmbedded := true,
                                                   isExported := true,
                                                   isPointer := false,
                                                   mode := modeDefault }],
                                    isEmbedded := false,
                                    isExported := true,
                                    tag := [(b!"sql", [b!"val"])],
                                    colIdent := { name := b!"foo_bar_baz_val" },
                                    filterColumnKey := b!"FoobarBarBazVal",
                                    mode := modeDefault },
                                  { name := b!"Val",
                                    type := .leaf { kind := .string },
                                    selector := [{ name := b!"Foobar",
                                                   tag := [(b!"sql", [b!">foo_"])],
                                                   typeName := b!"Foo",
                                                   typePkgPath := b!"github.com/frk/gosql/internal/testdata/common",
                                                   typePkgName := b!"common",
                                                   isImported := true,
                                                   isEmbedded := false,
                                                   isExported := true,
                                                   isPointer := false,
                                                   mode := modeDefault },
                                                 { name := b!"Baz",
                                                   tag := [(b!"sql", [b!">baz_"])],
                                                   typeName := b!"Baz",
                                                   typePkgPath := b!"github.com/frk/gosql/internal/testdata/common",
                                                   typePkgName := b!"common",
                                                   isImported := true,
                                                   isEmbedded := false,
                                                   isExported := true,
                                                   isPointer := true,
                                                   mode := modeDefault }],
                                    isEmbedded := false,
                                    isExported := true,
                                    tag := [(b!"sql", [b!"val"])],
                                    colIdent := { name := b!"foo_baz_val" },
                                    filterColumnKey := b!"FoobarBazVal",
                                    mode := modeDefault }] } } }

def want8 : Query :=
  { typeName := b!"DeleteAnalysisTestOK9",
    kind := .delete,
    rel := { fieldName := b!"Rel",
             id := { name := b!"relation_a" },
             type := { base := { kind := .struct } } },
    wher := some { fieldName := b!"Where",
                   items := [.field { name := b!"ID",
                                      type := .leaf { kind := .int },
                                      colIdent := { name := b!"id" },
                                      pred := (.some .isEQ),
                                      quant := .none }] } }

def want9 : Query :=
  { typeName := b!"DeleteAnalysisTestOK10",
    kind := .delete,
    rel := { fieldName := b!"Rel",
             id := { name := b!"relation_a" },
             type := { base := { kind := .struct } } },
    wher := some { fieldName := b!"Where",
                   items := [.column { lhs := { name := b!"column_a" },
                                       pred := (.some .notNull),
                                       quant := .none },
                             .bool false,
                             .column { lhs := { name := b!"column_b" },
                                       pred := (.some .isNull),
                                       quant := .none },
                             .bool true,
                             .column { lhs := { name := b!"column_c" },
                                       pred := (.some .notTrue),
                                       quant := .none },
                             .bool false,
                             .column { lhs := { name := b!"column_d" },
                                       pred := (.some .isTrue),
                                       quant := .none },
                             .bool true,
                             .column { lhs := { name := b!"column_e" },
                                       pred := (.some .notFalse),
                                       quant := .none },
                             .bool true,
                             .column { lhs := { name := b!"column_f" },
                                       pred := (.some .isFalse),
                                       quant := .none },
                             .bool false,
                             .column { lhs := { name := b!"column_g" },
                                       pred := (.some .notUnknown),
                                       quant := .none },
                             .bool false,
                             .column { lhs := { name := b!"column_h" },
                                       pred := (.some .isUnknown),
                                       quant := .none },
                             .bool false,
                             .column { lhs := { name := b!"column_i" },
                                       pred := (.some .isTrue),
                                       quant := .none }] } }

def want10 : Query :=
  { typeName := b!"DeleteAnalysisTestOK11",
    kind := .delete,
    rel := { fieldName := b!"Rel",
             id := { name := b!"relation_a" },
             type := { base := { kind := .struct } } },
    wher := some { fieldName := b!"Where",
                   items := [.nested b!"x" [.field { name := b!"foo",
                                                     type := .leaf { kind := .int },
                                                     colIdent := { name := b!"column_foo" },
                                                     pred := (.some .isEQ),
                                                     quant := .none },
                                            .bool false,
                                            .column { lhs := { name := b!"column_a" },
                                                      pred := (.some .isNull),
                                                      quant := .none }],
                             .bool true,
                             .nested b!"y" [.column { lhs := { name := b!"column_b" },
                                                      pred := (.some .notTrue),
                                                      quant := .none },
                                            .bool true,
                                            .field { name := b!"bar",
                                                     type := .leaf { kind := .string },
                                                     colIdent := { name := b!"column_bar" },
                                                     pred := (.some .isEQ),
                                                     quant := .none },
                                            .bool false,
                                            .nested b!"z" [.field { name := b!"baz",
                                                                    type := .leaf { kind := .bool },
                                                                    colIdent := { name := b!"column_baz" },
                                                                    pred := (.some .isEQ),
                                                                    quant := .none },
                                                           .bool false,
                                                           .field { name := b!"quux",
                                                                    type := .leaf { kind := .string },
                                                                    colIdent := { name := b!"column_quux" },
                                                                    pred := (.some .isEQ),
                                                                    quant := .none },
                                                           .bool true,
                                                           .column { lhs := { name := b!"column_c" },
                                                                     pred := (.some .isTrue),
                                                                     quant := .none }]],
                             .bool true,
                             .column { lhs := { name := b!"column_d" },
                                       pred := (.some .notFalse),
                                       quant := .none },
                             .bool false,
                             .column { lhs := { name := b!"column_e" },
                                       pred := (.some .isFalse),
                                       quant := .none },
                             .bool false,
                             .field { name := b!"foo",
                                      type := .leaf { kind := .int },
                                      colIdent := { name := b!"column_foo" },
                                      pred := (.some .isEQ),
                                      quant := .none }] } }

def want11 : Query :=
  { typeName := b!"DeleteAnalysisTestOK12",
    kind := .delete,
    rel := { fieldName := b!"Rel",
             id := { name := b!"relation_a" },
             type := { base := { kind := .struct } } },
    wher := some { fieldName := b!"Where",
                   items := [.field { name := b!"a",
                                      type := .leaf { kind := .int },
                                      colIdent := { name := b!"column_a" },
                                      pred := (.some .isLT),
                                      quant := .none },
                             .bool false,
                             .field { name := b!"b",
                                      type := .leaf { kind := .int },
                                      colIdent := { name := b!"column_b" },
                                      pred := (.some .isGT),
                                      quant := .none },
                             .bool false,
                             .field { name := b!"c",
                                      type := .leaf { kind := .int },
                                      colIdent := { name := b!"column_c" },
                                      pred := (.some .isLTE),
                                      quant := .none },
                             .bool false,
                             .field { name := b!"d",
                                      type := .leaf { kind := .int },
                                      colIdent := { name := b!"column_d" },
                                      pred := (.some .isGTE),
                                      quant := .none },
                             .bool false,
                             .field { name := b!"e",
                                      type := .leaf { kind := .int },
                                      colIdent := { name := b!"column_e" },
                                      pred := (.some .isEQ),
                                      quant := .none },
                             .bool false,
                             .field { name := b!"f",
                                      type := .leaf { kind := .int },
                                      colIdent := { name := b!"column_f" },
                                      pred := (.some .notEQ),
                                      quant := .none },
                             .bool false,
                             .field { name := b!"g",
                                      type := .leaf { kind := .int },
                                      colIdent := { name := b!"column_g" },
                                      pred := (.some .isEQ),
                                      quant := .none }] } }

def want12 : Query :=
  { typeName := b!"DeleteAnalysisTestOK13",
    kind := .delete,
    rel := { fieldName := b!"Rel",
             id := { name := b!"relation_a" },
             type := { base := { kind := .struct } } },
    wher := some { fieldName := b!"Where",
                   items := [.column { lhs := { name := b!"column_a" },
                                       rhs := .column { name := b!"column_b" },
                                       pred := (.some .notEQ),
                                       quant := .none },
                             .bool false,
                             .column { lhs := { name := b!"column_c" },
                                       rhs := .column { name := b!"column_d" },
                                       pred := (.some .isEQ),
                                       quant := .none },
                             .bool false,
                             .column { lhs := { name := b!"column_e" },
                                       rhs := .literal b!"123",
                                       pred := (.some .isGT),
                                       quant := .none },
                             .bool false,
                             .column { lhs := { name := b!"column_f" },
                                       rhs := .literal b!"'active'",
                                       pred := (.some .isEQ),
                                       quant := .none },
                             .bool false,
                             .column { lhs := { name := b!"column_g" },
                                       rhs := .literal b!"true",
                                       pred := (.some .notEQ),
                                       quant := .none }] } }

def want13 : Query :=
  { typeName := b!"DeleteAnalysisTestOK14",
    kind := .delete,
    rel := { fieldName := b!"Rel",
             id := { name := b!"relation_a" },
             type := { base := { kind := .struct } } },
    wher := some { fieldName := b!"Where",
                   items := [.between { name := b!"a",
                                        colIdent := { name := b!"column_a" },
                                        pred := (.some .isBetween),
                                        lower := .field b!"x" (.leaf { kind := .int }),
                                        upper := .field b!"y" (.leaf { kind := .int }) },
                             .bool false,
                             .between { name := b!"b",
                                        colIdent := { name := b!"column_b" },
                                        pred := (.some .isBetweenSym),
                                        lower := .column { name := b!"column_x" },
                                        upper := .column { name := b!"column_y" } },
                             .bool false,
                             .between { name := b!"c",
                                        colIdent := { name := b!"column_c" },
                                        pred := (.some .notBetweenSym),
                                        lower := .column { name := b!"column_z" },
                                        upper := .field b!"z" (.leaf { kind := .int }) },
                             .bool false,
                             .between { name := b!"d",
                                        colIdent := { name := b!"column_d" },
                                        pred := (.some .notBetween),
                                        lower := .field b!"z" (.leaf { kind := .int }),
                                        upper := .column { name := b!"column_z" } },
                             .bool false,
                             .between { name := b!"d2",
                                        colIdent := { name := b!"column_d" },
                                        pred := (.some .notBetween),
                                        lower := .field b!"z" (.leaf { kind := .int }),
                                        upper := .column { name := b!"column_z" } }] } }

def want14 : Query :=
  { typeName := b!"DeleteAnalysisTestOK_DistinctFrom",
    kind := .delete,
    rel := { fieldName := b!"Rel",
             id := { name := b!"relation_a" },
             type := { base := { kind := .struct } } },
    wher := some { fieldName := b!"Where",
                   items := [.field { name := b!"a",
                                      type := .leaf { kind := .int },
                                      colIdent := { name := b!"column_a" },
                                      pred := (.some .isDistinct),
                                      quant := .none },
                             .bool false,
                             .field { name := b!"b",
                                      type := .leaf { kind := .int },
                                      colIdent := { name := b!"column_b" },
                                      pred := (.some .notDistinct),
                                      quant := .none },
                             .bool false,
                             .column { lhs := { name := b!"column_c" },
                                       rhs := .column { name := b!"column_x" },
                                       pred := (.some .isDistinct),
                                       quant := .none },
                             .bool false,
                             .column { lhs := { name := b!"column_d" },
                                       rhs := .column { name := b!"column_y" },
                                       pred := (.some .notDistinct),
                                       quant := .none }] } }

def want15 : Query :=
  { typeName := b!"DeleteAnalysisTestOK_ArrayPredicate",
    kind := .delete,
    rel := { fieldName := b!"Rel",
             id := { name := b!"relation_a" },
             type := { base := { kind := .struct } } },
    wher := some { fieldName := b!"Where",
                   items := [.field { name := b!"a",
                                      type := .elem { kind := .slice } (.leaf { kind := .int }),
                                      colIdent := { name := b!"column_a" },
                                      pred := (.some .isIn),
                                      quant := .none },
                             .bool false,
                             .field { name := b!"b",
                                      type := .elem { kind := .array, arrayLen := 5 } (.leaf { kind := .int }),
                                      colIdent := { name := b!"column_b" },
                                      pred := (.some .notIn),
                                      quant := .none },
                             .bool false,
                             .field { name := b!"c",
                                      type := .elem { kind := .slice } (.leaf { kind := .int }),
                                      colIdent := { name := b!"column_c" },
                                      pred := (.some .isEQ),
                                      quant := (.some .any) },
                             .bool false,
                             .field { name := b!"d",
                                      type := .elem { kind := .array, arrayLen := 10 } (.leaf { kind := .int }),
                                      colIdent := { name := b!"column_d" },
                                      pred := (.some .isGT),
                                      quant := (.some .some) },
                             .bool false,
                             .field { name := b!"e",
                                      type := .elem { kind := .slice } (.leaf { kind := .int }),
                                      colIdent := { name := b!"column_e" },
                                      pred := (.some .isLTE),
                                      quant := (.some .all) }] } }

def want16 : Query :=
  { typeName := b!"DeleteAnalysisTestOK_PatternMatching",
    kind := .delete,
    rel := { fieldName := b!"Rel",
             id := { name := b!"relation_a" },
             type := { base := { kind := .struct } } },
    wher := some { fieldName := b!"Where",
                   items := [.field { name := b!"a",
                                      type := .leaf { kind := .string },
                                      colIdent := { name := b!"column_a" },
                                      pred := (.some .isLike),
                                      quant := .none },
                             .bool false,
                             .field { name := b!"b",
                                      type := .leaf { kind := .string },
                                      colIdent := { name := b!"column_b" },
                                      pred := (.some .notLike),
                                      quant := .none },
                             .bool false,
                             .field { name := b!"c",
                                      type := .leaf { kind := .string },
                                      colIdent := { name := b!"column_c" },
                                      pred := (.some .isSimilar),
                                      quant := .none },
                             .bool false,
                             .field { name := b!"d",
                                      type := .leaf { kind := .string },
                                      colIdent := { name := b!"column_d" },
                                      pred := (.some .notSimilar),
                                      quant := .none },
                             .bool false,
                             .field { name := b!"e",
                                      type := .leaf { kind := .string },
                                      colIdent := { name := b!"column_e" },
                                      pred := (.some .isMatch),
                                      quant := .none },
                             .bool false,
                             .field { name := b!"f",
                                      type := .leaf { kind := .string },
                                      colIdent := { name := b!"column_f" },
                                      pred := (.some .isMatchi),
                                      quant := .none },
                             .bool false,
                             .field { name := b!"g",
                                      type := .leaf { kind := .string },
                                      colIdent := { name := b!"column_g" },
                                      pred := (.some .notMatch),
                                      quant := .none },
                             .bool false,
                             .field { name := b!"h",
                                      type := .leaf { kind := .string },
                                      colIdent := { name := b!"column_h" },
                                      pred := (.some .notMatchi),
                                      quant := .none }] } }

def want17 : Query :=
  { typeName := b!"DeleteAnalysisTestOK_Using",
    kind := .delete,
    rel := { fieldName := b!"Rel",
             id := { name := b!"relation_a", alias := b!"a" },
             type := { base := { kind := .struct } } },
    join := some { fieldName := b!"Using",
                   relation := some { name := b!"relation_b", alias := b!"b" },
                   directives := [{ joinType := some .left,
                                    relIdent := { name := b!"relation_c", alias := b!"c" },
                                    items := [.cond { lhs := { qualifier := b!"c",
                                                               name := b!"b_id" },
                                                      rhs := .column { qualifier := b!"b",
                                                                       name := b!"id" },
                                                      pred := (.some .isEQ),
                                                      quant := .none }] },
                                  { joinType := some .right,
                                    relIdent := { name := b!"relation_d", alias := b!"d" },
                                    items := [.cond { lhs := { qualifier := b!"d",
                                                               name := b!"c_id" },
                                                      rhs := .column { qualifier := b!"c",
                                                                       name := b!"id" },
                                                      pred := (.some .isEQ),
                                                      quant := .none },
                                              .bool true,
                                              .cond { lhs := { qualifier := b!"d",
                                                               name := b!"num" },
                                                      rhs := .column { qualifier := b!"b",
                                                                       name := b!"num" },
                                                      pred := (.some .isGT),
                                                      quant := .none }] },
                                  { joinType := some .full,
                                    relIdent := { name := b!"relation_e", alias := b!"e" },
                                    items := [.cond { lhs := { qualifier := b!"e",
                                                               name := b!"d_id" },
                                                      rhs := .column { qualifier := b!"d",
                                                                       name := b!"id" },
                                                      pred := (.some .isEQ),
                                                      quant := .none },
                                              .bool false,
                                              .cond { lhs := { qualifier := b!"e",
                                                               name := b!"is_foo" },
                                                      pred := (.some .isFalse),
                                                      quant := .none }] },
                                  { joinType := some .cross,
                                    relIdent := { name := b!"relation_f", alias := b!"f" } }] },
    wher := some { fieldName := b!"Where",
                   items := [.column { lhs := { qualifier := b!"a", name := b!"id" },
                                       rhs := .column { qualifier := b!"d", name := b!"a_id" },
                                       pred := (.some .isEQ),
                                       quant := .none }] } }

def want18 : Query :=
  { typeName := b!"UpdateAnalysisTestOK_From",
    kind := .update,
    rel := { fieldName := b!"Rel",
             id := { name := b!"relation_a", alias := b!"a" },
             type := { base := { kind := .struct } } },
    join := some { fieldName := b!"From",
                   relation := some { name := b!"relation_b", alias := b!"b" },
                   directives := [{ joinType := some .left,
                                    relIdent := { name := b!"relation_c", alias := b!"c" },
                                    items := [.cond { lhs := { qualifier := b!"c",
                                                               name := b!"b_id" },
                                                      rhs := .column { qualifier := b!"b",
                                                                       name := b!"id" },
                                                      pred := (.some .isEQ),
                                                      quant := .none }] },
                                  { joinType := some .right,
                                    relIdent := { name := b!"relation_d", alias := b!"d" },
                                    items := [.cond { lhs := { qualifier := b!"d",
                                                               name := b!"c_id" },
                                                      rhs := .column { qualifier := b!"c",
                                                                       name := b!"id" },
                                                      pred := (.some .isEQ),
                                                      quant := .none },
                                              .bool true,
                                              .cond { lhs := { qualifier := b!"d",
                                                               name := b!"num" },
                                                      rhs := .column { qualifier := b!"b",
                                                                       name := b!"num" },
                                                      pred := (.some .isGT),
                                                      quant := .none }] },
                                  { joinType := some .full,
                                    relIdent := { name := b!"relation_e", alias := b!"e" },
                                    items := [.cond { lhs := { qualifier := b!"e",
                                                               name := b!"d_id" },
                                                      rhs := .column { qualifier := b!"d",
                                                                       name := b!"id" },
                                                      pred := (.some .isEQ),
                                                      quant := .none },
                                              .bool false,
                                              .cond { lhs := { qualifier := b!"e",
                                                               name := b!"is_foo" },
                                                      pred := (.some .isFalse),
                                                      quant := .none }] },
                                  { joinType := some .cross,
                                    relIdent := { name := b!"relation_f", alias := b!"f" } }] },
    wher := some { fieldName := b!"Where",
                   items := [.column { lhs := { qualifier := b!"a", name := b!"id" },
                                       rhs := .column { qualifier := b!"d", name := b!"a_id" },
                                       pred := (.some .isEQ),
                                       quant := .none }] } }

def want19 : Query :=
  { typeName := b!"SelectAnalysisTestOK_Join",
    kind := .select,
    rel := { fieldName := b!"Rel",
             id := { name := b!"relation_a", alias := b!"a" },
             type := { base := { kind := .struct } } },
    join := some { fieldName := b!"Join",
                   directives := [{ joinType := some .left,
                                    relIdent := { name := b!"relation_b", alias := b!"b" },
                                    items := [.cond { lhs := { qualifier := b!"b",
                                                               name := b!"a_id" },
                                                      rhs := .column { qualifier := b!"a",
                                                                       name := b!"id" },
                                                      pred := (.some .isEQ),
                                                      quant := .none }] },
                                  { joinType := some .left,
                                    relIdent := { name := b!"relation_c", alias := b!"c" },
                                    items := [.cond { lhs := { qualifier := b!"c",
                                                               name := b!"b_id" },
                                                      rhs := .column { qualifier := b!"b",
                                                                       name := b!"id" },
                                                      pred := (.some .isEQ),
                                                      quant := .none }] },
                                  { joinType := some .right,
                                    relIdent := { name := b!"relation_d", alias := b!"d" },
                                    items := [.cond { lhs := { qualifier := b!"d",
                                                               name := b!"c_id" },
                                                      rhs := .column { qualifier := b!"c",
                                                                       name := b!"id" },
                                                      pred := (.some .isEQ),
                                                      quant := .none },
                                              .bool true,
                                              .cond { lhs := { qualifier := b!"d",
                                                               name := b!"num" },
                                                      rhs := .column { qualifier := b!"b",
                                                                       name := b!"num" },
                                                      pred := (.some .isGT),
                                                      quant := .none }] },
                                  { joinType := some .full,
                                    relIdent := { name := b!"relation_e", alias := b!"e" },
                                    items := [.cond { lhs := { qualifier := b!"e",
                                                               name := b!"d_id" },
                                                      rhs := .column { qualifier := b!"d",
                                                                       name := b!"id" },
                                                      pred := (.some .isEQ),
                                                      quant := .none },
                                              .bool false,
                                              .cond { lhs := { qualifier := b!"e",
                                                               name := b!"is_foo" },
                                                      pred := (.some .isFalse),
                                                      quant := .none }] },
                                  { joinType := some .cross,
                                    relIdent := { name := b!"relation_f", alias := b!"f" } }] },
    wher := some { fieldName := b!"Where",
                   items := [.column { lhs := { qualifier := b!"a", name := b!"id" },
                                       rhs := .column { qualifier := b!"d", name := b!"a_id" },
                                       pred := (.some .isEQ),
                                       quant := .none }] } }

def want20 : Query :=
  { typeName := b!"UpdateAnalysisTestOK_All",
    kind := .update,
    rel := { fieldName := b!"Rel",
             id := { name := b!"relation_a", alias := b!"a" },
             type := { base := { kind := .struct } } },
    all := true }

def want21 : Query :=
  { typeName := b!"DeleteAnalysisTestOK_All",
    kind := .delete,
    rel := { fieldName := b!"Rel",
             id := { name := b!"relation_a", alias := b!"a" },
             type := { base := { kind := .struct } } },
    all := true }

def want22 : Query :=
  { typeName := b!"DeleteAnalysisTestOK_Return",
    kind := .delete,
    rel := { fieldName := b!"Rel",
             id := { name := b!"relation_a", alias := b!"a" },
             type := { base := { name := b!"T",
                                 kind := .struct,
                                 pkgPath := b!"path/to/test",
                                 pkgName := b!"testdata" },
                       fields := [{ name := b!"F",
                                    type := .leaf { kind := .string },
                                    isEmbedded := false,
                                    isExported := true,
                                    tag := [(b!"sql", [b!"f"])],
                                    colIdent := { name := b!"f" },
                                    filterColumnKey := b!"F",
                                    mode := modeDefault }] } },
    ret := some { all := true } }

def want23 : Query :=
  { typeName := b!"InsertAnalysisTestOK_Return",
    kind := .insert,
    rel := { fieldName := b!"Rel",
             id := { name := b!"relation_a", alias := b!"a" },
             type := { base := { name := b!"T2",
                                 kind := .struct,
                                 pkgPath := b!"path/to/test",
                                 pkgName := b!"testdata" },
                       fields := [{ name := b!"Foo",
                                    type := .leaf { kind := .int },
                                    isEmbedded := false,
                                    isExported := true,
                                    tag := [(b!"sql", [b!"foo"])],
                                    colIdent := { name := b!"foo" },
                                    filterColumnKey := b!"Foo",
                                    mode := modeDefault },
                                  { name := b!"Bar",
                                    type := .leaf { kind := .string },
                                    isEmbedded := false,
                                    isExported := true,
                                    tag := [(b!"sql", [b!"bar"])],
                                    colIdent := { name := b!"bar" },
                                    filterColumnKey := b!"Bar",
                                    mode := modeDefault },
                                  { name := b!"Baz",
                                    type := .leaf { kind := .bool },
                                    isEmbedded := false,
                                    isExported := true,
                                    tag := [(b!"sql", [b!"baz"])],
                                    colIdent := { name := b!"baz" },
                                    filterColumnKey := b!"Baz",
                                    mode := modeDefault }] } },
    ret := some { items := [{ qualifier := b!"a", name := b!"foo" },
                            { qualifier := b!"a", name := b!"bar" },
                            { qualifier := b!"a", name := b!"baz" }] } }

def want24 : Query :=
  { typeName := b!"UpdateAnalysisTestOK_Return",
    kind := .update,
    rel := { fieldName := b!"Rel",
             id := { name := b!"relation_a", alias := b!"a" },
             type := { base := { name := b!"T2",
                                 kind := .struct,
                                 pkgPath := b!"path/to/test",
                                 pkgName := b!"testdata" },
                       fields := [{ name := b!"Foo",
                                    type := .leaf { kind := .int },
                                    isEmbedded := false,
                                    isExported := true,
                                    tag := [(b!"sql", [b!"foo"])],
                                    colIdent := { name := b!"foo" },
                                    filterColumnKey := b!"Foo",
                                    mode := modeDefault },
                                  { name := b!"Bar",
                                    type := .leaf { kind := .string },
                                    isEmbedded := false,
                                    isExported := true,
                                    tag := [(b!"sql", [b!"bar"])],
                                    colIdent := { name := b!"bar" },
                                    filterColumnKey := b!"Bar",
                                    mode := modeDefault },
                                  { name := b!"Baz",
                                    type := .leaf { kind := .bool },
                                    isEmbedded := false,
                                    isExported := true,
                                    tag := [(b!"sql", [b!"baz"])],
                                    colIdent := { name := b!"baz" },
                                    filterColumnKey := b!"Baz",
                                    mode := modeDefault }] } },
    ret := some { items := [{ qualifier := b!"a", name := b!"foo" },
                            { qualifier := b!"a", name := b!"bar" },
                            { qualifier := b!"a", name := b!"baz" }] } }

def want25 : Query :=
  { typeName := b!"InsertAnalysisTestOK_Default",
    kind := .insert,
    rel := { fieldName := b!"Rel",
             id := { name := b!"relation_a", alias := b!"a" },
             type := { base := { kind := .struct } } },
    default := some { all := true } }

def want26 : Query :=
  { typeName := b!"UpdateAnalysisTestOK_Default",
    kind := .update,
    rel := { fieldName := b!"Rel",
             id := { name := b!"relation_a", alias := b!"a" },
             type := { base := { kind := .struct } } },
    default := some { items := [{ qualifier := b!"a", name := b!"foo" },
                                { qualifier := b!"a", name := b!"bar" },
                                { qualifier := b!"a", name := b!"baz" }] } }

def want27 : Query :=
  { typeName := b!"InsertAnalysisTestOK_Force",
    kind := .insert,
    rel := { fieldName := b!"Rel",
             id := { name := b!"relation_a", alias := b!"a" },
             type := { base := { kind := .struct } } },
    force := some { all := true } }

def want28 : Query :=
  { typeName := b!"UpdateAnalysisTestOK_Force",
    kind := .update,
    rel := { fieldName := b!"Rel",
             id := { name := b!"relation_a", alias := b!"a" },
             type := { base := { name := b!"T2",
                                 kind := .struct,
                                 pkgPath := b!"path/to/test",
                                 pkgName := b!"testdata" },
                       fields := [{ name := b!"Foo",
                                    type := .leaf { kind := .int },
                                    isEmbedded := false,
                                    isExported := true,
                                    tag := [(b!"sql", [b!"foo"])],
                                    colIdent := { name := b!"foo" },
                                    filterColumnKey := b!"Foo",
                                    mode := modeDefault },
                                  { name := b!"Bar",
                                    type := .leaf { kind := .string },
                                    isEmbedded := false,
                                    isExported := true,
                                    tag := [(b!"sql", [b!"bar"])],
                                    colIdent := { name := b!"bar" },
                                    filterColumnKey := b!"Bar",
                                    mode := modeDefault },
                                  { name := b!"Baz",
                                    type := .leaf { kind := .bool },
                                    isEmbedded := false,
                                    isExported := true,
                                    tag := [(b!"sql", [b!"baz"])],
                                    colIdent := { name := b!"baz" },
                                    filterColumnKey := b!"Baz",
                                    mode := modeDefault }] } },
    force := some { items := [{ qualifier := b!"a", name := b!"foo" },
                              { qualifier := b!"a", name := b!"bar" },
                              { qualifier := b!"a", name := b!"baz" }] } }

def want29 : Query :=
  { typeName := b!"SelectAnalysisTestOK_ErrorHandler",
    kind := .select,
    rel := { fieldName := b!"Rel",
             id := { name := b!"relation_a", alias := b!"a" },
             type := { base := { kind := .struct } } },
    errorHandler := some (b!"eh", false) }

def want30 : Query :=
  { typeName := b!"InsertAnalysisTestOK_ErrorHandler",
    kind := .insert,
    rel := { fieldName := b!"Rel",
             id := { name := b!"relation_a", alias := b!"a" },
             type := { base := { kind := .struct } } },
    errorHandler := some (b!"myerrorhandler", false) }

def want31 : Query :=
  { typeName := b!"SelectAnalysisTestOK_ErrorInfoHandler",
    kind := .select,
    rel := { fieldName := b!"Rel",
             id := { name := b!"relation_a", alias := b!"a" },
             type := { base := { kind := .struct } } },
    errorHandler := some (b!"eh", true) }

def want32 : Query :=
  { typeName := b!"InsertAnalysisTestOK_ErrorInfoHandler",
    kind := .insert,
    rel := { fieldName := b!"Rel",
             id := { name := b!"relation_a", alias := b!"a" },
             type := { base := { kind := .struct } } },
    errorHandler := some (b!"myerrorinfohandler", true) }

def want33 : Query :=
  { typeName := b!"SelectAnalysisTestOK_Count",
    kind := .selectCount,
    rel := { fieldName := b!"Count", id := { name := b!"relation_a", alias := b!"a" } } }

def want34 : Query :=
  { typeName := b!"SelectAnalysisTestOK_Exists",
    kind := .selectExists,
    rel := { fieldName := b!"Exists", id := { name := b!"relation_a", alias := b!"a" } } }

def want35 : Query :=
  { typeName := b!"SelectAnalysisTestOK_NotExists",
    kind := .selectNotExists,
    rel := { fieldName := b!"NotExists", id := { name := b!"relation_a", alias := b!"a" } } }

def want36 : Query :=
  { typeName := b!"DeleteAnalysisTestOK_Relation",
    kind := .delete,
    rel := { fieldName := b!"_",
             id := { name := b!"relation_a", alias := b!"a" },
             isDirective := true } }

def want37 : Query :=
  { typeName := b!"SelectAnalysisTestOK_LimitDirective",
    kind := .select,
    rel := { fieldName := b!"Rel",
             id := { name := b!"relation_a", alias := b!"a" },
             type := { base := { name := b!"T",
                                 kind := .struct,
                                 pkgPath := b!"path/to/test",
                                 pkgName := b!"testdata" },
                       isSlice := true,
                       fields := [{ name := b!"F",
                                    type := .leaf { kind := .string },
                                    isEmbedded := false,
                                    isExported := true,
                                    tag := [(b!"sql", [b!"f"])],
                                    colIdent := { name := b!"f" },
                                    filterColumnKey := b!"F",
                                    mode := modeDefault }] } },
    limit := some { value := 25 } }

def want38 : Query :=
  { typeName := b!"SelectAnalysisTestOK_LimitField",
    kind := .select,
    rel := { fieldName := b!"Rel",
             id := { name := b!"relation_a", alias := b!"a" },
             type := { base := { name := b!"T",
                                 kind := .struct,
                                 pkgPath := b!"path/to/test",
                                 pkgName := b!"testdata" },
                       isSlice := true,
                       fields := [{ name := b!"F",
                                    type := .leaf { kind := .string },
                                    isEmbedded := false,
                                    isExported := true,
                                    tag := [(b!"sql", [b!"f"])],
                                    colIdent := { name := b!"f" },
                                    filterColumnKey := b!"F",
                                    mode := modeDefault }] } },
    limit := some { name := b!"Limit", value := 10 } }

def want39 : Query :=
  { typeName := b!"SelectAnalysisTestOK_OffsetDirective",
    kind := .select,
    rel := { fieldName := b!"Rel",
             id := { name := b!"relation_a", alias := b!"a" },
             type := { base := { name := b!"T",
                                 kind := .struct,
                                 pkgPath := b!"path/to/test",
                                 pkgName := b!"testdata" },
                       isSlice := true,
                       fields := [{ name := b!"F",
                                    type := .leaf { kind := .string },
                                    isEmbedded := false,
                                    isExported := true,
                                    tag := [(b!"sql", [b!"f"])],
                                    colIdent := { name := b!"f" },
                                    filterColumnKey := b!"F",
                                    mode := modeDefault }] } },
    offset := some { value := 25 } }

def want40 : Query :=
  { typeName := b!"SelectAnalysisTestOK_OffsetField",
    kind := .select,
    rel := { fieldName := b!"Rel",
             id := { name := b!"relation_a", alias := b!"a" },
             type := { base := { name := b!"T",
                                 kind := .struct,
                                 pkgPath := b!"path/to/test",
                                 pkgName := b!"testdata" },
                       isSlice := true,
                       fields := [{ name := b!"F",
                                    type := .leaf { kind := .string },
                                    isEmbedded := false,
                                    isExported := true,
                                    tag := [(b!"sql", [b!"f"])],
                                    colIdent := { name := b!"f" },
                                    filterColumnKey := b!"F",
                                    mode := modeDefault }] } },
    offset := some { name := b!"Offset", value := 10 } }

def want41 : Query :=
  { typeName := b!"SelectAnalysisTestOK_OrderByDirective",
    kind := .select,
    rel := { fieldName := b!"Rel",
             id := { name := b!"relation_a", alias := b!"a" },
             type := { base := { name := b!"T",
                                 kind := .struct,
                                 pkgPath := b!"path/to/test",
                                 pkgName := b!"testdata" },
                       isSlice := true,
                       fields := [{ name := b!"F",
                                    type := .leaf { kind := .string },
                                    isEmbedded := false,
                                    isExported := true,
                                    tag := [(b!"sql", [b!"f"])],
                                    colIdent := { name := b!"f" },
                                    filterColumnKey := b!"F",
                                    mode := modeDefault }] } },
    orderBy := some [{ colIdent := { qualifier := b!"a", name := b!"foo" },
                       nulls := some .first },
                     { colIdent := { qualifier := b!"a", name := b!"bar" },
                       desc := true,
                       nulls := some .first },
                     { colIdent := { qualifier := b!"a", name := b!"baz" }, desc := true },
                     { colIdent := { qualifier := b!"a", name := b!"quux" },
                       nulls := some .last }] }

def want42 : Query :=
  { typeName := b!"InsertAnalysisTestOK_OverrideDirective",
    kind := .insert,
    rel := { fieldName := b!"Rel",
             id := { name := b!"relation_a", alias := b!"a" },
             type := { base := { name := b!"T",
                                 kind := .struct,
                                 pkgPath := b!"path/to/test",
                                 pkgName := b!"testdata" },
                       isSlice := true,
                       fields := [{ name := b!"F",
                                    type := .leaf { kind := .string },
                                    isEmbedded := false,
                                    isExported := true,
                                    tag := [(b!"sql", [b!"f"])],
                                    colIdent := { name := b!"f" },
                                    filterColumnKey := b!"F",
                                    mode := modeDefault }] } },
    override := some .system }

def want43 : Query :=
  { typeName := b!"InsertAnalysisTestOK_OnConflict",
    kind := .insert,
    rel := { fieldName := b!"Rel",
             id := { name := b!"relation_a", alias := b!"a" },
             type := { base := { name := b!"T",
                                 kind := .struct,
                                 pkgPath := b!"path/to/test",
                                 pkgName := b!"testdata" },
                       isSlice := true,
                       fields := [{ name := b!"F",
                                    type := .leaf { kind := .string },
                                    isEmbedded := false,
                                    isExported := true,
                                    tag := [(b!"sql", [b!"f"])],
                                    colIdent := { name := b!"f" },
                                    filterColumnKey := b!"F",
                                    mode := modeDefault }] } },
    onConflict := some { fieldName := b!"OnConflict", ignore := true } }

def want44 : Query :=
  { typeName := b!"InsertAnalysisTestOK_OnConflictColumn",
    kind := .insert,
    rel := { fieldName := b!"Rel",
             id := { name := b!"relation_a", alias := b!"a" },
             type := { base := { name := b!"T",
                                 kind := .struct,
                                 pkgPath := b!"path/to/test",
                                 pkgName := b!"testdata" },
                       isSlice := true,
                       fields := [{ name := b!"F",
                                    type := .leaf { kind := .string },
                                    isEmbedded := false,
                                    isExported := true,
                                    tag := [(b!"sql", [b!"f"])],
                                    colIdent := { name := b!"f" },
                                    filterColumnKey := b!"F",
                                    mode := modeDefault }] } },
    onConflict := some { fieldName := b!"OnConflict",
                         column := some [{ qualifier := b!"a", name := b!"id" }],
                         ignore := true } }

def want45 : Query :=
  { typeName := b!"InsertAnalysisTestOK_OnConflictConstraint",
    kind := .insert,
    rel := { fieldName := b!"Rel",
             id := { name := b!"relation_a", alias := b!"a" },
             type := { base := { name := b!"T",
                                 kind := .struct,
                                 pkgPath := b!"path/to/test",
                                 pkgName := b!"testdata" },
                       isSlice := true,
                       fields := [{ name := b!"F",
                                    type := .leaf { kind := .string },
                                    isEmbedded := false,
                                    isExported := true,
                                    tag := [(b!"sql", [b!"f"])],
                                    colIdent := { name := b!"f" },
                                    filterColumnKey := b!"F",
                                    mode := modeDefault }] } },
    onConflict := some { fieldName := b!"OnConflict",
                         constraint := some b!"relation_constraint_xyz",
                         update := some { items := [{ qualifier := b!"a", name := b!"foo" },
                                                    { qualifier := b!"a", name := b!"bar" },
                                                    { qualifier := b!"a", name := b!"baz" }] } } }

def want46 : Query :=
  { typeName := b!"InsertAnalysisTestOK_OnConflictIndex",
    kind := .insert,
    rel := { fieldName := b!"Rel",
             id := { name := b!"relation_a", alias := b!"a" },
             type := { base := { name := b!"T",
                                 kind := .struct,
                                 pkgPath := b!"path/to/test",
                                 pkgName := b!"testdata" },
                       isSlice := true,
                       fields := [{ name := b!"F",
                                    type := .leaf { kind := .string },
                                    isEmbedded := false,
                                    isExported := true,
                                    tag := [(b!"sql", [b!"f"])],
                                    colIdent := { name := b!"f" },
                                    filterColumnKey := b!"F",
                                    mode := modeDefault }] } },
    onConflict := some { fieldName := b!"OnConflict",
                         index := some b!"relation_index_xyz",
                         update := some { all := true } } }

def want47 : Query :=
  { typeName := b!"DeleteAnalysisTestOK_ResultField",
    kind := .delete,
    rel := { fieldName := b!"_",
             id := { name := b!"relation_a", alias := b!"a" },
             isDirective := true },
    wher := some { fieldName := b!"Where",
                   items := [.column { lhs := { qualifier := b!"a", name := b!"is_inactive" },
                                       pred := (.some .isTrue),
                                       quant := .none }] },
    result := some (b!"Result",
                    { base := { name := b!"T",
                                kind := .struct,
                                pkgPath := b!"path/to/test",
                                pkgName := b!"testdata" },
                      isSlice := true,
                      fields := [{ name := b!"F",
                                   type := .leaf { kind := .string },
                                   isEmbedded := false,
                                   isExported := true,
                                   tag := [(b!"sql", [b!"f"])],
                                   colIdent := { name := b!"f" },
                                   filterColumnKey := b!"F",
                                   mode := modeDefault }] }) }

def want48 : Query :=
  { typeName := b!"DeleteAnalysisTestOK_RowsAffected",
    kind := .delete,
    rel := { fieldName := b!"_",
             id := { name := b!"relation_a", alias := b!"a" },
             isDirective := true },
    wher := some { fieldName := b!"Where",
                   items := [.column { lhs := { qualifier := b!"a", name := b!"is_inactive" },
                                       pred := (.some .isTrue),
                                       quant := .none }] },
    rowsAffected := some (b!"RowsAffected", .int) }

def want49 : Query :=
  { typeName := b!"SelectAnalysisTestOK_FilterField",
    kind := .select,
    rel := { fieldName := b!"Rel",
             id := { name := b!"relation_a", alias := b!"a" },
             type := { base := { name := b!"T",
                                 kind := .struct,
                                 pkgPath := b!"path/to/test",
                                 pkgName := b!"testdata" },
                       isSlice := true,
                       fields := [{ name := b!"F",
                                    type := .leaf { kind := .string },
                                    isEmbedded := false,
                                    isExported := true,
                                    tag := [(b!"sql", [b!"f"])],
                                    colIdent := { name := b!"f" },
                                    filterColumnKey := b!"F",
                                    mode := modeDefault }] } },
    filter := some b!"Filter" }

def want50 : Query :=
  { typeName := b!"SelectAnalysisTestOK_FieldTypesBasic",
    kind := .select,
    rel := { fieldName := b!"Rel",
             id := { name := b!"relation_a", alias := b!"a" },
             type := { base := { kind := .struct },
                       fields := [{ name := b!"f1",
                                    type := .leaf { kind := .bool },
                                    isEmbedded := false,
                                    isExported := false,
                                    tag := [(b!"sql", [b!"c1"])],
                                    colIdent := { name := b!"c1" },
                                    filterColumnKey := b!"f1",
                                    mode := modeDefault },
                                  { name := b!"f2",
                                    type := .leaf { kind := .uint8, isByte := true },
                                    isEmbedded := false,
                                    isExported := false,
                                    tag := [(b!"sql", [b!"c2"])],
                                    colIdent := { name := b!"c2" },
                                    filterColumnKey := b!"f2",
                                    mode := modeDefault },
                                  { name := b!"f3",
                                    type := .leaf { kind := .int32, isRune := true },
                                    isEmbedded := false,
                                    isExported := false,
                                    tag := [(b!"sql", [b!"c3"])],
                                    colIdent := { name := b!"c3" },
                                    filterColumnKey := b!"f3",
                                    mode := modeDefault },
                                  { name := b!"f4",
                                    type := .leaf { kind := .int8 },
                                    isEmbedded := false,
                                    isExported := false,
                                    tag := [(b!"sql", [b!"c4"])],
                                    colIdent := { name := b!"c4" },
                                    filterColumnKey := b!"f4",
                                    mode := modeDefault },
                                  { name := b!"f5",
                                    type := .leaf { kind := .int16 },
                                    isEmbedded := false,
                                    isExported := false,
                                    tag := [(b!"sql", [b!"c5"])],
                                    colIdent := { name := b!"c5" },
                                    filterColumnKey := b!"f5",
                                    mode := modeDefault },
                                  { name := b!"f6",
                                    type := .leaf { kind := .int32 },
                                    isEmbedded := false,
                                    isExported := false,
                                    tag := [(b!"sql", [b!"c6"])],
                                    colIdent := { name := b!"c6" },
                                    filterColumnKey := b!"f6",
                                    mode := modeDefault },
                                  { name := b!"f7",
                                    type := .leaf { kind := .int64 },
                                    isEmbedded := false,
                                    isExported := false,
                                    tag := [(b!"sql", [b!"c7"])],
                                    colIdent := { name := b!"c7" },
                                    filterColumnKey := b!"f7",
                                    mode := modeDefault },
                                  { name := b!"f8",
                                    type := .leaf { kind := .int },
                                    isEmbedded := false,
                                    isExported := false,
                                    tag := [(b!"sql", [b!"c8"])],
                                    colIdent := { name := b!"c8" },
                                    filterColumnKey := b!"f8",
                                    mode := modeDefault },
                                  { name := b!"f9",
                                    type := .leaf { kind := .uint8 },
                                    isEmbedded := false,
                                    isExported := false,
                                    tag := [(b!"sql", [b!"c9"])],
                                    colIdent := { name := b!"c9" },
                                    filterColumnKey := b!"f9",
                                    mode := modeDefault },
                                  { name := b!"f10",
                                    type := .leaf { kind := .uint16 },
                                    isEmbedded := false,
                                    isExported := false,
                                    tag := [(b!"sql", [b!"c10"])],
                                    colIdent := { name := b!"c10" },
                                    filterColumnKey := b!"f10",
                                    mode := modeDefault },
                                  { name := b!"f11",
                                    type := .leaf { kind := .uint32 },
                                    isEmbedded := false,
                                    isExported := false,
                                    tag := [(b!"sql", [b!"c11"])],
                                    colIdent := { name := b!"c11" },
                                    filterColumnKey := b!"f11",
                                    mode := modeDefault },
                                  { name := b!"f12",
                                    type := .leaf { kind := .uint64 },
                                    isEmbedded := false,
                                    isExported := false,
                                    tag := [(b!"sql", [b!"c12"])],
                                    colIdent := { name := b!"c12" },
                                    filterColumnKey := b!"f12",
                                    mode := modeDefault },
                                  { name := b!"f13",
                                    type := .leaf { kind := .uint },
                                    isEmbedded := false,
                                    isExported := false,
                                    tag := [(b!"sql", [b!"c13"])],
                                    colIdent := { name := b!"c13" },
                                    filterColumnKey := b!"f13",
                                    mode := modeDefault },
                                  { name := b!"f14",
                                    type := .leaf { kind := .uintptr },
                                    isEmbedded := false,
                                    isExported := false,
                                    tag := [(b!"sql", [b!"c14"])],
                                    colIdent := { name := b!"c14" },
                                    filterColumnKey := b!"f14",
                                    mode := modeDefault },
                                  { name := b!"f15",
                                    type := .leaf { kind := .float32 },
                                    isEmbedded := false,
                                    isExported := false,
                                    tag := [(b!"sql", [b!"c15"])],
                                    colIdent := { name := b!"c15" },
                                    filterColumnKey := b!"f15",
                                    mode := modeDefault },
                                  { name := b!"f16",
                                    type := .leaf { kind := .float64 },
                                    isEmbedded := false,
                                    isExported := false,
                                    tag := [(b!"sql", [b!"c16"])],
                                    colIdent := { name := b!"c16" },
                                    filterColumnKey := b!"f16",
                                    mode := modeDefault },
                                  { name := b!"f17",
                                    type := .leaf { kind := .complex64 },
                                    isEmbedded := false,
                                    isExported := false,
                                    tag := [(b!"sql", [b!"c17"])],
                                    colIdent := { name := b!"c17" },
                                    filterColumnKey := b!"f17",
                                    mode := modeDefault },
                                  { name := b!"f18",
                                    type := .leaf { kind := .complex128 },
                                    isEmbedded := false,
                                    isExported := false,
                                    tag := [(b!"sql", [b!"c18"])],
                                    colIdent := { name := b!"c18" },
                                    filterColumnKey := b!"f18",
                                    mode := modeDefault },
                                  { name := b!"f19",
                                    type := .leaf { kind := .string },
                                    isEmbedded := false,
                                    isExported := false,
                                    tag := [(b!"sql", [b!"c19"])],
                                    colIdent := { name := b!"c19" },
                                    filterColumnKey := b!"f19",
                                    mode := modeDefault }] } } }

def want51 : Query :=
  { typeName := b!"SelectAnalysisTestOK_FieldTypesSlices",
    kind := .select,
    rel := { fieldName := b!"Rel",
             id := { name := b!"relation_a", alias := b!"a" },
             type := { base := { kind := .struct },
                       fields := [{ name := b!"f1",
                                    type := .elem { kind := .slice } (.leaf { kind := .bool }),
                                    isEmbedded := false,
                                    isExported := false,
                                    tag := [(b!"sql", [b!"c1"])],
                                    colIdent := { name := b!"c1" },
                                    filterColumnKey := b!"f1",
                                    mode := modeDefault },
                                  { name := b!"f2",
                                    type := .elem { kind := .slice } (.leaf { kind := .uint8,
                                                                              isByte := true }),
                                    isEmbedded := false,
                                    isExported := false,
                                    tag := [(b!"sql", [b!"c2"])],
                                    colIdent := { name := b!"c2" },
                                    filterColumnKey := b!"f2",
                                    mode := modeDefault },
                                  { name := b!"f3",
                                    type := .elem { kind := .slice } (.leaf { kind := .int32,
                                                                              isRune := true }),
                                    isEmbedded := false,
                                    isExported := false,
                                    tag := [(b!"sql", [b!"c3"])],
                                    colIdent := { name := b!"c3" },
                                    filterColumnKey := b!"f3",
                                    mode := modeDefault },
                                  { name := b!"f4",
                                    type := .elem { name := b!"HardwareAddr",
                                                    kind := .slice,
                                                    pkgPath := b!"net",
                                                    pkgName := b!"net",
                                                    isImported := true } (.leaf { kind := .uint8,
                                                                                  isByte := true }),
                                    isEmbedded := false,
                                    isExported := false,
                                    tag := [(b!"sql", [b!"c4"])],
                                    colIdent := { name := b!"c4" },
                                    filterColumnKey := b!"f4",
                                    mode := modeDefault },
                                  { name := b!"f5",
                                    type := .elem { name := b!"RawMessage",
                                                    kind := .slice,
                                                    pkgPath := b!"encoding/json",
                                                    pkgName := b!"json",
                                                    isImported := true,
                                                    isJSONMarshaler := true,
                                                    isJSONUnmarshaler := true } (.leaf { kind := .uint8,
                                                                                         isByte := true }),
                                    isEmbedded := false,
                                    isExported := false,
                                    tag := [(b!"sql", [b!"c5"])],
                                    colIdent := { name := b!"c5" },
                                    filterColumnKey := b!"f5",
                                    mode := modeDefault },
                                  { name := b!"f6",
                                    type := .elem { kind := .slice } (.leaf { name := b!"Marshaler",
                                                                              kind := .interface,
                                                                              pkgPath := b!"encoding/json",
                                                                              pkgName := b!"json",
                                                                              isImported := true,
                                                                              isJSONMarshaler := true }),
                                    isEmbedded := false,
                                    isExported := false,
                                    tag := [(b!"sql", [b!"c6"])],
                                    colIdent := { name := b!"c6" },
                                    filterColumnKey := b!"f6",
                                    mode := modeDefault },
                                  { name := b!"f7",
                                    type := .elem { kind := .slice } (.elem { name := b!"RawMessage",
                                                                              kind := .slice,
                                                                              pkgPath := b!"encoding/json",
                                                                              pkgName := b!"json",
                                                                              isImported := true,
                                                                              isJSONMarshaler := true,
                                                                              isJSONUnmarshaler := true } (.leaf { kind := .uint8,
                                                                                                                   isByte := true })),
                                    isEmbedded := false,
                                    isExported := false,
                                    tag := [(b!"sql", [b!"c7"])],
                                    colIdent := { name := b!"c7" },
                                    filterColumnKey := b!"f7",
                                    mode := modeDefault },
                                  { name := b!"f8",
                                    type := .elem { kind := .slice } (.elem { kind := .slice } (.leaf { kind := .uint8,
                                                                                                        isByte := true })),
                                    isEmbedded := false,
                                    isExported := false,
                                    tag := [(b!"sql", [b!"c8"])],
                                    colIdent := { name := b!"c8" },
                                    filterColumnKey := b!"f8",
                                    mode := modeDefault },
                                  { name := b!"f9",
                                    type := .elem { kind := .slice } (.elem { kind := .array,
                                                                              arrayLen := 2 } (.elem { kind := .array,
                                                                                                       arrayLen := 2 } (.leaf { kind := .float64 }))),
                                    isEmbedded := false,
                                    isExported := false,
                                    tag := [(b!"sql", [b!"c9"])],
                                    colIdent := { name := b!"c9" },
                                    filterColumnKey := b!"f9",
                                    mode := modeDefault },
                                  { name := b!"f10",
                                    type := .elem { kind := .slice } (.elem { kind := .slice } (.elem { kind := .array,
                                                                                                        arrayLen := 2 } (.leaf { kind := .float64 }))),
                                    isEmbedded := false,
                                    isExported := false,
                                    tag := [(b!"sql", [b!"c10"])],
                                    colIdent := { name := b!"c10" },
                                    filterColumnKey := b!"f10",
                                    mode := modeDefault },
                                  { name := b!"f11",
                                    type := .keyed { kind := .map } (.leaf { kind := .string }) (.leaf { name := b!"NullString",
                                                                                                         kind := .struct,
                                                                                                         pkgPath := b!"database/sql",
                                                                                                         pkgName := b!"sql",
                                                                                                         isImported := true,
                                                                                                         isScanner := true,
                                                                                                         isValuer := true }),
                                    isEmbedded := false,
                                    isExported := false,
                                    tag := [(b!"sql", [b!"c11"])],
                                    colIdent := { name := b!"c11" },
                                    filterColumnKey := b!"f11",
                                    mode := modeDefault },
                                  { name := b!"f12",
                                    type := .elem { kind := .slice } (.keyed { kind := .map } (.leaf { kind := .string }) (.elem { kind := .ptr } (.leaf { kind := .string }))),
                                    isEmbedded := false,
                                    isExported := false,
                                    tag := [(b!"sql", [b!"c12"])],
                                    colIdent := { name := b!"c12" },
                                    filterColumnKey := b!"f12",
                                    mode := modeDefault },
                                  { name := b!"f13",
                                    type := .elem { kind := .slice } (.elem { kind := .array,
                                                                              arrayLen := 2 } (.elem { kind := .ptr } (.leaf { name := b!"Int",
                                                                                                                               kind := .struct,
                                                                                                                               pkgPath := b!"math/big",
                                                                                                                               pkgName := b!"big",
                                                                                                                               isImported := true,
                                                                                                                               isJSONMarshaler := true,
                                                                                                                               isJSONUnmarshaler := true }))),
                                    isEmbedded := false,
                                    isExported := false,
                                    tag := [(b!"sql", [b!"c13"])],
                                    colIdent := { name := b!"c13" },
                                    filterColumnKey := b!"f13",
                                    mode := modeDefault }] } } }

def want52 : Query :=
  { typeName := b!"SelectAnalysisTestOK_FieldTypesInterfaces",
    kind := .select,
    rel := { fieldName := b!"Rel",
             id := { name := b!"relation_a", alias := b!"a" },
             type := { base := { kind := .struct },
                       fields := [{ name := b!"f1",
                                    type := .leaf { name := b!"Marshaler",
                                                    kind := .interface,
                                                    pkgPath := b!"encoding/json",
                                                    pkgName := b!"json",
                                                    isImported := true,
                                                    isJSONMarshaler := true },
                                    isEmbedded := false,
                                    isExported := false,
                                    tag := [(b!"sql", [b!"c1"])],
                                    colIdent := { name := b!"c1" },
                                    filterColumnKey := b!"f1",
                                    mode := modeDefault },
                                  { name := b!"f2",
                                    type := .leaf { name := b!"Unmarshaler",
                                                    kind := .interface,
                                                    pkgPath := b!"encoding/json",
                                                    pkgName := b!"json",
                                                    isImported := true,
                                                    isJSONUnmarshaler := true },
                                    isEmbedded := false,
                                    isExported := false,
                                    tag := [(b!"sql", [b!"c2"])],
                                    colIdent := { name := b!"c2" },
                                    filterColumnKey := b!"f2",
                                    mode := modeDefault },
                                  { name := b!"f3",
                                    type := .leaf { kind := .interface },
                                    isEmbedded := false,
                                    isExported := false,
                                    tag := [(b!"sql", [b!"c3"])],
                                    colIdent := { name := b!"c3" },
                                    filterColumnKey := b!"f3",
                                    mode := modeDefault }] } } }

def want53 : Query :=
  { typeName := b!"SelectAnalysisTestOK_FieldTypesEmptyInterfaces",
    kind := .select,
    rel := { fieldName := b!"Rel",
             id := { name := b!"relation_a", alias := b!"a" },
             type := { base := { kind := .struct },
                       fields := [{ name := b!"f1",
                                    type := .leaf { kind := .interface,
                                                    isEmptyInterface := true },
                                    isEmbedded := false,
                                    isExported := false,
                                    tag := [(b!"sql", [b!"c1"])],
                                    colIdent := { name := b!"c1" },
                                    filterColumnKey := b!"f1",
                                    mode := modeDefault },
                                  { name := b!"f2",
                                    type := .elem { kind := .ptr } (.leaf { kind := .interface,
                                                                            isEmptyInterface := true }),
                                    isEmbedded := false,
                                    isExported := false,
                                    tag := [(b!"sql", [b!"c2"])],
                                    colIdent := { name := b!"c2" },
                                    filterColumnKey := b!"f2",
                                    mode := modeDefault },
                                  { name := b!"f3",
                                    type := .leaf { name := b!"donothing",
                                                    kind := .interface,
                                                    pkgPath := b!"path/to/test",
                                                    pkgName := b!"testdata",
                                                    isEmptyInterface := true },
                                    isEmbedded := false,
                                    isExported := false,
                                    tag := [(b!"sql", [b!"c3"])],
                                    colIdent := { name := b!"c3" },
                                    filterColumnKey := b!"f3",
                                    mode := modeDefault },
                                  { name := b!"f4",
                                    type := .elem { kind := .ptr } (.leaf { name := b!"donothing",
                                                                            kind := .interface,
                                                                            pkgPath := b!"path/to/test",
                                                                            pkgName := b!"testdata",
                                                                            isEmptyInterface := true }),
                                    isEmbedded := false,
                                    isExported := false,
                                    tag := [(b!"sql", [b!"c4"])],
                                    colIdent := { name := b!"c4" },
                                    filterColumnKey := b!"f4",
                                    mode := modeDefault }] } } }

def want54 : Query :=
  { typeName := b!"SelectAnalysisTestOK_WithContext",
    kind := .select,
    rel := { fieldName := b!"UserRec",
             id := { name := b!"users_table" },
             type := { base := { name := b!"User",
                                 kind := .struct,
                                 pkgPath := b!"github.com/frk/gosql/internal/testdata/common",
                                 pkgName := b!"common",
                                 isImported := true },
                       isPointer := true,
                       fields := [{ name := b!"Id",
                                    type := .leaf { kind := .int },
                                    isEmbedded := false,
                                    isExported := true,
                                    tag := [(b!"sql", [b!"id"])],
                                    colIdent := { name := b!"id" },
                                    filterColumnKey := b!"Id",
                                    mode := modeDefault },
                                  { name := b!"Email",
                                    type := .leaf { kind := .string },
                                    isEmbedded := false,
                                    isExported := true,
                                    tag := [(b!"sql", [b!"email"])],
                                    colIdent := { name := b!"email" },
                                    filterColumnKey := b!"Email",
                                    mode := modeDefault },
                                  { name := b!"FullName",
                                    type := .leaf { kind := .string },
                                    isEmbedded := false,
                                    isExported := true,
                                    tag := [(b!"sql", [b!"full_name"])],
                                    colIdent := { name := b!"full_name" },
                                    filterColumnKey := b!"FullName",
                                    mode := modeDefault },
                                  { name := b!"CreatedAt",
                                    type := .leaf { name := b!"Time",
                                                    kind := .struct,
                                                    pkgPath := b!"time",
                                                    pkgName := b!"time",
                                                    isImported := true,
                                                    isJSONMarshaler := true,
                                                    isJSONUnmarshaler := true },
                                    isEmbedded := false,
                                    isExported := true,
                                    tag := [(b!"sql", [b!"created_at"])],
                                    colIdent := { name := b!"created_at" },
                                    filterColumnKey := b!"CreatedAt",
                                    mode := modeDefault }] } },
    context := some b!"Context" }

def want55 : Query :=
  { typeName := b!"SelectAnalysisTestOK_WithContextNamed",
    kind := .select,
    rel := { fieldName := b!"UserRec",
             id := { name := b!"users_table" },
             type := { base := { name := b!"User",
                                 kind := .struct,
                                 pkgPath := b!"github.com/frk/gosql/internal/testdata/common",
                                 pkgName := b!"common",
                                 isImported := true },
                       isPointer := true,
                       fields := [{ name := b!"Id",
                                    type := .leaf { kind := .int },
                                    isEmbedded := false,
                                    isExported := true,
                                    tag := [(b!"sql", [b!"id"])],
                                    colIdent := { name := b!"id" },
                                    filterColumnKey := b!"Id",
                                    mode := modeDefault },
                                  { name := b!"Email",
                                    type := .leaf { kind := .string },
                                    isEmbedded := false,
                                    isExported := true,
                                    tag := [(b!"sql", [b!"email"])],
                                    colIdent := { name := b!"email" },
                                    filterColumnKey := b!"Email",
                                    mode := modeDefault },
                                  { name := b!"FullName",
                                    type := .leaf { kind := .string },
                                    isEmbedded := false,
                                    isExported := true,
                                    tag := [(b!"sql", [b!"full_name"])],
                                    colIdent := { name := b!"full_name" },
                                    filterColumnKey := b!"FullName",
                                    mode := modeDefault },
                                  { name := b!"CreatedAt",
                                    type := .leaf { name := b!"Time",
                                                    kind := .struct,
                                                    pkgPath := b!"time",
                                                    pkgName := b!"time",
                                                    isImported := true,
                                                    isJSONMarshaler := true,
                                                    isJSONUnmarshaler := true },
                                    isEmbedded := false,
                                    isExported := true,
                                    tag := [(b!"sql", [b!"created_at"])],
                                    colIdent := { name := b!"created_at" },
                                    filterColumnKey := b!"CreatedAt",
                                    mode := modeDefault }] } },
    context := some b!"Ctx" }

/-- The accepted query structs and the expected results. -/
def okCases : List (Bytes × List (FieldHdr × Ty) × Query) := [
  (b!"InsertAnalysisTestOK1", ok0, want0),
  (b!"InsertAnalysisTestOK2", ok1, want1),
  (b!"SelectAnalysisTestOK3", ok2, want2),
  (b!"SelectAnalysisTestOK4", ok3, want3),
  (b!"SelectAnalysisTestOK5", ok4, want4),
  (b!"SelectAnalysisTestOK6", ok5, want5),
  (b!"SelectAnalysisTestOK7", ok6, want6),
  (b!"InsertAnalysisTestOK8", ok7, want7),
  (b!"DeleteAnalysisTestOK9", ok8, want8),
  (b!"DeleteAnalysisTestOK10", ok9, want9),
  (b!"DeleteAnalysisTestOK11", ok10, want10),
  (b!"DeleteAnalysisTestOK12", ok11, want11),
  (b!"DeleteAnalysisTestOK13", ok12, want12),
  (b!"DeleteAnalysisTestOK14", ok13, want13),
  (b!"DeleteAnalysisTestOK_DistinctFrom", ok14, want14),
  (b!"DeleteAnalysisTestOK_ArrayPredicate", ok15, want15),
  (b!"DeleteAnalysisTestOK_PatternMatching", ok16, want16),
  (b!"DeleteAnalysisTestOK_Using", ok17, want17),
  (b!"UpdateAnalysisTestOK_From", ok18, want18),
  (b!"SelectAnalysisTestOK_Join", ok19, want19),
  (b!"UpdateAnalysisTestOK_All", ok20, want20),
  (b!"DeleteAnalysisTestOK_All", ok21, want21),
  (b!"DeleteAnalysisTestOK_Return", ok22, want22),
  (b!"InsertAnalysisTestOK_Return", ok23, want23),
  (b!"UpdateAnalysisTestOK_Return", ok24, want24),
  (b!"InsertAnalysisTestOK_Default", ok25, want25),
  (b!"UpdateAnalysisTestOK_Default", ok26, want26),
  (b!"InsertAnalysisTestOK_Force", ok27, want27),
  (b!"UpdateAnalysisTestOK_Force", ok28, want28),
  (b!"SelectAnalysisTestOK_ErrorHandler", ok29, want29),
  (b!"InsertAnalysisTestOK_ErrorHandler", ok30, want30),
  (b!"SelectAnalysisTestOK_ErrorInfoHandler", ok31, want31),
  (b!"InsertAnalysisTestOK_ErrorInfoHandler", ok32, want32),
  (b!"SelectAnalysisTestOK_Count", ok33, want33),
  (b!"SelectAnalysisTestOK_Exists", ok34, want34),
  (b!"SelectAnalysisTestOK_NotExists", ok35, want35),
  (b!"DeleteAnalysisTestOK_Relation", ok36, want36),
  (b!"SelectAnalysisTestOK_LimitDirective", ok37, want37),
  (b!"SelectAnalysisTestOK_LimitField", ok38, want38),
  (b!"SelectAnalysisTestOK_OffsetDirective", ok39, want39),
  (b!"SelectAnalysisTestOK_OffsetField", ok40, want40),
  (b!"SelectAnalysisTestOK_OrderByDirective", ok41, want41),
  (b!"InsertAnalysisTestOK_OverrideDirective", ok42, want42),
  (b!"InsertAnalysisTestOK_OnConflict", ok43, want43),
  (b!"InsertAnalysisTestOK_OnConflictColumn", ok44, want44),
  (b!"InsertAnalysisTestOK_OnConflictConstraint", ok45, want45),
  (b!"InsertAnalysisTestOK_OnConflictIndex", ok46, want46),
  (b!"DeleteAnalysisTestOK_ResultField", ok47, want47),
  (b!"DeleteAnalysisTestOK_RowsAffected", ok48, want48),
  (b!"SelectAnalysisTestOK_FilterField", ok49, want49),
  (b!"SelectAnalysisTestOK_FieldTypesBasic", ok50, want50),
  (b!"SelectAnalysisTestOK_FieldTypesSlices", ok51, want51),
  (b!"SelectAnalysisTestOK_FieldTypesInterfaces", ok52, want52),
  (b!"SelectAnalysisTestOK_FieldTypesEmptyInterfaces", ok53, want53),
  (b!"SelectAnalysisTestOK_WithContext", ok54, want54),
  (b!"SelectAnalysisTestOK_WithContextNamed", ok55, want55)]
/-- internal/testdata/analysis_ok.go:412 -/
def fok0 : List (FieldHdr × Ty) := [
    low b!"_" t_T [(b!"rel", [b!"relation_a:a"])],
    low b!"_" g_TextSearch [(b!"sql", [b!"a.ts_document"])],
    emb b!"FilterMaker" c_FilterMaker [(b!"filter", [b!"v2"])]]

def fwant0 : FilterStruct :=
  { typeName := b!"FilterAnalysisTestOK_TextSearchDirective",
    rel := { fieldName := b!"_",
             id := { name := b!"relation_a", alias := b!"a" },
             type := { base := { name := b!"T",
                                 kind := .struct,
                                 pkgPath := b!"path/to/test",
                                 pkgName := b!"testdata" },
                       fields := [{ name := b!"F",
                                    type := .leaf { kind := .string },
                                    isEmbedded := false,
                                    isExported := true,
                                    tag := [(b!"sql", [b!"f"])],
                                    colIdent := { name := b!"f" },
                                    filterColumnKey := b!"F",
                                    mode := modeDefault }] } },
    textSearch := some { qualifier := b!"a", name := b!"ts_document" },
    constructor := (b!"FilterMaker", true) }

/-- The accepted filter structs and the expected results. -/
def fokCases : List (Bytes × List (FieldHdr × Ty) × FilterStruct) := [
  (b!"FilterAnalysisTestOK_TextSearchDirective", fok0, fwant0)]

/-- internal/testdata/analysis_ok.go:534 -/
def literalTarget : List (FieldHdr × Ty) := [
    fld b!"Rel" (.struct (.ofList [
    low b!"f01" (.basic .bool b!"bool") [(b!"sql", [b!"c01"])],
    low b!"f02" (.ptr (.basic .bool b!"bool")) [(b!"sql", [b!"c02"])],
    low b!"f03" (.slice (.basic .bool b!"bool")) [(b!"sql", [b!"c03"])],
    low b!"f04" (.basic .string b!"string") [(b!"sql", [b!"c04"])],
    low b!"f05" (.ptr (.basic .string b!"string")) [(b!"sql", [b!"c05"])],
    low b!"f06" (.slice (.basic .string b!"string")) [(b!"sql", [b!"c06"])],
    low b!"f07" (.slice (.slice (.basic .string b!"string"))) [(b!"sql", [b!"c07"])],
    low b!"f08" (.map (.basic .string b!"string") (.basic .string b!"string")) [(b!"sql", [b!"c08"])],
    low b!"f09" (.map (.basic .string b!"string") (.ptr (.basic .string b!"string"))) [(b!"sql", [b!"c09"])],
    low b!"f10" (.slice (.map (.basic .string b!"string") (.basic .string b!"string"))) [(b!"sql", [b!"c10"])],
    low b!"f11" (.slice (.map (.basic .string b!"string") (.ptr (.basic .string b!"string")))) [(b!"sql", [b!"c11"])],
    low b!"f12" (.basic .uint8 b!"byte") [(b!"sql", [b!"c12"])],
    low b!"f13" (.ptr (.basic .uint8 b!"byte")) [(b!"sql", [b!"c13"])],
    low b!"f14" (.slice (.basic .uint8 b!"byte")) [(b!"sql", [b!"c14"])],
    low b!"f15" (.slice (.slice (.basic .uint8 b!"byte"))) [(b!"sql", [b!"c15"])],
    low b!"f16" (.array 16 (.basic .uint8 b!"byte")) [(b!"sql", [b!"c16"])],
    low b!"f17" (.slice (.array 16 (.basic .uint8 b!"byte"))) [(b!"sql", [b!"c17"])],
    low b!"f18" (.basic .int32 b!"rune") [(b!"sql", [b!"c18"])],
    low b!"f19" (.ptr (.basic .int32 b!"rune")) [(b!"sql", [b!"c19"])],
    low b!"f20" (.slice (.basic .int32 b!"rune")) [(b!"sql", [b!"c20"])],
    low b!"f21" (.slice (.slice (.basic .int32 b!"rune"))) [(b!"sql", [b!"c21"])],
    low b!"f22" (.basic .int8 b!"int8") [(b!"sql", [b!"c22"])],
    low b!"f23" (.ptr (.basic .int8 b!"int8")) [(b!"sql", [b!"c23"])],
    low b!"f24" (.slice (.basic .int8 b!"int8")) [(b!"sql", [b!"c24"])],
    low b!"f25" (.slice (.slice (.basic .int8 b!"int8"))) [(b!"sql", [b!"c25"])],
    low b!"f26" (.basic .int16 b!"int16") [(b!"sql", [b!"c26"])],
    low b!"f27" (.ptr (.basic .int16 b!"int16")) [(b!"sql", [b!"c27"])],
    low b!"f28" (.slice (.basic .int16 b!"int16")) [(b!"sql", [b!"c28"])],
    low b!"f29" (.slice (.slice (.basic .int16 b!"int16"))) [(b!"sql", [b!"c29"])],
    low b!"f30" (.basic .int32 b!"int32") [(b!"sql", [b!"c30"])],
    low b!"f31" (.ptr (.basic .int32 b!"int32")) [(b!"sql", [b!"c31"])],
    low b!"f32" (.slice (.basic .int32 b!"int32")) [(b!"sql", [b!"c32"])],
    low b!"f33" (.array 2 (.basic .int32 b!"int32")) [(b!"sql", [b!"c33"])],
    low b!"f34" (.slice (.array 2 (.basic .int32 b!"int32"))) [(b!"sql", [b!"c34"])],
    low b!"f35" (.basic .int64 b!"int64") [(b!"sql", [b!"c35"])],
    low b!"f36" (.ptr (.basic .int64 b!"int64")) [(b!"sql", [b!"c36"])],
    low b!"f37" (.slice (.basic .int64 b!"int64")) [(b!"sql", [b!"c37"])],
    low b!"f38" (.array 2 (.basic .int64 b!"int64")) [(b!"sql", [b!"c38"])],
    low b!"f39" (.slice (.array 2 (.basic .int64 b!"int64"))) [(b!"sql", [b!"c39"])],
    low b!"f40" (.basic .float32 b!"float32") [(b!"sql", [b!"c40"])],
    low b!"f41" (.ptr (.basic .float32 b!"float32")) [(b!"sql", [b!"c41"])],
    low b!"f42" (.slice (.basic .float32 b!"float32")) [(b!"sql", [b!"c42"])],
    low b!"f43" (.basic .float64 b!"float64") [(b!"sql", [b!"c43"])],
    low b!"f44" (.ptr (.basic .float64 b!"float64")) [(b!"sql", [b!"c44"])],
    low b!"f45" (.slice (.basic .float64 b!"float64")) [(b!"sql", [b!"c45"])],
    low b!"f46" (.array 2 (.basic .float64 b!"float64")) [(b!"sql", [b!"c46"])],
    low b!"f47" (.slice (.array 2 (.basic .float64 b!"float64"))) [(b!"sql", [b!"c47"])],
    low b!"f48" (.slice (.slice (.array 2 (.basic .float64 b!"float64")))) [(b!"sql", [b!"c48"])],
    low b!"f49" (.array 2 (.array 2 (.basic .float64 b!"float64"))) [(b!"sql", [b!"c49"])],
    low b!"f50" (.slice (.array 2 (.array 2 (.basic .float64 b!"float64")))) [(b!"sql", [b!"c50"])],
    low b!"f51" (.array 3 (.basic .float64 b!"float64")) [(b!"sql", [b!"c51"])],
    low b!"f52" (.slice (.array 3 (.basic .float64 b!"float64"))) [(b!"sql", [b!"c52"])],
    low b!"f53" (.ptr net_IPNet) [(b!"sql", [b!"c53"])],
    low b!"f54" (.slice (.ptr net_IPNet)) [(b!"sql", [b!"c54"])],
    low b!"f55" time_Time [(b!"sql", [b!"c55"])],
    low b!"f56" (.ptr time_Time) [(b!"sql", [b!"c56"])],
    low b!"f57" (.slice time_Time) [(b!"sql", [b!"c57"])],
    low b!"f58" (.slice (.ptr time_Time)) [(b!"sql", [b!"c58"])],
    low b!"f59" (.array 2 time_Time) [(b!"sql", [b!"c59"])],
    low b!"f60" (.slice (.array 2 time_Time)) [(b!"sql", [b!"c60"])],
    low b!"f61" net_HardwareAddr [(b!"sql", [b!"c61"])],
    low b!"f62" (.slice net_HardwareAddr) [(b!"sql", [b!"c62"])],
    low b!"f63" big_Int [(b!"sql", [b!"c63"])],
    low b!"f64" (.ptr big_Int) [(b!"sql", [b!"c64"])],
    low b!"f65" (.slice big_Int) [(b!"sql", [b!"c65"])],
    low b!"f66" (.slice (.ptr big_Int)) [(b!"sql", [b!"c66"])],
    low b!"f67" (.array 2 big_Int) [(b!"sql", [b!"c67"])],
    low b!"f68" (.array 2 (.ptr big_Int)) [(b!"sql", [b!"c68"])],
    low b!"f69" (.slice (.array 2 (.ptr big_Int))) [(b!"sql", [b!"c69"])],
    low b!"f70" (.map (.basic .string b!"string") sql_NullString) [(b!"sql", [b!"c70"])],
    low b!"f71" (.slice (.map (.basic .string b!"string") sql_NullString)) [(b!"sql", [b!"c71"])],
    low b!"f72" json_RawMessage [(b!"sql", [b!"c72"])],
    low b!"f73" (.slice json_RawMessage) [(b!"sql", [b!"c73"])]])) [(b!"rel", [b!"relation_a:a"])]]

/-- TestTypeinfo_string: the fields and the expected texts of their types. -/
def literalCases : List (Bytes × Bytes) := [
  (b!"f01", b!"bool"),
  (b!"f02", b!"bool"),
  (b!"f03", b!"[]bool"),
  (b!"f04", b!"string"),
  (b!"f05", b!"string"),
  (b!"f06", b!"[]string"),
  (b!"f07", b!"[][]string"),
  (b!"f08", b!"map[string]string"),
  (b!"f09", b!"map[string]*string"),
  (b!"f10", b!"[]map[string]string"),
  (b!"f11", b!"[]map[string]*string"),
  (b!"f12", b!"byte"),
  (b!"f13", b!"byte"),
  (b!"f14", b!"[]byte"),
  (b!"f15", b!"[][]byte"),
  (b!"f16", b!"[16]byte"),
  (b!"f17", b!"[][16]byte"),
  (b!"f18", b!"rune"),
  (b!"f19", b!"rune"),
  (b!"f20", b!"[]rune"),
  (b!"f21", b!"[][]rune"),
  (b!"f22", b!"int8"),
  (b!"f23", b!"int8"),
  (b!"f24", b!"[]int8"),
  (b!"f25", b!"[][]int8"),
  (b!"f26", b!"int16"),
  (b!"f27", b!"int16"),
  (b!"f28", b!"[]int16"),
  (b!"f29", b!"[][]int16"),
  (b!"f30", b!"int32"),
  (b!"f31", b!"int32"),
  (b!"f32", b!"[]int32"),
  (b!"f33", b!"[2]int32"),
  (b!"f34", b!"[][2]int32"),
  (b!"f35", b!"int64"),
  (b!"f36", b!"int64"),
  (b!"f37", b!"[]int64"),
  (b!"f38", b!"[2]int64"),
  (b!"f39", b!"[][2]int64"),
  (b!"f40", b!"float32"),
  (b!"f41", b!"float32"),
  (b!"f42", b!"[]float32"),
  (b!"f43", b!"float64"),
  (b!"f44", b!"float64"),
  (b!"f45", b!"[]float64"),
  (b!"f46", b!"[2]float64"),
  (b!"f47", b!"[][2]float64"),
  (b!"f48", b!"[][][2]float64"),
  (b!"f49", b!"[2][2]float64"),
  (b!"f50", b!"[][2][2]float64"),
  (b!"f51", b!"[3]float64"),
  (b!"f52", b!"[][3]float64"),
  (b!"f53", b!"net.IPNet"),
  (b!"f54", b!"[]*net.IPNet"),
  (b!"f55", b!"time.Time"),
  (b!"f56", b!"time.Time"),
  (b!"f57", b!"[]time.Time"),
  (b!"f58", b!"[]*time.Time"),
  (b!"f59", b!"[2]time.Time"),
  (b!"f60", b!"[][2]time.Time"),
  (b!"f61", b!"net.HardwareAddr"),
  (b!"f62", b!"[]net.HardwareAddr"),
  (b!"f63", b!"big.Int"),
  (b!"f64", b!"big.Int"),
  (b!"f65", b!"[]big.Int"),
  (b!"f66", b!"[]*big.Int"),
  (b!"f67", b!"[2]big.Int"),
  (b!"f68", b!"[2]*big.Int"),
  (b!"f69", b!"[][2]*big.Int"),
  (b!"f70", b!"map[string]sql.NullString"),
  (b!"f71", b!"[]map[string]sql.NullString"),
  (b!"f72", b!"json.RawMessage"),
  (b!"f73", b!"[]json.RawMessage")]

end Verif.Conform
