import Verif.Conform.Base

/-
The named types of /repo/internal/testdata that the analysis tests use.

This file is written by /verif/tools/conform.py; do not edit it by hand.
-/
namespace Verif.Conform
open Verif.Analysis

/-- the standard library's time.Time -/
def time_Time : Ty :=
  .named { name := b!"Time", pkg := some ⟨b!"time", b!"time"⟩, isJSONMarshaler := true, isJSONUnmarshaler := true }
    (.struct .nil)

/-- internal/testdata/common/common.go:14 -/
def c_User : Ty :=
  .named { name := b!"User", pkg := some ⟨b!"github.com/frk/gosql/internal/testdata/common", b!"common"⟩ }
    (.struct (.ofList [
    fld b!"Id" (.basic .int b!"int") [(b!"sql", [b!"id"])],
    fld b!"Email" (.basic .string b!"string") [(b!"sql", [b!"email"])],
    fld b!"FullName" (.basic .string b!"string") [(b!"sql", [b!"full_name"])],
    fld b!"CreatedAt" time_Time [(b!"sql", [b!"created_at"])]]))

/-- internal/testdata/analysis_ok.go:18 -/
def t_T : Ty :=
  .named { name := b!"T", pkg := some ⟨b!"path/to/test", b!"testdata"⟩ }
    (.struct (.ofList [
    fld b!"F" (.basic .string b!"string") [(b!"sql", [b!"f"])]]))

/-- gosql.go:211 -/
def g_Relation : Ty :=
  .named { name := b!"Relation", pkg := some ⟨b!"github.com/frk/gosql", b!"gosql"⟩ }
    (.struct (.ofList [
    low b!"_isdir" (.struct .nil)]))

/-- gosql.go:191 -/
def g_All : Ty :=
  .named { name := b!"All", pkg := some ⟨b!"github.com/frk/gosql", b!"gosql"⟩ }
    (.struct (.ofList [
    low b!"_isdir" (.struct .nil)]))

/-- gosql.go:316 -/
def g_Default : Ty :=
  .named { name := b!"Default", pkg := some ⟨b!"github.com/frk/gosql", b!"gosql"⟩ }
    (.struct (.ofList [
    low b!"_isdir" (.struct .nil)]))

/-- gosql.go:301 -/
def g_Force : Ty :=
  .named { name := b!"Force", pkg := some ⟨b!"github.com/frk/gosql", b!"gosql"⟩ }
    (.struct (.ofList [
    low b!"_isdir" (.struct .nil)]))

/-- gosql.go:288 -/
def g_Return : Ty :=
  .named { name := b!"Return", pkg := some ⟨b!"github.com/frk/gosql", b!"gosql"⟩ }
    (.struct (.ofList [
    low b!"_isdir" (.struct .nil)]))

/-- gosql.go:324 -/
def g_Limit : Ty :=
  .named { name := b!"Limit", pkg := some ⟨b!"github.com/frk/gosql", b!"gosql"⟩ }
    (.struct (.ofList [
    low b!"_isdir" (.struct .nil)]))

/-- gosql.go:332 -/
def g_Offset : Ty :=
  .named { name := b!"Offset", pkg := some ⟨b!"github.com/frk/gosql", b!"gosql"⟩ }
    (.struct (.ofList [
    low b!"_isdir" (.struct .nil)]))

/-- gosql.go:348 -/
def g_OrderBy : Ty :=
  .named { name := b!"OrderBy", pkg := some ⟨b!"github.com/frk/gosql", b!"gosql"⟩ }
    (.struct (.ofList [
    low b!"_isdir" (.struct .nil)]))

/-- gosql.go:355 -/
def g_Override : Ty :=
  .named { name := b!"Override", pkg := some ⟨b!"github.com/frk/gosql", b!"gosql"⟩ }
    (.struct (.ofList [
    low b!"_isdir" (.struct .nil)]))

/-- gosql.go:362 -/
def g_TextSearch : Ty :=
  .named { name := b!"TextSearch", pkg := some ⟨b!"github.com/frk/gosql", b!"gosql"⟩ }
    (.struct (.ofList [
    low b!"_isdir" (.struct .nil)]))

/-- gosql.go:229 -/
def g_Column : Ty :=
  .named { name := b!"Column", pkg := some ⟨b!"github.com/frk/gosql", b!"gosql"⟩ }
    (.struct (.ofList [
    low b!"_isdir" (.struct .nil)]))

/-- gosql.go:56 -/
def g_Filter : Ty :=
  .named { name := b!"Filter", pkg := some ⟨b!"github.com/frk/gosql", b!"gosql"⟩ }
    (.iface { methods := 1, name0 := b!"ToSQL" } (.func { params := 1, results := 2, errResult := false } (.basic .int b!"int")))

/-- internal/testdata/analysis_ok.go:323 -/
def t_myerrorhandler : Ty :=
  .named { name := b!"myerrorhandler", pkg := some ⟨b!"path/to/test", b!"testdata"⟩, isErrorHandler := true }
    (.struct .nil)

/-- internal/testdata/analysis_bad.go:246 -/
def t_badIterator : Ty :=
  .named { name := b!"badIterator", pkg := some ⟨b!"path/to/test", b!"testdata"⟩ }
    (.iface { methods := 2, name0 := b!"Fn1" } (.func { params := 1, results := 1, errResult := true } (.ptr c_User)))

/-- internal/testdata/analysis_bad.go:251 -/
def t_badIterator2 : Ty :=
  .named { name := b!"badIterator2", pkg := some ⟨b!"path/to/test", b!"testdata"⟩ }
    (.iface { methods := 1, name0 := b!"Fn" } (.func { params := 1, results := 1, errResult := false } (.ptr c_User)))

/-- internal/testdata/common/common.go:150 -/
def c_BadIterator : Ty :=
  .named { name := b!"BadIterator", pkg := some ⟨b!"github.com/frk/gosql/internal/testdata/common", b!"common"⟩ }
    (.iface { methods := 1, name0 := b!"fn", exported0 := false } (.func { params := 1, results := 1, errResult := true } (.ptr c_User)))

/-- internal/testdata/analysis_bad.go:285 -/
def t_notstruct : Ty :=
  .named { name := b!"notstruct", pkg := some ⟨b!"path/to/test", b!"testdata"⟩ }
    (.basic .string b!"string")

/-- gosql.go:259 -/
def g_LeftJoin : Ty :=
  .named { name := b!"LeftJoin", pkg := some ⟨b!"github.com/frk/gosql", b!"gosql"⟩ }
    (.struct (.ofList [
    low b!"_isdir" (.struct .nil)]))

/-- gosql.go:373 -/
def g_Index : Ty :=
  .named { name := b!"Index", pkg := some ⟨b!"github.com/frk/gosql", b!"gosql"⟩ }
    (.struct (.ofList [
    low b!"_isdir" (.struct .nil)]))

/-- gosql.go:382 -/
def g_Constraint : Ty :=
  .named { name := b!"Constraint", pkg := some ⟨b!"github.com/frk/gosql", b!"gosql"⟩ }
    (.struct (.ofList [
    low b!"_isdir" (.struct .nil)]))

/-- gosql.go:396 -/
def g_Update : Ty :=
  .named { name := b!"Update", pkg := some ⟨b!"github.com/frk/gosql", b!"gosql"⟩ }
    (.struct (.ofList [
    low b!"_isdir" (.struct .nil)]))

/-- gosql.go:387 -/
def g_Ignore : Ty :=
  .named { name := b!"Ignore", pkg := some ⟨b!"github.com/frk/gosql", b!"gosql"⟩ }
    (.struct (.ofList [
    low b!"_isdir" (.struct .nil)]))

/-- internal/testdata/types.go:12 -/
def t_CT1 : Ty :=
  .named { name := b!"CT1", pkg := some ⟨b!"path/to/test", b!"testdata"⟩ }
    (.struct (.ofList [
    fld b!"A" (.basic .int b!"int") [(b!"sql", [b!"col_a"])],
    fld b!"B" (.basic .string b!"string") [(b!"sql", [b!"col_b", b!"nn"])],
    fld b!"C" (.basic .bool b!"bool") [(b!"sql", [b!"col_c"])],
    fld b!"D" (.basic .float64 b!"float64") [(b!"sql", [b!"col_d", b!"nn"])],
    fld b!"E" time_Time [(b!"sql", [b!"col_e"])]]))

/-- internal/testdata/types.go:41 -/
def t_T2 : Ty :=
  .named { name := b!"T2", pkg := some ⟨b!"path/to/test", b!"testdata"⟩ }
    (.struct (.ofList [
    fld b!"Foo" (.basic .int b!"int") [(b!"sql", [b!"foo"])],
    fld b!"Bar" (.basic .string b!"string") [(b!"sql", [b!"bar"])],
    fld b!"Baz" (.basic .bool b!"bool") [(b!"sql", [b!"baz"])]]))

/-- the standard library's context.Context -/
def context_Context : Ty :=
  .named { name := b!"Context", pkg := some ⟨b!"context", b!"context"⟩ }
    (.iface { methods := 4, name0 := b!"Deadline" } (.func { params := 0, results := 2, errResult := false } .chan))

/-- internal/testdata/analysis_ok.go:42 -/
def t_namedIteratorFunc : Ty :=
  .named { name := b!"namedIteratorFunc", pkg := some ⟨b!"path/to/test", b!"testdata"⟩ }
    (.func { params := 1, results := 1, errResult := true } (.ptr c_User))

/-- internal/testdata/analysis_ok.go:56 -/
def t_namedIterator : Ty :=
  .named { name := b!"namedIterator", pkg := some ⟨b!"path/to/test", b!"testdata"⟩ }
    (.iface { methods := 1, name0 := b!"Fn" } (.func { params := 1, results := 1, errResult := true } (.ptr c_User)))

/-- internal/testdata/common/common.go:123 -/
def c_Baz : Ty :=
  .named { name := b!"Baz", pkg := some ⟨b!"github.com/frk/gosql/internal/testdata/common", b!"common"⟩ }
    (.struct (.ofList [
    fld b!"Val" (.basic .string b!"string") [(b!"sql", [b!"val"])]]))

/-- internal/testdata/common/common.go:119 -/
def c_Bar : Ty :=
  .named { name := b!"Bar", pkg := some ⟨b!"github.com/frk/gosql/internal/testdata/common", b!"common"⟩ }
    (.struct (.ofList [
    emb b!"Baz" c_Baz [(b!"sql", [b!">baz_"])]]))

/-- internal/testdata/common/common.go:114 -/
def c_Foo : Ty :=
  .named { name := b!"Foo", pkg := some ⟨b!"github.com/frk/gosql/internal/testdata/common", b!"common"⟩ }
    (.struct (.ofList [
    fld b!"Bar" c_Bar [(b!"sql", [b!">bar_"])],
    fld b!"Baz" (.ptr c_Baz) [(b!"sql", [b!">baz_"])]]))

/-- gosql.go:269 -/
def g_RightJoin : Ty :=
  .named { name := b!"RightJoin", pkg := some ⟨b!"github.com/frk/gosql", b!"gosql"⟩ }
    (.struct (.ofList [
    low b!"_isdir" (.struct .nil)]))

/-- gosql.go:279 -/
def g_FullJoin : Ty :=
  .named { name := b!"FullJoin", pkg := some ⟨b!"github.com/frk/gosql", b!"gosql"⟩ }
    (.struct (.ofList [
    low b!"_isdir" (.struct .nil)]))

/-- gosql.go:239 -/
def g_CrossJoin : Ty :=
  .named { name := b!"CrossJoin", pkg := some ⟨b!"github.com/frk/gosql", b!"gosql"⟩ }
    (.struct (.ofList [
    low b!"_isdir" (.struct .nil)]))

/-- internal/testdata/analysis_ok.go:339 -/
def t_myerrorinfohandler : Ty :=
  .named { name := b!"myerrorinfohandler", pkg := some ⟨b!"path/to/test", b!"testdata"⟩, isErrorInfoHandler := true }
    (.struct .nil)

/-- the standard library's net.HardwareAddr -/
def net_HardwareAddr : Ty :=
  .named { name := b!"HardwareAddr", pkg := some ⟨b!"net", b!"net"⟩ }
    (.slice (.basic .uint8 b!"byte"))

/-- the standard library's encoding/json.RawMessage -/
def json_RawMessage : Ty :=
  .named { name := b!"RawMessage", pkg := some ⟨b!"encoding/json", b!"json"⟩, isJSONMarshaler := true, isJSONUnmarshaler := true }
    (.slice (.basic .uint8 b!"byte"))

/-- the standard library's encoding/json.Marshaler -/
def json_Marshaler : Ty :=
  .named { name := b!"Marshaler", pkg := some ⟨b!"encoding/json", b!"json"⟩, isJSONMarshaler := true }
    (.iface { methods := 1, name0 := b!"MarshalJSON" } (.func { params := 0, results := 2, errResult := false } .chan))

/-- the standard library's database/sql.NullString -/
def sql_NullString : Ty :=
  .named { name := b!"NullString", pkg := some ⟨b!"database/sql", b!"sql"⟩, isScanner := true, isValuer := true }
    (.struct .nil)

/-- the standard library's math/big.Int -/
def big_Int : Ty :=
  .named { name := b!"Int", pkg := some ⟨b!"math/big", b!"big"⟩, isJSONMarshaler := true, isJSONUnmarshaler := true }
    (.struct .nil)

/-- the standard library's encoding/json.Unmarshaler -/
def json_Unmarshaler : Ty :=
  .named { name := b!"Unmarshaler", pkg := some ⟨b!"encoding/json", b!"json"⟩, isJSONUnmarshaler := true }
    (.iface { methods := 1, name0 := b!"UnmarshalJSON" } (.func { params := 1, results := 1, errResult := true } (.slice (.basic .uint8 b!"byte"))))

/-- internal/testdata/analysis_ok.go:612 -/
def t_donothing : Ty :=
  .named { name := b!"donothing", pkg := some ⟨b!"path/to/test", b!"testdata"⟩ }
    anyTy

/-- internal/testdata/common/filter.go:7 -/
def c_FilterMaker : Ty :=
  .named { name := b!"FilterMaker", pkg := some ⟨b!"github.com/frk/gosql/internal/testdata/common", b!"common"⟩, isFilterConstructor := true }
    (.struct .nil)

/-- the standard library's net.IPNet -/
def net_IPNet : Ty :=
  .named { name := b!"IPNet", pkg := some ⟨b!"net", b!"net"⟩ }
    (.struct .nil)

/-- internal/testdata/types.go:47 -/
def t_COLOR_ENUM : Ty :=
  .named { name := b!"COLOR_ENUM", pkg := some ⟨b!"path/to/test", b!"testdata"⟩ }
    (.basic .string b!"string")

/-- internal/testdata/common/common.go:162 -/
def c_MyTime : Ty :=
  .named { name := b!"MyTime", pkg := some ⟨b!"github.com/frk/gosql/internal/testdata/common", b!"common"⟩, isScanner := true, isValuer := true }
    (.struct (.ofList [
    emb b!"Time" time_Time]))

/-- internal/testdata/types.go:49 -/
def t_CT3 : Ty :=
  .named { name := b!"CT3", pkg := some ⟨b!"path/to/test", b!"testdata"⟩ }
    (.struct (.ofList [
    fld b!"ColorText" (.basic .string b!"string") [(b!"sql", [b!"color_text"])],
    fld b!"ColorEnum" t_COLOR_ENUM [(b!"sql", [b!"color_enum"])],
    fld b!"SomeTime" c_MyTime [(b!"sql", [b!"some_time"])]]))

/-- internal/testdata/types.go:55 -/
def t_CT3b : Ty :=
  .named { name := b!"CT3b", pkg := some ⟨b!"path/to/test", b!"testdata"⟩ }
    (.struct (.ofList [
    fld b!"ColorText" (.basic .string b!"string") [(b!"sql", [b!"color_text"])],
    fld b!"ColorEnum" t_COLOR_ENUM [(b!"sql", [b!"color_enum"])],
    fld b!"SomeTime" (.ptr c_MyTime) [(b!"sql", [b!"some_time"])]]))

/-- internal/testdata/custom_types.go:20 -/
def t_cssStyles : Ty :=
  .named { name := b!"cssStyles", pkg := some ⟨b!"path/to/test", b!"testdata"⟩, isScanner := true, isValuer := true }
    (.struct .nil)

/-- internal/testdata/custom_types.go:12 -/
def t_CT4 : Ty :=
  .named { name := b!"CT4", pkg := some ⟨b!"path/to/test", b!"testdata"⟩ }
    (.struct (.ofList [
    fld b!"ColorText" (.basic .string b!"string") [(b!"sql", [b!"color_text"])],
    fld b!"ColorEnum" t_COLOR_ENUM [(b!"sql", [b!"color_enum"])],
    fld b!"H1Styles" t_cssStyles [(b!"sql", [b!"h1_styles"])],
    fld b!"SomeTime" c_MyTime [(b!"sql", [b!"some_time"])]]))

/-- internal/testdata/types.go:35 -/
def t_CT2 : Ty :=
  .named { name := b!"CT2", pkg := some ⟨b!"path/to/test", b!"testdata"⟩ }
    (.struct (.ofList [
    fld b!"Foo" (.basic .int b!"int") [(b!"sql", [b!"col_foo"])],
    fld b!"Bar" (.basic .string b!"string") [(b!"sql", [b!"col_bar"])],
    fld b!"Baz" (.basic .bool b!"bool") [(b!"sql", [b!"col_baz"])]]))

/-- internal/testdata/types.go:30 -/
def t_CT1_bad : Ty :=
  .named { name := b!"CT1_bad", pkg := some ⟨b!"path/to/test", b!"testdata"⟩ }
    (.struct (.ofList [
    fld b!"XYZ" (.basic .string b!"string") [(b!"sql", [b!"col_xyz"])]]))

end Verif.Conform
