import Verif.Conform.Types

/-
The named types of /repo/internal/testdata/generator.

This file is written by /verif/tools/conform.py; do not edit it by hand.
-/
namespace Verif.Conform
open Verif.Analysis

/-- internal/testdata/common/common.go:27 -/
def c_User2 : Ty :=
  .named { name := b!"User2", pkg := some ⟨b!"github.com/frk/gosql/internal/testdata/common", b!"common"⟩, isAfterScanner := true }
    (.struct (.ofList [
    fld b!"Id" (.basic .int b!"int") [(b!"json", [b!"id"]), (b!"sql", [b!"id"])],
    fld b!"Email" (.basic .string b!"string") [(b!"json", [b!"email"]), (b!"sql", [b!"email"])],
    fld b!"FullName" (.basic .string b!"string") [(b!"json", [b!"fullName"]), (b!"sql", [b!"full_name"])],
    fld b!"CreatedAt" time_Time [(b!"json", [b!"createdAt"]), (b!"sql", [b!"created_at"])]]))

/-- internal/testdata/common/common.go:23 -/
def c_User2Iterator : Ty :=
  .named { name := b!"User2Iterator", pkg := some ⟨b!"github.com/frk/gosql/internal/testdata/common", b!"common"⟩ }
    (.iface { methods := 1, name0 := b!"NextUser" } (.func { params := 1, results := 1, errResult := true } (.ptr c_User2)))

/-- internal/testdata/common/common.go:154 -/
def c_ErrorHandler : Ty :=
  .named { name := b!"ErrorHandler", pkg := some ⟨b!"github.com/frk/gosql/internal/testdata/common", b!"common"⟩, isErrorHandler := true }
    (.struct .nil)

/-- internal/testdata/common/common.go:158 -/
def c_ErrorInfoHandler : Ty :=
  .named { name := b!"ErrorInfoHandler", pkg := some ⟨b!"github.com/frk/gosql/internal/testdata/common", b!"common"⟩, isErrorInfoHandler := true }
    (.struct .nil)

/-- internal/testdata/common/common.go:10 -/
def c_UserIterator : Ty :=
  .named { name := b!"UserIterator", pkg := some ⟨b!"github.com/frk/gosql/internal/testdata/common", b!"common"⟩ }
    (.iface { methods := 1, name0 := b!"NextUser" } (.func { params := 1, results := 1, errResult := true } (.ptr c_User)))

/-- gosql.go:249 -/
def g_InnerJoin : Ty :=
  .named { name := b!"InnerJoin", pkg := some ⟨b!"github.com/frk/gosql", b!"gosql"⟩ }
    (.struct (.ofList [
    low b!"_isdir" (.struct .nil)]))

/-- internal/testdata/common/common.go:109 -/
def c_Nested : Ty :=
  .named { name := b!"Nested", pkg := some ⟨b!"github.com/frk/gosql/internal/testdata/common", b!"common"⟩ }
    (.struct (.ofList [
    fld b!"FOO" (.ptr c_Foo) [(b!"sql", [b!">foo_"])],
    emb b!"Foo" c_Foo [(b!"sql", [b!">foo2_"])]]))

/-- internal/testdata/types.go:47 -/
def d_COLOR_ENUM : Ty :=
  .named { name := b!"COLOR_ENUM", pkg := some ⟨b!"github.com/frk/gosql/internal/testdata", b!"testdata"⟩ }
    (.basic .string b!"string")

/-- internal/testdata/types.go:55 -/
def d_CT3b : Ty :=
  .named { name := b!"CT3b", pkg := some ⟨b!"github.com/frk/gosql/internal/testdata", b!"testdata"⟩ }
    (.struct (.ofList [
    fld b!"ColorText" (.basic .string b!"string") [(b!"sql", [b!"color_text"])],
    fld b!"ColorEnum" d_COLOR_ENUM [(b!"sql", [b!"color_enum"])],
    fld b!"SomeTime" (.ptr c_MyTime) [(b!"sql", [b!"some_time"])]]))

/-- internal/testdata/generator/insert/basic_slice_in.go:7 -/
def q_insert_User : Ty :=
  .named { name := b!"User", pkg := some ⟨b!"github.com/frk/gosql/internal/testdata/generator/insert", b!"testdata"⟩ }
    (.struct (.ofList [
    fld b!"Id" (.basic .int b!"int") [(b!"sql", [b!"id"])],
    fld b!"Email" (.basic .string b!"string") [(b!"sql", [b!"email"])],
    fld b!"FullName" (.basic .string b!"string") [(b!"sql", [b!"full_name"])],
    fld b!"CreatedAt" time_Time [(b!"sql", [b!"created_at"])]]))

/-- internal/testdata/common/common.go:52 -/
def c_User4 : Ty :=
  .named { name := b!"User4", pkg := some ⟨b!"github.com/frk/gosql/internal/testdata/common", b!"common"⟩ }
    (.struct (.ofList [
    fld b!"Id" (.basic .int b!"int") [(b!"sql", [b!"id", b!"ro"])],
    fld b!"Email" (.basic .string b!"string") [(b!"sql", [b!"email"])],
    fld b!"FullName" (.basic .string b!"string") [(b!"sql", [b!"full_name"])],
    fld b!"IsActive" (.basic .bool b!"bool") [(b!"sql", [b!"is_active"])],
    fld b!"CreatedAt" time_Time [(b!"sql", [b!"created_at"])],
    fld b!"UpdatedAt" time_Time [(b!"sql", [b!"updated_at"])]]))

/-- internal/testdata/common/common.go:39 -/
def c_User3 : Ty :=
  .named { name := b!"User3", pkg := some ⟨b!"github.com/frk/gosql/internal/testdata/common", b!"common"⟩ }
    (.struct (.ofList [
    fld b!"Id" (.basic .int b!"int") [(b!"sql", [b!"id", b!"pk", b!"ro"])],
    fld b!"Email" (.basic .string b!"string") [(b!"sql", [b!"email"])],
    fld b!"Password" (.slice (.basic .uint8 b!"byte")) [(b!"sql", [b!"password", b!"wo", b!"xf"])],
    fld b!"CreatedAt" time_Time [(b!"sql", [b!"created_at"])],
    fld b!"UpdatedAt" time_Time [(b!"sql", [b!"updated_at"])]]))

/-- internal/testdata/common/common.go:93 -/
def c_ArbitraryStruct : Ty :=
  .named { name := b!"ArbitraryStruct", pkg := some ⟨b!"github.com/frk/gosql/internal/testdata/common", b!"common"⟩ }
    (.struct .nil)

/-- internal/testdata/common/common.go:66 -/
def c_User5 : Ty :=
  .named { name := b!"User5", pkg := some ⟨b!"github.com/frk/gosql/internal/testdata/common", b!"common"⟩ }
    (.struct (.ofList [
    fld b!"Id" (.basic .int b!"int") [(b!"sql", [b!"id", b!"ro"])],
    fld b!"Email" (.basic .string b!"string") [(b!"sql", [b!"email"])],
    fld b!"FullName" (.basic .string b!"string") [(b!"sql", [b!"full_name"])],
    fld b!"IsActive" (.basic .bool b!"bool") [(b!"sql", [b!"is_active"])],
    fld b!"Metadata1" (.map (.basic .string b!"string") anyTy) [(b!"sql", [b!"metadata1", b!"json"])],
    fld b!"Metadata2" c_ArbitraryStruct [(b!"sql", [b!"metadata2", b!"json"])],
    fld b!"CreatedAt" time_Time [(b!"sql", [b!"created_at"])],
    fld b!"UpdatedAt" time_Time [(b!"sql", [b!"updated_at"])]]))

/-- internal/testdata/common/common.go:99 -/
def c_ConflictData : Ty :=
  .named { name := b!"ConflictData", pkg := some ⟨b!"github.com/frk/gosql/internal/testdata/common", b!"common"⟩ }
    (.struct (.ofList [
    fld b!"Id" (.basic .int b!"int") [(b!"sql", [b!"id", b!"ro"])],
    fld b!"Key" (.basic .int b!"int") [(b!"sql", [b!"key"])],
    fld b!"Name" (.basic .string b!"string") [(b!"sql", [b!"name"])],
    fld b!"Fruit" (.basic .string b!"string") [(b!"sql", [b!"fruit"])],
    fld b!"Value" (.basic .float64 b!"float64") [(b!"sql", [b!"value"])]]))

/-- internal/testdata/common/common.go:82 -/
def c_User6 : Ty :=
  .named { name := b!"User6", pkg := some ⟨b!"github.com/frk/gosql/internal/testdata/common", b!"common"⟩ }
    (.struct (.ofList [
    fld b!"Id" (.basic .int b!"int") [(b!"json", [b!"id"]), (b!"sql", [b!"id", b!"ro"])],
    fld b!"Email" (.basic .string b!"string") [(b!"json", [b!"email"]), (b!"sql", [b!"email"])],
    fld b!"FullName" (.basic .string b!"string") [(b!"json", [b!"fullName"]), (b!"sql", [b!"full_name"])],
    fld b!"IsActive" (.basic .bool b!"bool") [(b!"json", [b!"isActive"]), (b!"sql", [b!"is_active"])],
    fld b!"Metadata1" c_ArbitraryStruct [(b!"json", [b!"-"]), (b!"sql", [b!"metadata1", b!"json"])],
    fld b!"Metadata2" c_ArbitraryStruct [(b!"json", [b!""]), (b!"sql", [b!"metadata2", b!"json"])],
    fld b!"CreatedAt" time_Time [(b!"json", [b!"createdAt"]), (b!"sql", [b!"created_at"])],
    fld b!"UpdatedAt" time_Time [(b!"json", [b!"updatedAt"]), (b!"sql", [b!"updated_at"])]]))

/-- internal/testdata/common/common.go:144 -/
def c_EBaz : Ty :=
  .named { name := b!"EBaz", pkg := some ⟨b!"github.com/frk/gosql/internal/testdata/common", b!"common"⟩ }
    (.struct (.ofList [
    fld b!"Val" (.basic .string b!"string") [(b!"json", [b!"value"]), (b!"sql", [b!"val"])]]))

/-- internal/testdata/common/common.go:140 -/
def c_EBar : Ty :=
  .named { name := b!"EBar", pkg := some ⟨b!"github.com/frk/gosql/internal/testdata/common", b!"common"⟩ }
    (.struct (.ofList [
    emb b!"EBaz" c_EBaz [(b!"sql", [b!">baz_"])]]))

/-- internal/testdata/common/common.go:135 -/
def c_EFoo : Ty :=
  .named { name := b!"EFoo", pkg := some ⟨b!"github.com/frk/gosql/internal/testdata/common", b!"common"⟩ }
    (.struct (.ofList [
    fld b!"Bar" c_EBar [(b!"json", [b!"barField"]), (b!"sql", [b!">bar_"])],
    fld b!"Baz" (.ptr c_EBaz) [(b!"json", [b!"bazField"]), (b!"sql", [b!">baz_"])]]))

/-- internal/testdata/common/common.go:130 -/
def c_Embedded : Ty :=
  .named { name := b!"Embedded", pkg := some ⟨b!"github.com/frk/gosql/internal/testdata/common", b!"common"⟩ }
    (.struct (.ofList [
    fld b!"FOO" (.ptr c_EFoo) [(b!"json", [b!"fooField"]), (b!"sql", [b!">foo_"])],
    emb b!"EFoo" c_EFoo [(b!"sql", [b!">foo2_"])]]))

/-- internal/testdata/types.go:12 -/
def d_CT1 : Ty :=
  .named { name := b!"CT1", pkg := some ⟨b!"github.com/frk/gosql/internal/testdata", b!"testdata"⟩ }
    (.struct (.ofList [
    fld b!"A" (.basic .int b!"int") [(b!"sql", [b!"col_a"])],
    fld b!"B" (.basic .string b!"string") [(b!"sql", [b!"col_b", b!"nn"])],
    fld b!"C" (.basic .bool b!"bool") [(b!"sql", [b!"col_c"])],
    fld b!"D" (.basic .float64 b!"float64") [(b!"sql", [b!"col_d", b!"nn"])],
    fld b!"E" time_Time [(b!"sql", [b!"col_e"])]]))

/-- the standard library's net.IP -/
def net_IP : Ty :=
  .named { name := b!"IP", pkg := some ⟨b!"net", b!"net"⟩ }
    (.slice (.basic .uint8 b!"byte"))

/-- internal/testdata/generator/pgsql/datatype.go:8 -/
def q_pgsql_type1 : Ty :=
  .named { name := b!"type1", pkg := some ⟨b!"github.com/frk/gosql/internal/testdata/generator/pgsql", b!"testdata"⟩ }
    (.struct (.ofList [
    low b!"bit" (.basic .bool b!"bool") [(b!"sql", [b!"col_bit"])],
    low b!"bpchar" (.basic .uint8 b!"byte") [(b!"sql", [b!"col_bpchar"])],
    low b!"char" (.basic .int32 b!"rune") [(b!"sql", [b!"col_char"])],
    low b!"cidr" net_IPNet [(b!"sql", [b!"col_cidr"])],
    low b!"inet" net_IP [(b!"sql", [b!"col_inet"])],
    low b!"macaddr" net_HardwareAddr [(b!"sql", [b!"col_macaddr"])],
    low b!"macaddr8" net_HardwareAddr [(b!"sql", [b!"col_macaddr8"])],
    low b!"money" (.basic .int64 b!"int64") [(b!"sql", [b!"col_money"])],
    low b!"tsvector" (.slice (.basic .string b!"string")) [(b!"sql", [b!"col_tsvector"])],
    low b!"uuid" (.array 16 (.basic .uint8 b!"byte")) [(b!"sql", [b!"col_uuid"])],
    low b!"varbit" (.slice (.basic .bool b!"bool")) [(b!"sql", [b!"col_varbit"])]]))

/-- internal/testdata/generator/pgsql/datatype.go:22 -/
def q_pgsql_type2 : Ty :=
  .named { name := b!"type2", pkg := some ⟨b!"github.com/frk/gosql/internal/testdata/generator/pgsql", b!"testdata"⟩ }
    (.struct (.ofList [
    low b!"bitarr" (.slice (.basic .uint8 b!"uint8")) [(b!"sql", [b!"col_bitarr"])],
    low b!"boolarr" (.slice (.basic .bool b!"bool")) [(b!"sql", [b!"col_boolarr"])],
    low b!"boxarr" (.slice (.array 2 (.array 2 (.basic .float64 b!"float64")))) [(b!"sql", [b!"col_boxarr"])],
    low b!"bpchararr" (.slice (.basic .int32 b!"rune")) [(b!"sql", [b!"col_bpchararr"])],
    low b!"byteaarr" (.slice (.slice (.basic .uint8 b!"byte"))) [(b!"sql", [b!"col_byteaarr"])],
    low b!"chararr" (.slice (.basic .uint8 b!"byte")) [(b!"sql", [b!"col_chararr"])],
    low b!"cidrarr" (.slice net_IPNet) [(b!"sql", [b!"col_cidrarr"])],
    low b!"datearr" (.slice time_Time) [(b!"sql", [b!"col_datearr"])],
    low b!"daterangearr" (.slice (.array 2 time_Time)) [(b!"sql", [b!"col_daterangearr"])],
    low b!"float4arr" (.slice (.basic .float32 b!"float32")) [(b!"sql", [b!"col_float4arr"])],
    low b!"float8arr" (.slice (.basic .float64 b!"float64")) [(b!"sql", [b!"col_float8arr"])],
    low b!"inetarr" (.slice net_IP) [(b!"sql", [b!"col_inetarr"])],
    low b!"int2arr" (.slice (.basic .int16 b!"int16")) [(b!"sql", [b!"col_int2arr"])],
    low b!"int2vector" (.slice (.basic .int16 b!"int16")) [(b!"sql", [b!"col_int2vector"])],
    low b!"int2vectorarr" (.slice (.slice (.basic .int16 b!"int16"))) [(b!"sql", [b!"col_int2vectorarr"])],
    low b!"int4arr" (.slice (.basic .int32 b!"int32")) [(b!"sql", [b!"col_int4arr"])],
    low b!"int4rangearr" (.slice (.array 2 (.basic .int32 b!"int32"))) [(b!"sql", [b!"col_int4rangearr"])],
    low b!"int8arr" (.slice (.basic .int64 b!"int64")) [(b!"sql", [b!"col_int8arr"])],
    low b!"int8rangearr" (.slice (.array 2 (.basic .int64 b!"int64"))) [(b!"sql", [b!"col_int8rangearr"])],
    low b!"jsonarr" (.slice (.slice (.basic .uint8 b!"byte"))) [(b!"sql", [b!"col_jsonarr"])],
    low b!"jsonbarr" (.slice (.slice (.basic .uint8 b!"byte"))) [(b!"sql", [b!"col_jsonbarr"])],
    low b!"linearr" (.slice (.array 3 (.basic .float64 b!"float64"))) [(b!"sql", [b!"col_linearr"])],
    low b!"lsegarr" (.slice (.array 2 (.array 2 (.basic .float64 b!"float64")))) [(b!"sql", [b!"col_lsegarr"])],
    low b!"macaddrarr" (.slice net_HardwareAddr) [(b!"sql", [b!"col_macaddrarr"])],
    low b!"macaddr8arr" (.slice net_HardwareAddr) [(b!"sql", [b!"col_macaddr8arr"])],
    low b!"moneyarr" (.slice (.basic .int64 b!"int64")) [(b!"sql", [b!"col_moneyarr"])],
    low b!"numericarr" (.slice (.basic .int64 b!"int64")) [(b!"sql", [b!"col_numericarr"])],
    low b!"numrangearr" (.slice (.array 2 (.basic .float64 b!"float64"))) [(b!"sql", [b!"col_numrangearr"])],
    low b!"patharr" (.slice (.slice (.array 2 (.basic .float64 b!"float64")))) [(b!"sql", [b!"col_patharr"])],
    low b!"pointarr" (.slice (.array 2 (.basic .float64 b!"float64"))) [(b!"sql", [b!"col_pointarr"])],
    low b!"polygonarr" (.slice (.slice (.array 2 (.basic .float64 b!"float64")))) [(b!"sql", [b!"col_polygonarr"])],
    low b!"textarr" (.slice (.basic .string b!"string")) [(b!"sql", [b!"col_textarr"])],
    low b!"timearr" (.slice time_Time) [(b!"sql", [b!"col_timearr"])],
    low b!"timestamparr" (.slice time_Time) [(b!"sql", [b!"col_timestamparr"])],
    low b!"timestamptzarr" (.slice time_Time) [(b!"sql", [b!"col_timestamptzarr"])],
    low b!"timetzarr" (.slice time_Time) [(b!"sql", [b!"col_timetzarr"])],
    low b!"tsqueryarr" (.slice (.basic .string b!"string")) [(b!"sql", [b!"col_tsqueryarr"])],
    low b!"tsrangearr" (.slice (.array 2 time_Time)) [(b!"sql", [b!"col_tsrangearr"])],
    low b!"tstzrangearr" (.slice (.array 2 time_Time)) [(b!"sql", [b!"col_tstzrangearr"])],
    low b!"tsvectorarr" (.slice (.slice (.basic .string b!"string"))) [(b!"sql", [b!"col_tsvectorarr"])],
    low b!"uuidarr" (.slice (.array 16 (.basic .uint8 b!"byte"))) [(b!"sql", [b!"col_uuidarr"])],
    low b!"varbitarr" (.slice (.slice (.basic .bool b!"bool"))) [(b!"sql", [b!"col_varbitarr"])],
    low b!"varchararr" (.slice (.basic .string b!"string")) [(b!"sql", [b!"col_varchararr"])],
    low b!"xmlarr" (.slice (.slice (.basic .uint8 b!"byte"))) [(b!"sql", [b!"col_xmlarr"])]]))

end Verif.Conform
