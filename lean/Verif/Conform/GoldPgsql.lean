import Verif.Conform.GoldTypes
import Verif.Conform.GoldBase

/-
The input and the expected output of the generator tests, /repo/internal/testdata/generator/pgsql.

This file is written by /verif/tools/conform.py; do not edit it by hand.
-/
namespace Verif.Conform
open Verif.Analysis

/-- internal/testdata/generator/pgsql/insert_basic_in.go:3 -/
def pgsql_insert_basic_0 : List (FieldHdr × Ty) := [
    low b!"data" (.ptr q_pgsql_type1) [(b!"rel", [b!"pgsql_test"])]]

/-- internal/testdata/generator/pgsql/insert_basic_out.go -/
def pgsql_insert_basic : Golden :=
  { dir := b!"pgsql"
    file := b!"insert_basic"
    targets := [(b!"insertbasicquery", pgsql_insert_basic_0)]
    want := [
      b!"// DO NOT EDIT. This file was generated by \"github.com/frk/gosql\".",
      b!"",
      b!"package testdata",
      b!"",
      b!"import (",
      b!"\t\"github.com/frk/gosql\"",
      b!"\t\"github.com/frk/gosql/pgsql\"",
      b!")",
      b!"",
      b!"func (q *insertbasicquery) Exec(c gosql.Conn) error {",
      b!"\tconst queryString = `INSERT INTO \"pgsql_test\" (",
      b!"\t\t\"col_bit\"",
      b!"\t\t, \"col_bpchar\"",
      b!"\t\t, \"col_char\"",
      b!"\t\t, \"col_cidr\"",
      b!"\t\t, \"col_inet\"",
      b!"\t\t, \"col_macaddr\"",
      b!"\t\t, \"col_macaddr8\"",
      b!"\t\t, \"col_money\"",
      b!"\t\t, \"col_tsvector\"",
      b!"\t\t, \"col_uuid\"",
      b!"\t\t, \"col_varbit\"",
      b!"\t) VALUES (",
      b!"\t\t$1",
      b!"\t\t, $2",
      b!"\t\t, $3",
      b!"\t\t, $4",
      b!"\t\t, $5",
      b!"\t\t, $6",
      b!"\t\t, $7",
      b!"\t\t, $8",
      b!"\t\t, $9",
      b!"\t\t, $10",
      b!"\t\t, $11",
      b!"\t)` // `",
      b!"",
      b!"\t_, err := c.Exec(queryString,",
      b!"\t\tpgsql.BitFromBool(q.data.bit),",
      b!"\t\tpgsql.BPCharFromByte(q.data.bpchar),",
      b!"\t\tpgsql.BPCharFromRune(q.data.char),",
      b!"\t\tpgsql.CIDRFromIPNet(q.data.cidr),",
      b!"\t\tpgsql.InetFromIP(q.data.inet),",
      b!"\t\tpgsql.MACAddrFromHardwareAddr(q.data.macaddr),",
      b!"\t\tpgsql.MACAddr8FromHardwareAddr(q.data.macaddr8),",
      b!"\t\tpgsql.MoneyFromInt64(q.data.money),",
      b!"\t\tpgsql.TSVectorFromStringSlice(q.data.tsvector),",
      b!"\t\tpgsql.UUIDFromByteArray16(q.data.uuid),",
      b!"\t\tpgsql.VarBitFromBoolSlice(q.data.varbit),",
      b!"\t)",
      b!"\treturn err",
      b!"}",
      b!""] }

/-- internal/testdata/generator/pgsql/insert_array_in.go:3 -/
def pgsql_insert_array_0 : List (FieldHdr × Ty) := [
    low b!"data" (.ptr q_pgsql_type2) [(b!"rel", [b!"pgsql_test"])]]

/-- internal/testdata/generator/pgsql/insert_array_out.go -/
def pgsql_insert_array : Golden :=
  { dir := b!"pgsql"
    file := b!"insert_array"
    targets := [(b!"insertarrayquery", pgsql_insert_array_0)]
    want := [
      b!"// DO NOT EDIT. This file was generated by \"github.com/frk/gosql\".",
      b!"",
      b!"package testdata",
      b!"",
      b!"import (",
      b!"\t\"github.com/frk/gosql\"",
      b!"\t\"github.com/frk/gosql/pgsql\"",
      b!")",
      b!"",
      b!"func (q *insertarrayquery) Exec(c gosql.Conn) error {",
      b!"\tconst queryString = `INSERT INTO \"pgsql_test\" (",
      b!"\t\t\"col_bitarr\"",
      b!"\t\t, \"col_boolarr\"",
      b!"\t\t, \"col_boxarr\"",
      b!"\t\t, \"col_bpchararr\"",
      b!"\t\t, \"col_byteaarr\"",
      b!"\t\t, \"col_chararr\"",
      b!"\t\t, \"col_cidrarr\"",
      b!"\t\t, \"col_datearr\"",
      b!"\t\t, \"col_daterangearr\"",
      b!"\t\t, \"col_float4arr\"",
      b!"\t\t, \"col_float8arr\"",
      b!"\t\t, \"col_inetarr\"",
      b!"\t\t, \"col_int2arr\"",
      b!"\t\t, \"col_int2vector\"",
      b!"\t\t, \"col_int2vectorarr\"",
      b!"\t\t, \"col_int4arr\"",
      b!"\t\t, \"col_int4rangearr\"",
      b!"\t\t, \"col_int8arr\"",
      b!"\t\t, \"col_int8rangearr\"",
      b!"\t\t, \"col_jsonarr\"",
      b!"\t\t, \"col_jsonbarr\"",
      b!"\t\t, \"col_linearr\"",
      b!"\t\t, \"col_lsegarr\"",
      b!"\t\t, \"col_macaddrarr\"",
      b!"\t\t, \"col_macaddr8arr\"",
      b!"\t\t, \"col_moneyarr\"",
      b!"\t\t, \"col_numericarr\"",
      b!"\t\t, \"col_numrangearr\"",
      b!"\t\t, \"col_patharr\"",
      b!"\t\t, \"col_pointarr\"",
      b!"\t\t, \"col_polygonarr\"",
      b!"\t\t, \"col_textarr\"",
      b!"\t\t, \"col_timearr\"",
      b!"\t\t, \"col_timestamparr\"",
      b!"\t\t, \"col_timestamptzarr\"",
      b!"\t\t, \"col_timetzarr\"",
      b!"\t\t, \"col_tsqueryarr\"",
      b!"\t\t, \"col_tsrangearr\"",
      b!"\t\t, \"col_tstzrangearr\"",
      b!"\t\t, \"col_tsvectorarr\"",
      b!"\t\t, \"col_uuidarr\"",
      b!"\t\t, \"col_varbitarr\"",
      b!"\t\t, \"col_varchararr\"",
      b!"\t\t, \"col_xmlarr\"",
      b!"\t) VALUES (",
      b!"\t\t$1",
      b!"\t\t, $2",
      b!"\t\t, $3",
      b!"\t\t, $4",
      b!"\t\t, $5",
      b!"\t\t, $6",
      b!"\t\t, $7",
      b!"\t\t, $8",
      b!"\t\t, $9",
      b!"\t\t, $10",
      b!"\t\t, $11",
      b!"\t\t, $12",
      b!"\t\t, $13",
      b!"\t\t, $14",
      b!"\t\t, $15",
      b!"\t\t, $16",
      b!"\t\t, $17",
      b!"\t\t, $18",
      b!"\t\t, $19",
      b!"\t\t, $20",
      b!"\t\t, $21",
      b!"\t\t, $22",
      b!"\t\t, $23",
      b!"\t\t, $24",
      b!"\t\t, $25",
      b!"\t\t, $26",
      b!"\t\t, $27",
      b!"\t\t, $28",
      b!"\t\t, $29",
      b!"\t\t, $30",
      b!"\t\t, $31",
      b!"\t\t, $32",
      b!"\t\t, $33",
      b!"\t\t, $34",
      b!"\t\t, $35",
      b!"\t\t, $36",
      b!"\t\t, $37",
      b!"\t\t, $38",
      b!"\t\t, $39",
      b!"\t\t, $40",
      b!"\t\t, $41",
      b!"\t\t, $42",
      b!"\t\t, $43",
      b!"\t\t, $44",
      b!"\t)` // `",
      b!"",
      b!"\t_, err := c.Exec(queryString,",
      b!"\t\tpgsql.BitArrayFromUint8Slice(q.data.bitarr),",
      b!"\t\tpgsql.BoolArrayFromBoolSlice(q.data.boolarr),",
      b!"\t\tpgsql.BoxArrayFromFloat64Array2Array2Slice(q.data.boxarr),",
      b!"\t\tpgsql.BPCharArrayFromRuneSlice(q.data.bpchararr),",
      b!"\t\tpgsql.ByteaArrayFromByteSliceSlice(q.data.byteaarr),",
      b!"\t\tpgsql.BPCharArrayFromByteSlice(q.data.chararr),",
      b!"\t\tpgsql.CIDRArrayFromIPNetSlice(q.data.cidrarr),",
      b!"\t\tpgsql.DateArrayFromTimeSlice(q.data.datearr),",
      b!"\t\tpgsql.DateRangeArrayFromTimeArray2Slice(q.data.daterangearr),",
      b!"\t\tpgsql.Float4ArrayFromFloat32Slice(q.data.float4arr),",
      b!"\t\tpgsql.Float8ArrayFromFloat64Slice(q.data.float8arr),",
      b!"\t\tpgsql.InetArrayFromIPSlice(q.data.inetarr),",
      b!"\t\tpgsql.Int2ArrayFromInt16Slice(q.data.int2arr),",
      b!"\t\tpgsql.Int2VectorFromInt16Slice(q.data.int2vector),",
      b!"\t\tpgsql.Int2VectorArrayFromInt16SliceSlice(q.data.int2vectorarr),",
      b!"\t\tpgsql.Int4ArrayFromInt32Slice(q.data.int4arr),",
      b!"\t\tpgsql.Int4RangeArrayFromInt32Array2Slice(q.data.int4rangearr),",
      b!"\t\tpgsql.Int8ArrayFromInt64Slice(q.data.int8arr),",
      b!"\t\tpgsql.Int8RangeArrayFromInt64Array2Slice(q.data.int8rangearr),",
      b!"\t\tpgsql.JSONArrayFromByteSliceSlice(q.data.jsonarr),",
      b!"\t\tpgsql.JSONArrayFromByteSliceSlice(q.data.jsonbarr),",
      b!"\t\tpgsql.LineArrayFromFloat64Array3Slice(q.data.linearr),",
      b!"\t\tpgsql.LsegArrayFromFloat64Array2Array2Slice(q.data.lsegarr),",
      b!"\t\tpgsql.MACAddrArrayFromHardwareAddrSlice(q.data.macaddrarr),",
      b!"\t\tpgsql.MACAddr8ArrayFromHardwareAddrSlice(q.data.macaddr8arr),",
      b!"\t\tpgsql.MoneyArrayFromInt64Slice(q.data.moneyarr),",
      b!"\t\tpgsql.NumericArrayFromInt64Slice(q.data.numericarr),",
      b!"\t\tpgsql.NumRangeArrayFromFloat64Array2Slice(q.data.numrangearr),",
      b!"\t\tpgsql.PathArrayFromFloat64Array2SliceSlice(q.data.patharr),",
      b!"\t\tpgsql.PointArrayFromFloat64Array2Slice(q.data.pointarr),",
      b!"\t\tpgsql.PolygonArrayFromFloat64Array2SliceSlice(q.data.polygonarr),",
      b!"\t\tpgsql.TextArrayFromStringSlice(q.data.textarr),",
      b!"\t\tpgsql.TimeArrayFromTimeSlice(q.data.timearr),",
      b!"\t\tpgsql.TimestampArrayFromTimeSlice(q.data.timestamparr),",
      b!"\t\tpgsql.TimestamptzArrayFromTimeSlice(q.data.timestamptzarr),",
      b!"\t\tpgsql.TimetzArrayFromTimeSlice(q.data.timetzarr),",
      b!"\t\tpgsql.TSQueryArrayFromStringSlice(q.data.tsqueryarr),",
      b!"\t\tpgsql.TsRangeArrayFromTimeArray2Slice(q.data.tsrangearr),",
      b!"\t\tpgsql.TstzRangeArrayFromTimeArray2Slice(q.data.tstzrangearr),",
      b!"\t\tpgsql.TSVectorArrayFromStringSliceSlice(q.data.tsvectorarr),",
      b!"\t\tpgsql.UUIDArrayFromByteArray16Slice(q.data.uuidarr),",
      b!"\t\tpgsql.VarBitArrayFromBoolSliceSlice(q.data.varbitarr),",
      b!"\t\tpgsql.VarCharArrayFromStringSlice(q.data.varchararr),",
      b!"\t\tpgsql.XMLArrayFromByteSliceSlice(q.data.xmlarr),",
      b!"\t)",
      b!"\treturn err",
      b!"}",
      b!""] }

def pgsqlGoldens0 : List Golden := [
  pgsql_insert_basic, pgsql_insert_array]

def pgsqlGoldens : List Golden :=
  pgsqlGoldens0

end Verif.Conform
